import Mathlib.Analysis.Complex.Basic
import Verif.Model.Jacobian

/-!
# Model of `/repo/ngmix/observation.py`, k space: `KObservation`, `make_iilist`, `make_kobs`

A metadata dictionary is an object with an identity (a natural number, its address): several observations can hold
the same one.  GalSim is a parameter.
-/

namespace Ngmix

noncomputable section

/-- The pixels of a galsim image: shape of the array and scale.  `observation.py:1256-1258`. -/
structure Grid where
  nrow : ℕ
  ncol : ℕ
  scale : ℝ

/-- Number of pixels, `kimage.array.size`.  `galsim_results.py:199`. -/
def Grid.size (g : Grid) : ℕ := g.nrow * g.ncol

/-- A complex galsim image, raveled.  `observation.py:1175-1186`. -/
structure KImg where
  grid : Grid
  data : List ℂ

/-- A real galsim image, raveled.  `observation.py:1188-1207`. -/
structure WImg where
  nrow : ℕ
  ncol : ℕ
  data : List ℝ

/-- The psf of a k space observation: a `KObservation`, of which only image and weight are used.
`observation.py:1224-1247`. -/
structure KPsf where
  kimage : KImg
  weight : WImg
  meta_ : ℕ

/-- A `KObservation`: `meta_` is the address of the metadata dictionary.  `observation.py:1161-1173`; the psf is read by `observation.py:1210-1222`. -/
structure KObs where
  kimage : KImg
  weight : WImg
  psf : Option KPsf
  jacobian : Jacobian
  meta_ : ℕ

/-- The `kimage` argument.  `observation.py:1175-1186`. -/
inductive KImgArg
  | other                        -- not a galsim image
  | real                         -- a galsim image that is not complex
  | complex (k : KImg)

/-- The `weight` argument.  `observation.py:1188-1207`. -/
inductive KWtArg
  | none
  | other                        -- not a galsim image
  | image (w : WImg)

/-- The `psf` argument.  `observation.py:1224-1247`. -/
inductive KPsfArg
  | none
  | other                        -- not a KObservation
  | kobs (p : KPsf)

/-- The `meta` argument.  `observation.py:36-49`: `None` makes a new dictionary. -/
inductive KMetaArg
  | none
  | other                        -- not a dict
  | dict (address : ℕ)

/-- `_set_image`, `observation.py:1175-1186`. -/
def kSetImage : KImgArg → Except PyErr KImg
  | .other => .error .value
  | .real => .error .value
  | .complex k => .ok k

/-- `_set_weight`, `observation.py:1188-1207`. -/
def kSetWeight (k : KImg) : KWtArg → Except PyErr WImg
  | .none => .ok ⟨k.grid.nrow, k.grid.ncol, List.replicate k.grid.size 1.0⟩
  | .other => .error .assertion
  | .image w => if (w.nrow, w.ncol) ≠ (k.grid.nrow, k.grid.ncol) then .error .value else .ok w

/-- `np.allclose(a, b)` of numbers with the default tolerances.  `observation.py:1247`. -/
def npAllclose (a b : ℝ) : Prop := |a - b| ≤ 1e-8 + 1e-5 * |b|

/-- `set_psf`, `observation.py:1224-1247`: the psf left in the object and the outcome.  The old psf is deleted and
the new one stored before the checks. -/
def kSetPsf (k : KImg) (old : Option KPsf) (psf : KPsfArg) : Option KPsf × Except PyErr Unit :=
  let cleared : Option KPsf := if old.isSome then none else old
  match psf with
  | .none => (cleared, .ok ())
  | .other => (cleared, .error .assertion)
  | .kobs p =>
    if (p.kimage.grid.nrow, p.kimage.grid.ncol) ≠ (k.grid.nrow, k.grid.ncol) then (some p, .error .value)
    else open Classical in if npAllclose p.kimage.grid.scale k.grid.scale then (some p, .ok ())
    else (some p, .error .assertion)

/-- The center of the pixels along an axis.  `observation.py:1260-1264`. -/
def kCen (dim : ℕ) : ℝ := if dim % 2 = 0 then ((dim : ℝ) - 1.0) / 2.0 + 0.5 else ((dim : ℝ) - 1.0) / 2.0

/-- `_set_jacobian`, `observation.py:1249-1270`. -/
def kSetJacobian (g : Grid) : Except PyErr Jacobian :=
  Jacobian.diagonal g.scale (Kw.ofList [("row", kCen g.nrow), ("col", kCen g.ncol)])

/-- `set_meta`, `observation.py:36-49`; `fresh` is the address of a new dictionary. -/
def kSetMeta (fresh : ℕ) : KMetaArg → Except PyErr ℕ
  | .none => .ok fresh
  | .other => .error .type
  | .dict a => .ok a

/-- `KObservation.__init__`, `observation.py:1161-1173`. -/
def newKObs (fresh : ℕ) (kimage : KImgArg) (weight : KWtArg) (psf : KPsfArg) (m : KMetaArg) : Except PyErr KObs :=
  (kSetImage kimage).bind fun k => (kSetWeight k weight).bind fun w =>
    match kSetPsf k none psf with
    | (_, .error e) => .error e
    | (p, .ok _) => (kSetJacobian k.grid).bind fun j => (kSetMeta fresh m).map fun a => ⟨k, w, p, j, a⟩

/-- `set_psf` on an object.  `observation.py:1224-1247`. -/
def KObs.setPsf (o : KObs) (psf : KPsfArg) : KObs × Except PyErr Unit :=
  ({ o with psf := (kSetPsf o.kimage o.psf psf).1 }, (kSetPsf o.kimage o.psf psf).2)

/-- What `make_iilist` and `make_kobs` read from the psf of an observation.  `observation.py:1420-1442`. -/
structure RPsf where
  image : List ℝ
  weight : List ℝ
  wcs : Jacobian
  meta_ : ℕ

/-- What they read from an observation.  `observation.py:1404-1476`. -/
structure RObs where
  image : List ℝ
  weight : List ℝ
  wcs : Jacobian
  meta_ : ℕ
  psf : Option RPsf

/-- GalSim: `InterpolatedImage` of an image with a wcs (`none` for an image with NaN), its `getGoodImageSize` and
`stepk`, and `drawKImage(nx=dim, ny=dim, scale=dk)`.  `observation.py:1407-1461, 1518-1537`. -/
structure KLib where
  II : Type
  interp : Option (List ℝ) → Jacobian → Except PyErr II
  goodSize : II → ℕ
  stepk : II → ℝ
  drawK : II → (dim : ℕ) → ℝ → Except PyErr (Fin (dim * dim) → ℂ)

/-- An entry of `iilist` with the number and spacing found for it.  `observation.py:1404-1476`. -/
structure IIEntry (L : KLib) where
  ii : L.II
  psfII : Option L.II
  obs : RObs
  dim : ℕ
  dk : ℝ

/-- `obs.psf.image/obs.psf.image.sum()`, `none` when the sum is zero.  `observation.py:1424-1425`. -/
def normalizedPsf (im : List ℝ) : Option (List ℝ) :=
  open Classical in if im.sum = 0 then none else some (im.map fun x => x / im.sum)

/-- The body of the loop of `make_iilist`, `observation.py:1404-1476`. -/
def iiEntry (L : KLib) (o : RObs) : Except PyErr (IIEntry L) :=
  (L.interp (some o.image) o.wcs).bind fun ii =>
    match o.psf with
    | some p => (L.interp (normalizedPsf p.image) p.wcs).map fun q =>
        ⟨ii, some q, o, 1 + L.goodSize q, L.stepk ii⟩
    | none => .ok ⟨ii, none, o, 1 + L.goodSize ii, L.stepk ii⟩

/-- The loop over the observations of one band.  `observation.py:1404-1476`. -/
def iiBand (L : KLib) : List RObs → Except PyErr (List (IIEntry L))
  | [] => .ok []
  | o :: os => (iiEntry L o).bind fun e => (iiBand L os).map fun es => e :: es

/-- The loop over the bands.  `observation.py:1402-1478`. -/
def iiAll (L : KLib) : List (List RObs) → Except PyErr (List (List (IIEntry L)))
  | [] => .ok []
  | os :: rest => (iiBand L os).bind fun e => (iiAll L rest).map fun es => e :: es

/-- `imax = dimarr.argmax(); dimarr[imax], dkarr[imax]`: the first of the largest.  `observation.py:1480-1486`. -/
def iiBest (best : ℕ × ℝ) : List (ℕ × ℝ) → ℕ × ℝ
  | [] => best
  | e :: es => if best.1 < e.1 then iiBest e es else iiBest best es

/-- `make_iilist`, `observation.py:1361-1488`: the `argmax` of an empty array is a `ValueError`. -/
def makeIilist (L : KLib) (obs : List (List RObs)) : Except PyErr (List (List (IIEntry L)) × ℕ × ℝ) :=
  (iiAll L obs).bind fun es =>
    match es.flatten.map fun e => (e.dim, e.dk) with
    | [] => .error .value
    | d :: ds => .ok (es, iiBest d ds)

/-- `weight.max()`, a `ValueError` for an empty array.  `observation.py:1526, 1539`. -/
def npMax : List ℝ → Except PyErr ℝ
  | [] => .error .value
  | x :: xs => .ok (xs.foldl max x)

/-- The weight image of `make_kobs`, `observation.py:1525-1530`, `:1539-1544`: half of the largest weight, divided
by the number of pixels. -/
def kWeight (dim : ℕ) (w : List ℝ) : Except PyErr WImg :=
  (npMax w).map fun m => ⟨dim, dim, List.replicate (dim * dim) ((0.5 * m) * (1.0 / ((dim * dim : ℕ) : ℝ)))⟩

/-- A value in a metadata dictionary: one set by the user, or one of those set by `make_kobs`.
`observation.py:1546-1559`. -/
inductive MetaVal (L : KLib)
  | user (n : ℕ)
  | gsimage (im : List ℝ)
  | scale (s : ℝ)
  | ii (i : L.II)

/-- The metadata dictionaries: address, key, value.  `observation.py:16-63`. -/
abbrev MetaMem (L : KLib) := ℕ → String → Option (MetaVal L)

/-- `d[key] = v`.  `observation.py:1558-1559`. -/
def metaSet {L : KLib} (mem : MetaMem L) (a : ℕ) (key : String) (v : MetaVal L) : MetaMem L :=
  fun b k => if b = a ∧ k = key then some v else mem b k

/-- The image of the psf drawn on the common pixels, and the new dictionary for its metadata (a copy of the psf's,
at the new address, with the interpolated image).  `observation.py:1532-1553`. -/
def kobsPsf (L : KLib) (dim : ℕ) (dk : ℝ) (fresh : ℕ) (mem : MetaMem L) (q : L.II) (p : RPsf) :
    MetaMem L × Except PyErr KPsf :=
  match L.drawK q dim dk with
  | .error e => (mem, .error e)
  | .ok d =>
    match kWeight dim p.weight with
    | .error e => (mem, .error e)
    | .ok w =>
      let mem1 : MetaMem L := fun b k => if b = fresh then mem p.meta_ k else mem b k
      let mem2 := metaSet mem1 fresh "ii" (.ii q)
      match newKObs fresh (.complex ⟨⟨dim, dim, dk⟩, List.ofFn d⟩) (.image w) .none (.dict fresh) with
      | .error e => (mem2, .error e)
      | .ok k => (mem2, .ok ⟨k.kimage, k.weight, k.meta_⟩)

/-- The body of the loop of `make_kobs`, `observation.py:1516-1565`.  The metadata of the observation is used as it
is, not copied. -/
def kobsOne (L : KLib) (dim : ℕ) (dk : ℝ) (fresh : ℕ) (mem : MetaMem L) (e : IIEntry L) :
    MetaMem L × Except PyErr KObs :=
  match L.drawK e.ii dim dk with
  | .error x => (mem, .error x)
  | .ok d =>
    match kWeight dim e.obs.weight with
    | .error x => (mem, .error x)
    | .ok w =>
      let psf : MetaMem L × Except PyErr KPsfArg :=
        match e.psfII, e.obs.psf with
        | some q, some p =>
          match kobsPsf L dim dk fresh mem q p with
          | (mem', .error x) => (mem', .error x)
          | (mem', .ok k) => (mem', .ok (.kobs k))
        | _, _ => (mem, .ok .none)
      match psf with
      | (mem', .error x) => (mem', .error x)
      | (mem', .ok p) =>
        let mem2 := metaSet (metaSet mem' e.obs.meta_ "realspace_gsimage" (.gsimage e.obs.image)) e.obs.meta_
          "scale" (.scale e.obs.wcs.scale)
        (mem2, newKObs fresh (.complex ⟨⟨dim, dim, dk⟩, List.ofFn d⟩) (.image w) p (.dict e.obs.meta_))

/-- One band; `fresh` is an unused address, and the next ones are too.  `observation.py:1513-1567`. -/
def kobsBand (L : KLib) (dim : ℕ) (dk : ℝ) : ℕ → MetaMem L → List (IIEntry L) → MetaMem L × Except PyErr (List KObs)
  | _, mem, [] => (mem, .ok [])
  | fresh, mem, e :: es =>
    match kobsOne L dim dk fresh mem e with
    | (mem', .error x) => (mem', .error x)
    | (mem', .ok k) =>
      match kobsBand L dim dk (fresh + 1) mem' es with
      | (mem'', r) => (mem'', r.map fun ks => k :: ks)

/-- All the bands.  `observation.py:1511-1571`. -/
def kobsAll (L : KLib) (dim : ℕ) (dk : ℝ) : ℕ → MetaMem L → List (List (IIEntry L)) →
    MetaMem L × Except PyErr (List (List KObs))
  | _, mem, [] => (mem, .ok [])
  | fresh, mem, es :: rest =>
    match kobsBand L dim dk fresh mem es with
    | (mem', .error x) => (mem', .error x)
    | (mem', .ok ks) =>
      match kobsAll L dim dk (fresh + es.length) mem' rest with
      | (mem'', r) => (mem'', r.map fun kss => ks :: kss)

/-- `make_kobs`, `observation.py:1491-1571`; `fresh` is the first unused address of a dictionary. -/
def makeKobs (L : KLib) (fresh : ℕ) (mem : MetaMem L) (obs : List (List RObs)) :
    MetaMem L × Except PyErr (List (List KObs)) :=
  match makeIilist L obs with
  | .error e => (mem, .error e)
  | .ok (es, dim, dk) => kobsAll L dim dk fresh mem es

end

end Ngmix
