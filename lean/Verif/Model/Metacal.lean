import Verif.Model.Shape
import Verif.Model.Pixels
import Verif.Model.ObsList

/-!
# Model of `/repo/ngmix/metacal/metacal.py` (observations made by the Metacal classes)

GalSim is external: surface brightness profiles are elements of an arbitrary type `O`, its operations arbitrary
functions that may raise.  Observations are values here: the classes work on `obs.copy()` only (`metacal.py:455-477`)
and the independence of copies is C30.  The pixel list is determined by the rest of the observation (C29) and is not
repeated.  `X` stands for every other attribute, which is copied unchanged.
-/

namespace Ngmix

noncomputable section

/-- `defaults.py:8-12` `METACAL_TYPES`. -/
def metacalTypes : List String :=
  ["noshear", "1p", "1m", "2p", "2m", "1p_psf", "1m_psf", "2p_psf", "2m_psf"]

/-- `defaults.py:15-18` `METACAL_MINIMAL_TYPES`. -/
def metacalMinimalTypes : List String := ["noshear", "1p", "1m", "2p", "2m"]

/-- The GalSim operations used.  `drawPsf` and `drawIm` draw on the pixel grids of the psf image
(`metacal.py:273-280`) and of the image (`:342-349`), GalSim guarantees the shape that was asked for, so they return
pixel values only. -/
structure GalSim (O : Type) where
  shear : O → ℝ → ℝ → Except PyErr O
  dilate : O → ℝ → Except PyErr O
  convolve : O → O → Except PyErr O
  drawPsf : O → Except PyErr (ℕ → ℕ → ℝ)
  drawIm : O → Except PyErr (ℕ → ℕ → ℝ)

/-- A psf observation; `cen` is the centre of its Jacobian.  `metacal.py:386-422, 455-459`. -/
structure PObs (O X : Type) where
  image : Image
  weight : Image
  cen : ℝ × ℝ
  galsim : Option O
  rest : X

/-- An observation with a psf; `orig` are the attributes `image_orig` and `weight_orig`, and `noise` the optional
noise image.  `metacal.py:386-422, 461-479`. -/
structure MObs (O X : Type) where
  image : Image
  weight : Image
  noise : Option Image
  psf : PObs O X
  orig : Option (Image × Image)
  rest : X

/-- How the class makes its reconvolution psf.  `dilating`: `MetacalDilatePSF`, with the profiles `psf_int_nopix` and
`pixel`.  `round`: the other three classes, with what they dilate: `_get_gauss_target_psf(...)`, computed at each
request and possibly raising (`metacal.py:580-583`), the fitted gaussian (`:655`) or the psf sent by the caller
(`:789`). -/
inductive McKind (O : Type)
  | dilating (psfNopix pixel : O)
  | round (target : Except PyErr O)

/-- The key of the cache, `metacal.py:314-318`.  The text of a float determines the float, so the key determines its
three ingredients. -/
abbrev PsfKey := Bool × ℝ × ℝ

/-- What the cache holds: a dilated profile (`metacal.py:310`) or the pair (image, profile) (`:285`). -/
inductive CacheVal (O : Type)
  | half (o : O)
  | full (im : ℕ → ℕ → ℝ) (o : O)

/-- `self._psf_cache`.  `metacal.py:99-109, 244-288`. -/
abbrev PsfCache (O : Type) := PsfKey → Option (CacheVal O)

/-- The fixed attributes of a Metacal object.  `psfNoise` is `psf_noise_image` (`metacal.py:560-566`); `psfMax` is
the maximum of the psf image (`:558`). -/
structure Mc (O X : Type) where
  gs : GalSim O
  kind : McKind O
  obs : MObs O X
  imNopsf : O
  psfNoise : Option (ℕ → ℕ → ℝ)
  psfMax : ℝ

variable {O X : Type}

/-- `self._psf_cache[key] = value`.  `metacal.py:244-288`. -/
def cacheSet (c : PsfCache O) (k : PsfKey) (v : CacheVal O) : PsfCache O :=
  open Classical in fun k' => if k' = k then some v else c k'

/-- `metacal.py:819-835` `_do_dilate`. -/
def doDilate (gs : GalSim O) (obj : O) (s : ShapeObj) : Except PyErr O :=
  let g := Real.sqrt (s.g1 ^ 2 + s.g2 ^ 2)
  let dilation := 1.0 + 2.0 * g
  gs.dilate obj dilation

/-- `metacal.py:307-312` the method `_do_dilate`.  The last alternative, a complete entry, is not reached from
`get_target_psf`, which calls it only when the key is absent. -/
def mcDoDilate (gs : GalSim O) (psf : O) (s : ShapeObj) (doshear : Bool) (c : PsfCache O) :
    PsfCache O × Except PyErr O :=
  match c (doshear, s.g1, s.g2) with
  | some (.half o) => (c, .ok o)
  | some (.full _ _) => (c, .error .attribute)
  | none =>
      match doDilate gs psf s with
      | .error e => (c, .error e)
      | .ok o => (cacheSet c (doshear, s.g1, s.g2) (.half o), .ok o)

/-- `if doshear: psf_grown_nopix = psf_grown_nopix.shear(...)`, `metacal.py:301-302`. -/
def shearIf (gs : GalSim O) (doshear : Bool) (s : ShapeObj) (o : O) : Except PyErr O :=
  if doshear then gs.shear o s.g1 s.g2 else .ok o

/-- `_get_dilated_psf`: `metacal.py:290-305` for MetacalDilatePSF; `:570-585`, `:647-658`, `:781-790` for the
others. -/
def getDilatedPsf (mc : Mc O X) (s : ShapeObj) (doshear : Bool) (c : PsfCache O) :
    PsfCache O × Except PyErr O :=
  match mc.kind with
  | .dilating psfNopix pixel =>
      match mcDoDilate mc.gs psfNopix s doshear c with
      | (c, .error e) => (c, .error e)
      | (c, .ok o) => (c, (shearIf mc.gs doshear s o).bind fun o => mc.gs.convolve o pixel)
  | .round target =>
      if doshear then (c, .error .assertion)
      else (c, target.bind fun t => doDilate mc.gs t s)

/-- `except RuntimeError: raise GMixRangeError`, `metacal.py:281-283` and `:350-352`. -/
def catchRuntime {α : Type} : Except PyErr α → Except PyErr α
  | .error .runtime => .error .gmixRange
  | x => x

/-- The lines after the cache test, `metacal.py:287-288`: a bare profile cannot be unpacked (`TypeError`). -/
def readCache (c : PsfCache O) (k : PsfKey) : Except PyErr ((ℕ → ℕ → ℝ) × O) :=
  match c k with
  | some (.full im o) => .ok (im, o)
  | some (.half _) => .error .type
  | none => .error .key

/-- `metacal.py:244-288` `get_target_psf`; `doshear` is `type == 'psf_shear'`.  The argument is a Shape (other types
raise TypeError, `:838-843`). -/
def getTargetPsf (mc : Mc O X) (s : ShapeObj) (doshear : Bool) (c : PsfCache O) :
    PsfCache O × Except PyErr ((ℕ → ℕ → ℝ) × O) :=
  let key : PsfKey := (doshear, s.g1, s.g2)
  match c key with
  | some _ => (c, readCache c key)
  | none =>
      match getDilatedPsf mc s doshear c with
      | (c, .error e) => (c, .error e)
      | (c, .ok o) =>
          match catchRuntime (mc.gs.drawPsf o) with
          | .error e => (c, .error e)
          | .ok im => let c := cacheSet c key (.full im o); (c, readCache c key)

/-- `metacal.py:356-366` `_get_target_gal_obj` with `:368-384` `get_sheared_image_nopsf`. -/
def targetGalObj (mc : Mc O X) (psf : O) : Option ShapeObj → Except PyErr O
  | some s => (mc.gs.shear mc.imNopsf s.g1 s.g2).bind fun o => mc.gs.convolve o psf
  | none => mc.gs.convolve mc.imNopsf psf

/-- `metacal.py:320-354` `get_target_image`. -/
def getTargetImage (mc : Mc O X) (psf : O) (s : Option ShapeObj) : Except PyErr (ℕ → ℕ → ℝ) :=
  (targetGalObj mc psf s).bind fun o => catchRuntime (mc.gs.drawIm o)

/-- Image of given content with the shape of another.  `metacal.py:455-479`. -/
def Image.fill (im : Image) (f : ℕ → ℕ → ℝ) : Image := { im with get := f }

/-- `_make_psf_obs`: `metacal.py:455-459` for MetacalDilatePSF, `:587-604` for the others, whose psf weights are
`1/(max/50000)²` (`:558`, `:568`; numpy's `inf` when the maximum is 0 is not represented). -/
def makePsfObs (mc : Mc O X) (im : ℕ → ℕ → ℝ) : PObs O X :=
  let p := mc.obs.psf
  match mc.kind with
  | .dilating _ _ => { p with image := p.image.fill im, galsim := none }
  | .round _ =>
      let im := match mc.psfNoise with
        | some n => fun r c => im r c + n r c
        | none => im
      let noise := mc.psfMax / 50000.0
      { p with
        image := p.image.fill im
        galsim := none
        weight := p.weight.fill fun _ _ => 1.0 / noise ^ 2
        cen := (((p.image.nrow : ℝ) - 1.0) / 2.0, ((p.image.ncol : ℝ) - 1.0) / 2.0) }

/-- `metacal.py:461-478` `_make_obs`.  Attributes set from outside the class (`galsim_obj`, `image_orig`, `weight_orig`)
are not copied by `copy`. -/
def makeObs (mc : Mc O X) (im psfIm : ℕ → ℕ → ℝ) : MObs O X :=
  { mc.obs with image := mc.obs.image.fill im, psf := makePsfObs mc psfIm, orig := none }

/-- `newobs.psf.galsim_obj = newpsf_obj`, `metacal.py:217` and `:223`. -/
def setGalsim (o : MObs O X) (p : O) : MObs O X := { o with psf := { o.psf with galsim := some p } }

/-- `metacal.py:193-227` `get_obs_galshear`; the second part of the result is there when `get_unsheared`. -/
def getObsGalshear (mc : Mc O X) (s : ShapeObj) (unsheared : Bool) (c : PsfCache O) :
    PsfCache O × Except PyErr (MObs O X × Option (MObs O X)) :=
  match getTargetPsf mc s false c with
  | (c, .error e) => (c, .error e)
  | (c, .ok (pim, p)) =>
      (c, (getTargetImage mc p (some s)).bind fun im =>
        if unsheared then
          (getTargetImage mc p none).map fun uim =>
            (setGalsim (makeObs mc im pim) p, some (setGalsim (makeObs mc uim pim) p))
        else .ok (setGalsim (makeObs mc im pim) p, none))

/-- `metacal.py:229-242` `get_obs_psfshear`. -/
def getObsPsfshear (mc : Mc O X) (s : ShapeObj) (c : PsfCache O) :
    PsfCache O × Except PyErr (MObs O X) :=
  match getTargetPsf mc s true c with
  | (c, .error e) => (c, .error e)
  | (c, .ok (pim, p)) => (c, (getTargetImage mc p none).map fun im => makeObs mc im pim)

/-! ### get_all -/

/-- The `types` argument: `None`, a list (modified in place) or a tuple.  `metacal.py:111-150, 523-552`. -/
inductive TypesArg
  | none
  | list (l : List String)
  | tuple (l : List String)

/-- A dictionary keyed by strings, in insertion order.  `metacal.py:150-191`. -/
abbrev Dict (α : Type) := List (String × α)

/-- `d[k] = v`.  `metacal.py:150-191`. -/
def Dict.set {α : Type} (d : Dict α) (k : String) (v : α) : Dict α :=
  if k ∈ d.map Prod.fst then d.map fun p => if p.1 = k then (k, v) else p else d ++ [(k, v)]

/-- `d[k]`.  `metacal.py:150-191`. -/
def Dict.get? {α : Type} (d : Dict α) (k : String) : Option α := (d.find? fun p => p.1 = k).map Prod.snd

/-- `d.keys()`.  `convenience.py:144-187`. -/
def Dict.keys {α : Type} (d : Dict α) : List String := d.map Prod.fst

/-- `t in METACAL_TYPES` for all, `metacal.py:143-144`; the subclasses first check the minimal types (`:549-550`). -/
def typesValid (kind : McKind O) (l : List String) : Bool :=
  match kind with
  | .dilating _ _ => l.all fun t => metacalTypes.contains t
  | .round _ => l.all fun t => metacalMinimalTypes.contains t

/-- `copy.deepcopy(METACAL_TYPES)` or, in the subclasses, of the minimal types: `metacal.py:141`, `:547`. -/
def defaultTypes : McKind O → List String
  | .dilating _ _ => metacalTypes
  | .round _ => metacalMinimalTypes

/-- `metacal.py:140-150` with `:546-552`: the list the loop runs over and the caller's argument afterwards. -/
def prepTypes (kind : McKind O) : TypesArg → TypesArg × Except PyErr (List String)
  | .none =>
      let l := defaultTypes kind
      (.none, .ok (if "noshear" ∈ l ∧ "1p" ∉ l then l ++ ["1p"] else l))
  | .list l =>
      if typesValid kind l then
        if "noshear" ∈ l ∧ "1p" ∉ l then (.list (l ++ ["1p"]), .ok (l ++ ["1p"])) else (.list l, .ok l)
      else (.list l, .error .assertion)
  | .tuple l =>
      if typesValid kind l then
        if "noshear" ∈ l ∧ "1p" ∉ l then (.tuple l, .error .attribute) else (.tuple l, .ok l)
      else (.tuple l, .error .assertion)

/-- `metacal.py:152-165`: the dictionary of shears. -/
def shearDict (step : ℝ) : Except PyErr (Dict ShapeObj) :=
  (ShapeObj.new (-step) 0.0).bind fun m1 =>
  (ShapeObj.new step 0.0).bind fun p1 =>
  (ShapeObj.new 0.0 (-step)).bind fun m2 =>
  (ShapeObj.new 0.0 step).bind fun p2 =>
  m1.copy.bind fun m1p => p1.copy.bind fun p1p => m2.copy.bind fun m2p => p2.copy.map fun p2p =>
  [("1m", m1), ("1p", p1), ("2m", m2), ("2p", p2), ("1m_psf", m1p), ("1p_psf", p1p), ("2m_psf", m2p), ("2p_psf", p2p)]

/-- `'psf' in type`, `metacal.py:176`. -/
def isPsfType (t : String) : Bool := decide ("psf".toList <:+: t.toList)

/-- One pass of the loop, `metacal.py:170-189`. -/
def getAllStep (mc : Mc O X) (sh : Dict ShapeObj) (t : String) (c : PsfCache O) (d : Dict (MObs O X)) :
    PsfCache O × Except PyErr (Dict (MObs O X)) :=
  if t = "noshear" then (c, .ok d)
  else
    match sh.get? t with
    | none => (c, .error .key)
    | some s =>
        if isPsfType t then
          match getObsPsfshear mc s c with
          | (c, .error e) => (c, .error e)
          | (c, .ok o) => (c, .ok (d.set t o))
        else if t = "1p" then
          match getObsGalshear mc s true c with
          | (c, .error e) => (c, .error e)
          | (c, .ok (o, some u)) => (c, .ok ((d.set "noshear" u).set t o))
          | (c, .ok (_, none)) => (c, .error .type)
        else
          match getObsGalshear mc s false c with
          | (c, .error e) => (c, .error e)
          | (c, .ok (o, _)) => (c, .ok (d.set t o))

/-- The loop of `metacal.py:167-191`. -/
def getAllLoop (mc : Mc O X) (sh : Dict ShapeObj) :
    List String → PsfCache O → Dict (MObs O X) → PsfCache O × Except PyErr (Dict (MObs O X))
  | [], c, d => (c, .ok d)
  | t :: ts, c, d =>
      match getAllStep mc sh t c d with
      | (c, .error e) => (c, .error e)
      | (c, .ok d) => getAllLoop mc sh ts c d

/-- `metacal.py:111-191` `get_all`: cache and caller's list left behind, and the outcome. -/
def getAll (mc : Mc O X) (step : ℝ) (types : TypesArg) (c : PsfCache O) :
    PsfCache O × TypesArg × Except PyErr (Dict (MObs O X)) :=
  let p := prepTypes mc.kind types
  match p.2 with
  | .error e => (c, p.1, .error e)
  | .ok l =>
      match shearDict step with
      | .error e => (c, p.1, .error e)
      | .ok sh => let x := getAllLoop mc sh l c []; (x.1, p.1, x.2)

end

end Ngmix
