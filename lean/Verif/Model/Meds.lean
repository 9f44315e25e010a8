import Verif.Model.Simobs
import Verif.Model.Jacobian
import Verif.Model.Fl

/-!
# Model of the cutout access of `NGMixMEDS`, `/repo/ngmix/medsreaders.py:156-329`

The MEDS file (class `meds.MEDS`, not part of the project) is an arbitrary collection of functions, each of
which may raise.  `Img` is the type of image arrays.
-/

namespace Ngmix

noncomputable section

/-- The dictionary `get_jacobian` of the MEDS class returns.  `medsreaders.py:171-178`. -/
structure MedsJac where
  row0 : ℝ
  col0 : ℝ
  dudrow : ℝ
  dudcol : ℝ
  dvdrow : ℝ
  dvdcol : ℝ

/-- The file: cutouts by type, the other weight maps, geometry, catalog columns (an optional column is
`none` when absent), image information, psf images.  `medsreaders.py:203-271, 302-329`. -/
structure MedsFile (Img : Type) where
  cutout : String → ℕ → ℕ → Except PyErr Img
  weightMap : MedsWeight → ℕ → ℕ → Except PyErr Img
  jac : ℕ → ℕ → Except PyErr MedsJac
  id : ℕ → ℤ
  fileId : ℕ → ℕ → ℕ
  origRow : ℕ → ℕ → ℝ
  origCol : ℕ → ℕ → ℝ
  origStartRow : ℕ → ℕ → ℤ
  origStartCol : ℕ → ℕ → ℤ
  imagePath : ℕ → String
  scale : ℕ → ℝ
  fluxAuto : Option (ℕ → ℝ)
  x2 : Option (ℕ → ℝ)
  y2 : Option (ℕ → ℝ)
  number : Option (ℕ → ℤ)
  hasPsf : Bool
  psf : ℕ → ℕ → Except PyErr (List ℝ)
  psfRow : ℕ → ℕ → ℝ
  psfCol : ℕ → ℕ → ℝ

/-- `os.path.basename(path).strip()` with the two library functions explicit.  `medsreaders.py:245`. -/
structure PathLib where
  basename : String → String
  strip : String → String

/-- `medsreaders.py:156-178` `get_ngmix_jacobian`. -/
def ngmixJacobian {Img : Type} (f : MedsFile Img) (iobj icut : ℕ) : Except PyErr Jacobian :=
  (f.jac iobj icut).bind fun jd =>
    Jacobian.new (Kw.ofList [("row", jd.row0), ("col", jd.col0), ("dudrow", jd.dudrow), ("dudcol", jd.dudcol),
      ("dvdrow", jd.dvdrow), ("dvdcol", jd.dvdcol)])

/-- The arguments of the psf observation: image, weight map, jacobian.  `medsreaders.py:315-319`. -/
structure MedsPsf where
  image : List ℝ
  weight : List Fl
  jacobian : Jacobian

/-- `max` of a numpy array; `ValueError` for an empty one.  `medsreaders.py:305`. -/
def arrMax : List ℝ → Except PyErr ℝ
  | [] => .error .value
  | x :: xs => .ok (xs.foldl max x)

/-- `medsreaders.py:287-319` `get_psf_obs` (with `_get_psf_cen`, `:321-329`).  The image holds finite
numbers; the weights are infinite when its maximum is zero. -/
def psfObs {Img : Type} (f : MedsFile Img) (iobj icut : ℕ) : Except PyErr MedsPsf :=
  (f.psf iobj icut).bind fun im =>
  (arrMax im).bind fun mx =>
    let noise := mx / 1000
    let weight := im.map fun x => (.fin (x * 0) : Fl) + .fin 1 / .fin (noise ^ 2)
  (ngmixJacobian f iobj icut).bind fun j =>
    match j.setCen (Kw.ofList [("row", f.psfRow iobj icut), ("col", f.psfCol iobj icut)]) with
    | (_, .error e) => .error e
    | (j', .ok _) => .ok ⟨im, weight, j'⟩

/-- `medsreaders.py:240-268`: the metadata of a cutout. -/
structure MedsCutMeta where
  id : ℤ
  index : ℕ
  icut : ℕ
  cutoutIndex : ℕ
  fileId : ℕ
  filePath : String
  origRow : ℝ
  origCol : ℝ
  origStartRow : ℤ
  origStartCol : ℤ
  scale : ℝ
  flux : Option ℝ
  T : Option ℝ
  number : Option ℤ

/-- The arguments of the observation of a cutout.  `medsreaders.py:273-283`. -/
structure MedsObs (Img : Type) where
  image : Img
  weight : Img
  bmask : Option Img
  ormask : Option Img
  noise : Option Img
  mfrac : Option Img
  info : MedsCutMeta
  jacobian : Jacobian
  psf : Option MedsPsf

/-- `try: x = self.get_cutout(...) except Exception: x = None`.  `medsreaders.py:205-223`. -/
def optional {Img : Type} (r : Except PyErr Img) : Option Img :=
  match r with
  | .ok x => some x
  | .error _ => none

/-- `medsreaders.py:240-268`. -/
def medsMeta {Img : Type} (P : PathLib) (f : MedsFile Img) (iobj icut : ℕ) : MedsCutMeta :=
  let fileId := f.fileId iobj icut
  { id := f.id iobj, index := iobj, icut := icut, cutoutIndex := icut, fileId := fileId,
    filePath := P.strip (P.basename (f.imagePath fileId)),
    origRow := f.origRow iobj icut, origCol := f.origCol iobj icut,
    origStartRow := f.origStartRow iobj icut, origStartCol := f.origStartCol iobj icut,
    scale := f.scale fileId,
    flux := f.fluxAuto.map fun c => c iobj,
    T := f.x2.bind fun a => f.y2.map fun b => a iobj + b iobj,
    number := f.number.map fun c => c iobj }

/-- `medsreaders.py:180-285` `get_obs`, up to the construction of the observation. -/
def medsGetObs {Img : Type} (P : PathLib) (f : MedsFile Img) (iobj icut : ℕ) (weightType : String) :
    Except PyErr (MedsObs Img) :=
  (f.cutout "image" iobj icut).bind fun im =>
    let bmask := optional (f.cutout "bmask" iobj icut)
    let ormask := optional (f.cutout "ormask" iobj icut)
    let noise := optional (f.cutout "noise" iobj icut)
    let mfrac := optional (f.cutout "mfrac" iobj icut)
  (medsWeight weightType).bind fun w =>
  (f.weightMap w iobj icut).bind fun wt =>
  (ngmixJacobian f iobj icut).bind fun jac =>
    let info := medsMeta P f iobj icut
  (if f.hasPsf then (psfObs f iobj icut).map some else .ok none).bind fun psf =>
    .ok ⟨im, wt, bmask, ormask, noise, mfrac, info, jac, psf⟩

/-- `medsreaders.py:33-47` `MultiBandNGMixMEDS`: number of bands, and the size, which is that of the first
reader. -/
def medsSize (sizes : List ℕ) : Except PyErr ℕ :=
  match sizes with
  | [] => .error .index
  | n :: _ => .ok n

/-- `medsreaders.py:49-81` `get_mbobs_list` with the number of objects it takes by default; `sizes` are the numbers of
objects of the readers. -/
def mbobsList {O : Type} (sizes : List ℕ) (mbobs : ℕ → Except PyErr O) (indices : Option (List ℕ)) :
    Except PyErr (List O) :=
  match indices with
  | some is => getMbobsList mbobs 0 (some is)
  | none => (medsSize sizes).bind fun n => getMbobsList mbobs n none

end

end Ngmix
