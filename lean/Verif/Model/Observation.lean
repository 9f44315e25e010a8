import Verif.Model.Pixels

/-!
# Model of `Observation`, `/repo/ngmix/observation.py:64-858`

The heap is explicit, because the class keeps references: arrays that already have the right type
and layout are stored without copying, Jacobians and mixtures are copied, the psf is a reference to
another observation, and attribute getters return views of the stored buffers.  Every kind of object
has its own address space, addresses below the counter are allocated.
-/

namespace Ngmix

noncomputable section

/-- A numpy array: shape (any dimension) and content, addressed by row and column when 2-d.  The arrays passed to
`observation.py:114-126`. -/
structure Arr where
  shape : List ℕ
  get : ℕ → ℕ → ℝ

/-- A 2-d array seen as an image.  `observation.py:313-347`. -/
def Arr.image (a : Arr) : Image := ⟨a.shape.getD 0 0, a.shape.getD 1 0, a.get⟩

/-- Operations of the classes used by Observation but modelled elsewhere: `GMix.copy`, `GMix.__eq__`
and dictionaries.  `gmix.py:414-443`, used in `observation.py:595-619, 678-777`. -/
structure ObsOps (G M : Type) where
  gcopy : G → G
  geq : G → G → Bool
  emptyMeta : M
  metaEq : M → M → Bool

/-- The attributes of an Observation, `observation.py:114-154`; optional ones are `none` when the
python attribute does not exist.  `pixels = none` is python's `None` (store_pixels False). -/
structure Obs where
  image : ℕ
  weight : ℕ
  mfrac : Option ℕ
  bmask : Option ℕ
  ormask : Option ℕ
  noise : Option ℕ
  jac : ℕ
  psf : Option ℕ
  gmix : Option ℕ
  md : ℕ
  writeable : Bool
  storePixels : Bool
  ignoreZero : Bool
  pixels : Option (List Pixel)

/-- The heap.  `knownGm` and `knownJac` list the mixtures and Jacobians the caller has references
to.  Whatever an `observation.py:66-858` Observation refers to. -/
structure Store (G M : Type) where
  arr : ℕ → Arr
  nArr : ℕ
  jac : ℕ → Jacobian
  nJac : ℕ
  gm : ℕ → G
  nGm : ℕ
  dict : ℕ → M
  nDict : ℕ
  obs : ℕ → Obs
  nObs : ℕ
  knownGm : List ℕ
  knownJac : List ℕ

variable {G M : Type}

namespace Store

/-- New array object.  `observation.py:325-347`. -/
def allocArr (s : Store G M) (a : Arr) : Store G M :=
  { s with arr := Function.update s.arr s.nArr a, nArr := s.nArr + 1 }

/-- New Jacobian object.  `observation.py:515-540`. -/
def allocJac (s : Store G M) (j : Jacobian) : Store G M :=
  { s with jac := Function.update s.jac s.nJac j, nJac := s.nJac + 1 }

/-- New mixture object.  `observation.py:595-619`. -/
def allocGm (s : Store G M) (g : G) : Store G M :=
  { s with gm := Function.update s.gm s.nGm g, nGm := s.nGm + 1 }

/-- New dictionary.  `observation.py:36-50`. -/
def allocDict (s : Store G M) (m : M) : Store G M :=
  { s with dict := Function.update s.dict s.nDict m, nDict := s.nDict + 1 }

/-- Replace the attributes of an observation.  Attribute assignment, `observation.py:128-154`. -/
def setObs (s : Store G M) (o : ℕ) (r : Obs) : Store G M :=
  { s with obs := Function.update s.obs o r }

end Store

/-- An array argument: `converted` says whether `numpy.ascontiguousarray` has to make a new array
(wrong dtype or layout) or returns the very same object.  `observation.py:325-335`. -/
structure ArrArg where
  addr : ℕ
  converted : Bool

/-- `numpy.ascontiguousarray`.  `observation.py:328`. -/
def asArray (s : Store G M) (a : ArrArg) : Store G M × ℕ :=
  if a.converted then (s.allocArr (s.arr a.addr), s.nArr) else (s, a.addr)

/-- `observation.py:812-828` `update_pixels`. -/
def updatePixels (s : Store G M) (o : ℕ) : Store G M × Except PyErr Unit :=
  let r := s.obs o
  if r.storePixels then
    match makePixels (s.arr r.image).image (s.arr r.weight).image (s.jac r.jac) r.ignoreZero with
    | .error e => (s, .error e)
    | .ok px => (s.setObs o { r with pixels := some px }, .ok ())
  else (s.setObs o { r with pixels := none }, .ok ())

/-- `if update_pixels: self.update_pixels()`.  `observation.py:346-347, 375-376, 539-540`. -/
def maybeUpdate (s : Store G M) (o : ℕ) (upd : Bool) : Store G M × Except PyErr Unit :=
  if upd then updatePixels s o else (s, .ok ())

/-- `observation.py:313-347` `set_image` on an existing observation. -/
def setImage (s : Store G M) (o : ℕ) (a : ArrArg) (upd : Bool) : Store G M × Except PyErr Unit :=
  let p := asArray s a
  if (p.1.arr p.2).shape.length ≠ 2 then (p.1, .error .assertion)
  else if (p.1.arr p.2).shape ≠ (p.1.arr (p.1.obs o).image).shape then (p.1, .error .assertion)
  else maybeUpdate (p.1.setObs o { p.1.obs o with image := p.2 }) o upd

/-- `observation.py:349-376` `set_weight`. -/
def setWeight (s : Store G M) (o : ℕ) (a : Option ArrArg) (upd : Bool) :
    Store G M × Except PyErr Unit :=
  match a with
  | some a =>
      let p := asArray s a
      if (p.1.arr p.2).shape.length ≠ 2 then (p.1, .error .assertion)
      else if (p.1.arr p.2).shape ≠ (p.1.arr (p.1.obs o).image).shape then (p.1, .error .assertion)
      else maybeUpdate (p.1.setObs o { p.1.obs o with weight := p.2 }) o upd
  | none =>
      let s1 := s.allocArr ⟨(s.arr (s.obs o).image).shape, fun _ _ => 1⟩
      maybeUpdate (s1.setObs o { s1.obs o with weight := s.nArr }) o upd

/-- The optional array attributes.  `observation.py:378-513`. -/
inductive AuxField
  | mfrac | bmask | ormask | noise
  deriving DecidableEq

/-- `self._mfrac` etc.  `observation.py:378-513`. -/
def Obs.aux (r : Obs) : AuxField → Option ℕ
  | .mfrac => r.mfrac
  | .bmask => r.bmask
  | .ormask => r.ormask
  | .noise => r.noise

/-- Assign or delete `self._mfrac` etc.  `observation.py:378-513`. -/
def Obs.setAux (r : Obs) (f : AuxField) (v : Option ℕ) : Obs :=
  match f with
  | .mfrac => { r with mfrac := v }
  | .bmask => { r with bmask := v }
  | .ormask => { r with ormask := v }
  | .noise => { r with noise := v }

/-- `observation.py:378-401` `set_mfrac`, `:412-435` `set_bmask`, `:446-470` `set_ormask`,
`:481-504` `set_noise`; the four functions have the same text. -/
def setAuxArr (s : Store G M) (o : ℕ) (f : AuxField) (a : Option ArrArg) :
    Store G M × Except PyErr Unit :=
  match a with
  | none => (s.setObs o ((s.obs o).setAux f none), .ok ())
  | some a =>
      let p := asArray s a
      if (p.1.arr p.2).shape.length ≠ 2 then (p.1, .error .assertion)
      else if (p.1.arr p.2).shape ≠ (p.1.arr (p.1.obs o).image).shape then (p.1, .error .assertion)
      else (p.1.setObs o ((p.1.obs o).setAux f (some p.2)), .ok ())

/-- An object argument: `None`, an object of the required type, or one of a wrong type.  `observation.py:515-611`. -/
inductive ObjArg
  | none | wrongType | obj (addr : ℕ)

/-- `observation.py:528-529`: the canonical centre `(shape-1)/2`. -/
def canonicalCen (a : Arr) : Kw :=
  Kw.ofList [("row", ((a.shape.getD 0 0 : ℕ) - 1) / 2), ("col", ((a.shape.getD 1 0 : ℕ) - 1) / 2)]

/-- `observation.py:515-540` `set_jacobian`. -/
def setJacobian (s : Store G M) (o : ℕ) (a : ObjArg) (upd : Bool) :
    Store G M × Except PyErr Unit :=
  match a with
  | .wrongType => (s, .error .assertion)
  | .none =>
      match Jacobian.unit (canonicalCen (s.arr (s.obs o).image)) with
      | .error e => (s, .error e)
      | .ok j =>
          let s1 := s.allocJac j
          maybeUpdate (s1.setObs o { s1.obs o with jac := s.nJac }) o upd
  | .obj j =>
      match (s.jac j).copy with
      | .error e => (s, .error e)
      | .ok j =>
          let s1 := s.allocJac j
          maybeUpdate (s1.setObs o { s1.obs o with jac := s.nJac }) o upd

/-- `observation.py:552-562` `set_psf`: the old value is deleted before the type check. -/
def setPsf (s : Store G M) (o : ℕ) (a : ObjArg) : Store G M × Except PyErr Unit :=
  let s1 := s.setObs o { s.obs o with psf := Option.none }
  match a with
  | .none => (s1, .ok ())
  | .wrongType => (s1, .error .assertion)
  | .obj p => (s1.setObs o { s1.obs o with psf := some p }, .ok ())

/-- `observation.py:564-570` `get_psf`. -/
def getPsf (s : Store G M) (o : ℕ) : Except PyErr ℕ :=
  match (s.obs o).psf with
  | some p => .ok p
  | none => .error .runtime

/-- `observation.py:297-304` the `psf` property. -/
def psfAttr (s : Store G M) (o : ℕ) : Except PyErr ℕ :=
  match (s.obs o).psf with
  | some p => .ok p
  | none => .error .attribute

/-- `observation.py:595-611` `set_gmix`: the old value is deleted before the type check. -/
def setGmix (ops : ObsOps G M) (s : Store G M) (o : ℕ) (a : ObjArg) :
    Store G M × Except PyErr Unit :=
  let s1 := s.setObs o { s.obs o with gmix := Option.none }
  match a with
  | .none => (s1, .ok ())
  | .wrongType => (s1, .error .assertion)
  | .obj g =>
      let s2 := s1.allocGm (ops.gcopy (s1.gm g))
      (s2.setObs o { s2.obs o with gmix := some s1.nGm }, .ok ())

/-- `observation.py:613-619` `get_gmix`: a copy, which the caller then owns. -/
def getGmix (ops : ObsOps G M) (s : Store G M) (o : ℕ) : Store G M × Except PyErr ℕ :=
  match (s.obs o).gmix with
  | none => (s, .error .runtime)
  | some a =>
      let s1 := s.allocGm (ops.gcopy (s.gm a))
      ({ s1 with knownGm := s.nGm :: s1.knownGm }, .ok s.nGm)

/-- `observation.py:36-50` `set_meta`. -/
def setMeta (ops : ObsOps G M) (s : Store G M) (o : ℕ) (a : ObjArg) :
    Store G M × Except PyErr Unit :=
  match a with
  | .none =>
      let s1 := s.allocDict ops.emptyMeta
      (s1.setObs o { s1.obs o with md := s.nDict }, .ok ())
  | .wrongType => (s, .error .type)
  | .obj m => (s.setObs o { s.obs o with md := m }, .ok ())

/-- `observation.py:52-63` `update_meta_data`: `f` is the effect of `dict.update` with the argument, `none` when that is not a
dictionary.  The dictionary is changed in place. -/
def updateMeta (s : Store G M) (o : ℕ) : Option (M → M) → Store G M × Except PyErr Unit
  | none => (s, .error .type)
  | some f => ({ s with dict := Function.update s.dict (s.obs o).md (f (s.dict (s.obs o).md)) }, .ok ())

/-- `observation.py:783-794` the `store_pixels` setter. -/
def setStorePixels (s : Store G M) (o : ℕ) (b : Bool) : Store G M × Except PyErr Unit :=
  let changed := b != (s.obs o).storePixels
  maybeUpdate (s.setObs o { s.obs o with storePixels := b }) o changed

/-- `observation.py:801-810` the `ignore_zero_weight` setter. -/
def setIgnoreZero (s : Store G M) (o : ℕ) (b : Bool) : Store G M × Except PyErr Unit :=
  let changed := b != (s.obs o).ignoreZero
  maybeUpdate (s.setObs o { s.obs o with ignoreZero := b }) o changed

/-- `observation.py:852-854` `__enter__`. -/
def enterWriteable (s : Store G M) (o : ℕ) : Store G M × Except PyErr Unit :=
  (s.setObs o { s.obs o with writeable := true }, .ok ())

/-- `observation.py:856-858` `__exit__` (also run when the block raised). -/
def exitWriteable (s : Store G M) (o : ℕ) : Store G M × Except PyErr Unit :=
  updatePixels (s.setObs o { s.obs o with writeable := false }) o

/-- Store one element of an array, in place.  `observation.py:830-858`. -/
def writeArr (s : Store G M) (a r c : ℕ) (v : ℝ) : Store G M :=
  { s with arr := Function.update s.arr a
              (Arr.mk (s.arr a).shape fun i j => if i = r ∧ j = c then v else (s.arr a).get i j) }

/-- The array attributes that have a getter.  `observation.py:157-267`. -/
inductive ViewField
  | image | weight | aux (f : AuxField)

/-- The buffer a getter returns a view of.  `observation.py:157-267`. -/
def Obs.view (r : Obs) : ViewField → Option ℕ
  | .image => some r.image
  | .weight => some r.weight
  | .aux f => r.aux f

/-- `obs.image[r, c] = v` and the like: the getter makes a view that is writeable only inside a
`writeable()` block (`observation.py:830-839`), numpy raises `ValueError` on read-only data and
`IndexError` out of bounds. -/
def writeView (s : Store G M) (o : ℕ) (f : ViewField) (r c : ℕ) (v : ℝ) :
    Store G M × Except PyErr Unit :=
  match (s.obs o).view f with
  | none => (s, .error .attribute)
  | some a =>
      if ¬ (s.obs o).writeable then (s, .error .value)
      else if r < (s.arr a).image.nrow ∧ c < (s.arr a).image.ncol then (writeArr s a r c v, .ok ())
      else (s, .error .index)

/-- `obs.jacobian.set_cen(...)`: the getter returns a Jacobian whose data is a view of ours
(`observation.py:543-550`). -/
def writeJacCen (s : Store G M) (o : ℕ) (kw : Kw) : Store G M × Except PyErr Unit :=
  if ¬ (s.obs o).writeable then (s, .error .value)
  else
    let x := (s.jac (s.obs o).jac).setCen kw
    ({ s with jac := Function.update s.jac (s.obs o).jac x.1 }, x.2)

/-- Arguments of the constructor.  `observation.py:114-126`. -/
structure ObsArgs where
  image : ArrArg
  weight : Option ArrArg := none
  bmask : Option ArrArg := none
  ormask : Option ArrArg := none
  noise : Option ArrArg := none
  jacobian : ObjArg := .none
  gmix : ObjArg := .none
  psf : ObjArg := .none
  metaData : ObjArg := .none
  mfrac : Option ArrArg := none
  storePixels : Bool := true
  ignoreZero : Bool := true

/-- Run `k` on the state left by a setter if it succeeded.  Statement order of `observation.py:128-154`. -/
def andThen (x : Store G M × Except PyErr Unit) (k : Store G M → Store G M × Except PyErr Unit) :
    Store G M × Except PyErr Unit :=
  match x.2 with
  | .error e => (x.1, .error e)
  | .ok () => k x.1

/-- `observation.py:114-154` `Observation.__init__`, on the fresh object number `s.nObs`.  Weight,
Jacobian, metadata and pixels of the raw object are placeholders, assigned before they are read.
When it raises, the half-built object is dropped (`nObs` is not advanced by `newObs`). -/
def initObs (ops : ObsOps G M) (s : Store G M) (a : ObsArgs) : Store G M × Except PyErr Unit :=
  let o := s.nObs
  let p := asArray s a.image
  if (p.1.arr p.2).shape.length ≠ 2 then (p.1, .error .assertion)
  else
    let s1 := p.1.setObs o
      { image := p.2, weight := p.2, mfrac := none, bmask := none, ormask := none, noise := none,
        jac := 0, psf := none, gmix := none, md := 0, writeable := false,
        storePixels := a.storePixels, ignoreZero := a.ignoreZero, pixels := none }
    andThen (setWeight s1 o a.weight false) fun s =>
    andThen (setJacobian s o a.jacobian false) fun s =>
    andThen (updatePixels s o) fun s =>
    andThen (setMeta ops s o a.metaData) fun s =>
    andThen (setAuxArr s o .bmask a.bmask) fun s =>
    andThen (setAuxArr s o .ormask a.ormask) fun s =>
    andThen (setAuxArr s o .noise a.noise) fun s =>
    andThen (setGmix ops s o a.gmix) fun s =>
    andThen (setPsf s o a.psf) fun s =>
    setAuxArr s o .mfrac a.mfrac

/-- `Observation(...)`.  `observation.py:114-154`. -/
def newObs (ops : ObsOps G M) (s : Store G M) (a : ObsArgs) : Store G M × Except PyErr ℕ :=
  let x := initObs ops s a
  match x.2 with
  | .error e => (x.1, .error e)
  | .ok () => ({ x.1 with nObs := s.nObs + 1 }, .ok s.nObs)

/-! ### Copy and equality -/

/-- `self.bmask.copy()` etc. when present, as the constructor argument.  `observation.py:678-728`. -/
def copyAux (s : Store G M) (a : Option ℕ) : Store G M × Option ArrArg :=
  match a with
  | none => (s, none)
  | some a => (s.allocArr (s.arr a), some ⟨s.nArr, false⟩)

/-- `observation.py:692-695`: `gmix = self.gmix` (a copy made by the getter) when present. -/
def copyGm (ops : ObsOps G M) (s : Store G M) (a : Option ℕ) : Store G M × ObjArg :=
  match a with
  | none => (s, .none)
  | some a => (s.allocGm (ops.gcopy (s.gm a)), .obj s.nGm)

/-- `observation.py:700-726`: copies of mfrac, metadata, image and weight, and the constructor
call; `jacobian=self.jacobian` is copied by the constructor.  Metadata values are compared and copied
as a whole. -/
def copyRest (ops : ObsOps G M) (s : Store G M) (r : Obs) (bm om no : Option ArrArg)
    (g psf : ObjArg) : Store G M × Except PyErr ℕ :=
  let f := copyAux s r.mfrac
  let d := f.1.allocDict (f.1.dict r.md)
  let i := d.allocArr (d.arr r.image)
  let w := i.allocArr (i.arr r.weight)
  newObs ops w
    { image := ⟨d.nArr, false⟩, weight := some ⟨i.nArr, false⟩, bmask := bm, ormask := om,
      noise := no, gmix := g, jacobian := .obj r.jac, metaData := .obj f.1.nDict,
      psf := psf, mfrac := f.2, storePixels := r.storePixels, ignoreZero := r.ignoreZero }

/-- `observation.py:678-726` `copy`.  The recursion through the psf is limited by Python's recursion
limit `fuel` (`RecursionError`). -/
def copyObs (ops : ObsOps G M) : ℕ → Store G M → ℕ → Store G M × Except PyErr ℕ
  | 0, s, _ => (s, .error .recursion)
  | fuel + 1, s, o =>
      let r := s.obs o
      let b := copyAux s r.bmask
      let m := copyAux b.1 r.ormask
      let n := copyAux m.1 r.noise
      let g := copyGm ops n.1 r.gmix
      match r.psf with
      | none => copyRest ops g.1 r b.2 m.2 n.2 g.2 .none
      | some q =>
          match copyObs ops fuel g.1 q with
          | (s', .error e) => (s', .error e)
          | (s', .ok q') => copyRest ops s' r b.2 m.2 n.2 g.2 (.obj q')

/-- `numpy.all(a == b)` for 2-d arrays: compares after broadcasting, `ValueError` if the shapes cannot
be broadcast.  `observation.py:738-777`. -/
def arrEq (a b : Image) : Except PyErr Bool :=
  if (a.nrow = b.nrow ∨ a.nrow = 1 ∨ b.nrow = 1) ∧ (a.ncol = b.ncol ∨ a.ncol = 1 ∨ b.ncol = 1) then
    let nr := if a.nrow = 1 then b.nrow else a.nrow
    let nc := if a.ncol = 1 then b.ncol else a.ncol
    let idx (n i : ℕ) : ℕ := if n = 1 then 0 else i
    open Classical in
    .ok (decide (∀ r < nr, ∀ c < nc,
      a.get (idx a.nrow r) (idx a.ncol c) = b.get (idx b.nrow r) (idx b.ncol c)))
  else .error .value

/-- Continue with `k` while the comparisons give `True`.  `observation.py:738-777`. -/
def andEq (x : Except PyErr Bool) (k : Except PyErr Bool) : Except PyErr Bool :=
  match x with
  | .error e => .error e
  | .ok false => .ok false
  | .ok true => k

/-- The comparison of one optional array attribute in `__eq__`, `observation.py:759-778`.  Both
`self_has` and `obs_has` are computed from `self` (line 766). -/
def eqAux (s : Store G M) (x y : Obs) (f : AuxField) : Except PyErr Bool :=
  match x.aux f with
  | none => .ok true
  | some a =>
      match y.aux f with
      | none => .error .attribute
      | some b => arrEq (s.arr a).image (s.arr b).image

/-- `observation.py:759-778` for the psf; the `psf` property raises `AttributeError` when absent. -/
def eqPsf (eq : ℕ → ℕ → Except PyErr Bool) (x y : Obs) : Except PyErr Bool :=
  match x.psf with
  | none => .ok true
  | some p =>
      match y.psf with
      | none => .error .attribute
      | some q => eq p q

/-- `observation.py:759-778` for the mixture; the getters return copies, and raise `RuntimeError`
when absent. -/
def eqGmix (ops : ObsOps G M) (s : Store G M) (x y : Obs) : Except PyErr Bool :=
  match x.gmix with
  | none => .ok true
  | some g =>
      match y.gmix with
      | none => .error .runtime
      | some h => .ok (ops.geq (ops.gcopy (s.gm g)) (ops.gcopy (s.gm h)))

open Classical in
/-- `observation.py:738-777` `__eq__` between two Observations. -/
def eqObs (ops : ObsOps G M) (s : Store G M) : ℕ → ℕ → ℕ → Except PyErr Bool
  | 0, _, _ => .error .recursion
  | fuel + 1, o1, o2 =>
      let x := s.obs o1
      let y := s.obs o2
      if ¬ ops.metaEq (s.dict x.md) (s.dict y.md) then .ok false
      else
        andEq (arrEq (s.arr x.image).image (s.arr y.image).image) <|
        andEq (arrEq (s.arr x.weight).image (s.arr y.weight).image) <|
        andEq (eqAux s x y .bmask) <|
        andEq (eqAux s x y .ormask) <|
        andEq (eqAux s x y .mfrac) <|
        andEq (eqAux s x y .noise) <|
        andEq (eqPsf (eqObs ops s fuel) x y) <|
        andEq (eqGmix ops s x y) <|
        andEq (.ok (decide (s.jac x.jac = s.jac y.jac))) <|
        .ok (ops.metaEq (s.dict x.md) (s.dict y.md))

/-! ### Histories -/

/-- Everything a caller can do: create arrays, mixtures and dictionaries, use the API of any
observation, and change through their own references the arrays and mixtures they hold.  The methods of
`observation.py:66-858`. -/
inductive ObsOp (G M : Type)
  | newArr (a : Arr)
  | newJac (j : Jacobian)
  | newGm (g : G)
  | newDict (m : M)
  | writeOwnArr (a r c : ℕ) (v : ℝ)
  | writeOwnGm (a : ℕ) (g : G)
  | setCenOwnJac (a : ℕ) (kw : Kw)
  | construct (a : ObsArgs)
  | copy (o fuel : ℕ)
  | setImage (o : ℕ) (a : ArrArg)
  | setWeight (o : ℕ) (a : Option ArrArg)
  | setAux (o : ℕ) (f : AuxField) (a : Option ArrArg)
  | setJacobian (o : ℕ) (a : ObjArg)
  | setPsf (o : ℕ) (a : ObjArg)
  | setGmix (o : ℕ) (a : ObjArg)
  | getGmix (o : ℕ)
  | setMeta (o : ℕ) (a : ObjArg)
  | setStorePixels (o : ℕ) (b : Bool)
  | setIgnoreZero (o : ℕ) (b : Bool)
  | enter (o : ℕ)
  | exit (o : ℕ)
  | writeView (o : ℕ) (f : ViewField) (r c : ℕ) (v : ℝ)
  | writeJacCen (o : ℕ) (kw : Kw)
  | writeOwnDict (a : ℕ) (m : M)
  | updateMeta (o : ℕ) (f : Option (M → M))

/-- Forget the returned value.  `observation.py:542-619`. -/
def dropVal {α : Type} (x : Store G M × Except PyErr α) : Store G M × Except PyErr Unit :=
  (x.1, x.2.map fun _ => ())

/-- Execute one operation.  The methods of `observation.py:66-858`. -/
def obsStep (ops : ObsOps G M) (s : Store G M) : ObsOp G M → Store G M × Except PyErr Unit
  | .newArr a => (s.allocArr a, .ok ())
  | .newJac j => ({ s.allocJac j with knownJac := s.nJac :: s.knownJac }, .ok ())
  | .newGm g => ({ s.allocGm g with knownGm := s.nGm :: s.knownGm }, .ok ())
  | .newDict m => (s.allocDict m, .ok ())
  | .writeOwnArr a r c v => (Ngmix.writeArr s a r c v, .ok ())
  | .writeOwnGm a g => ({ s with gm := Function.update s.gm a g }, .ok ())
  | .setCenOwnJac a kw =>
      ({ s with jac := Function.update s.jac a ((s.jac a).setCen kw).1 }, ((s.jac a).setCen kw).2)
  | .construct a => dropVal (newObs ops s a)
  | .copy o fuel => dropVal (copyObs ops fuel s o)
  | .setImage o a => Ngmix.setImage s o a true
  | .setWeight o a => Ngmix.setWeight s o a true
  | .setAux o f a => setAuxArr s o f a
  | .setJacobian o a => Ngmix.setJacobian s o a true
  | .setPsf o a => Ngmix.setPsf s o a
  | .setGmix o a => Ngmix.setGmix ops s o a
  | .getGmix o => dropVal (Ngmix.getGmix ops s o)
  | .setMeta o a => Ngmix.setMeta ops s o a
  | .setStorePixels o b => Ngmix.setStorePixels s o b
  | .setIgnoreZero o b => Ngmix.setIgnoreZero s o b
  | .enter o => enterWriteable s o
  | .exit o => exitWriteable s o
  | .writeView o f r c v => Ngmix.writeView s o f r c v
  | .writeJacCen o kw => Ngmix.writeJacCen s o kw
  | .writeOwnDict a m => ({ s with dict := Function.update s.dict a m }, .ok ())
  | .updateMeta o f => Ngmix.updateMeta s o f

/-- The array an argument refers to exists.  Not code: what a caller of `observation.py:114-126` can pass. -/
def ArrArg.InStore (s : Store G M) (a : ArrArg) : Prop := a.addr < s.nArr

/-- The object an argument refers to exists.  Not code: what a caller of `observation.py:515-611` can pass. -/
def ObjArg.Below (n : ℕ) : ObjArg → Prop
  | .obj a => a < n
  | _ => True

/-- What the caller can write down: references to existing objects; in-place changes of mixtures only
through references they hold; Jacobians only come from the constructor.  Arrays and Jacobians may be changed in place at any
time: a view taken inside a `writeable()` block can be kept and still be used after it.  Not code: the calls that can be made of
`observation.py:66-858`. -/
def ObsOp.Legal (s : Store G M) : ObsOp G M → Prop
  | .newArr _ | .newGm _ | .newDict _ => True
  | .newJac j => ∃ kw, Jacobian.new kw = .ok j
  | .writeOwnArr a _ _ _ => a < s.nArr
  | .writeOwnGm a _ => a ∈ s.knownGm
  | .writeOwnDict a _ => a < s.nDict
  | .setCenOwnJac a _ => a < s.nJac
  | .construct a => a.image.InStore s ∧ (∀ x ∈ a.weight, x.InStore s) ∧ (∀ x ∈ a.bmask, x.InStore s) ∧
      (∀ x ∈ a.ormask, x.InStore s) ∧ (∀ x ∈ a.noise, x.InStore s) ∧ (∀ x ∈ a.mfrac, x.InStore s) ∧
      (∀ j, a.jacobian = .obj j → j < s.nJac) ∧ (∀ g, a.gmix = .obj g → g ∈ s.knownGm) ∧ a.psf.Below s.nObs ∧
      a.metaData.Below s.nDict
  | .setImage o a => o < s.nObs ∧ a.InStore s
  | .setWeight o a => o < s.nObs ∧ ∀ x ∈ a, x.InStore s
  | .setAux o _ a => o < s.nObs ∧ ∀ x ∈ a, x.InStore s
  | .setJacobian o a => o < s.nObs ∧ ∀ j, a = .obj j → j < s.nJac
  | .setPsf o a => o < s.nObs ∧ a.Below s.nObs
  | .setGmix o a => o < s.nObs ∧ ∀ g, a = .obj g → g ∈ s.knownGm
  | .setMeta o a => o < s.nObs ∧ a.Below s.nDict
  | .copy o _ | .getGmix o | .setStorePixels o _ | .setIgnoreZero o _ | .enter o | .exit o
  | .writeView o _ _ _ _ | .writeJacCen o _ | .updateMeta o _ => o < s.nObs

/-- Nothing has been created yet: all counters are zero.  Not code: the state before the first call of `observation.py:114`. -/
def Store.Empty (s : Store G M) : Prop :=
  s.nArr = 0 ∧ s.nJac = 0 ∧ s.nGm = 0 ∧ s.nDict = 0 ∧ s.nObs = 0 ∧ s.knownGm = [] ∧ s.knownJac = []

/-- States reachable by any sequence of legal operations, successful or failing.  Not code: histories of calls of
`observation.py:66-858`. -/
inductive Reach (ops : ObsOps G M) : Store G M → Prop
  | start (s : Store G M) : s.Empty → Reach ops s
  | step (s : Store G M) (op : ObsOp G M) : Reach ops s → op.Legal s → Reach ops (obsStep ops s op).1

end

end Ngmix
