import Verif.Model.Observation
import Verif.Spec.Pixels

/-!
# Model of `ObsList`, `MultiBandObsList`, their k-space versions, `get_mb_obs` and the S/N sums,
`/repo/ngmix/observation.py:627-677, 861-1140, 1270-1350, 1574-1604`
-/

namespace Ngmix

noncomputable section

/-! ### Signal to noise -/

/-- `(Isum, Vsum, Npix)`.  `observation.py:676`. -/
@[ext] structure S2nSums where
  isum : ℝ
  vsum : ℝ
  npix : ℕ

/-- `numpy.where(weight > 0)`: the indices in row-major order.  `observation.py:668`. -/
def whereWeightPositive (weight : Image) : List (ℕ × ℕ) :=
  open Classical in
  (List.range weight.nrow).flatMap fun r =>
    ((List.range weight.ncol).filter fun c => decide (weight.get r c > 0)).map fun c => (r, c)

/-- `observation.py:646-676` `Observation.get_s2n_sums`. -/
def s2nSums (image weight : Image) : S2nSums :=
  let w := whereWeightPositive weight
  if w.length > 0 then
    ⟨(w.map fun p => image.get p.1 p.2).sum, (w.map fun p => 1 / weight.get p.1 p.2).sum, w.length⟩
  else ⟨0, 0, 0⟩

/-- The accumulation loop shared by `observation.py:913-940` (`ObsList.get_s2n_sums`) and
`:1034-1060` (`MultiBandObsList.get_s2n_sums`). -/
def addSums (l : List S2nSums) : S2nSums :=
  l.foldl (fun t x => ⟨t.isum + x.isum, t.vsum + x.vsum, t.npix + x.npix⟩) ⟨0, 0, 0⟩

/-- `ObsList.get_s2n_sums` on pairs (image, weight).  `observation.py:913-940`. -/
def s2nSumsList (l : List (Image × Image)) : S2nSums := addSums (l.map fun p => s2nSums p.1 p.2)

/-- `MultiBandObsList.get_s2n_sums`.  `observation.py:1034-1060`. -/
def s2nSumsMb (l : List (List (Image × Image))) : S2nSums := addSums (l.map s2nSumsList)

/-- `get_s2n`: `observation.py:627-644`, the same text in the two list classes. -/
def getS2n (t : S2nSums) : ℝ :=
  open Classical in
  if t.vsum > 0 then t.isum / Real.sqrt t.vsum else -9999

/-! ### Typed lists -/

/-- The result of a list operation: the list left behind and the outcome.  `observation.py:878-892, 971-977`. -/
abbrev ListResult (α : Type) := List α × Except PyErr Unit

/-- Python's index normalisation: negative indices count from the end.  `observation.py:971-977, 1093-1099`. -/
def pyIndex (n : ℕ) (i : ℤ) : Option ℕ :=
  let k := if i < 0 then i + n else i
  if 0 ≤ k ∧ k < n then some k.toNat else none

/-- Operations on a list subclass.  `setSlice lo hi` is `lst[lo:hi] = value` where `value` iterates
over `xs` (`iter = none`: not iterable).  `observation.py:861-977`. -/
inductive ListOp (α : Type)
  | append (x : α)
  | setItem (i : ℤ) (x : α)
  | delItem (i : ℤ)
  | pop
  | reverse
  | clear
  | extend (xs : List α)
  | insert (i : ℕ) (x : α)
  | setSlice (lo hi : ℕ) (x : α)

/-- One operation of a list class whose `append` and `__setitem__` assert `isType`
(`observation.py:878-892, 971-977, 998-1013, 1093-1100, 1290-1315, 1335-1358`, `gmix/gmix_lists.py:13-27, 38-56`); everything else is
inherited from `list`.  `contents x` are the elements of `x` when it is iterable. -/
def listStep {α : Type} (isType : α → Bool) (contents : α → Option (List α)) (l : List α) :
    ListOp α → ListResult α
  | .append x => if isType x then (l ++ [x], .ok ()) else (l, .error .assertion)
  | .setItem i x =>
      if isType x then
        match pyIndex l.length i with
        | some k => (l.set k x, .ok ())
        | none => (l, .error .index)
      else (l, .error .assertion)
  | .delItem i =>
      match pyIndex l.length i with
      | some k => (l.eraseIdx k, .ok ())
      | none => (l, .error .index)
  | .pop => if l = [] then (l, .error .index) else (l.dropLast, .ok ())
  | .reverse => (l.reverse, .ok ())
  | .clear => ([], .ok ())
  | .extend xs => (l ++ xs, .ok ())
  | .insert i x => (l.take i ++ [x] ++ l.drop i, .ok ())
  | .setSlice lo hi x =>
      if isType x then
        match contents x with
        | some xs => (l.take lo ++ xs ++ l.drop (max lo hi), .ok ())
        | none => (l, .error .type)
      else (l, .error .assertion)

/-! ### Copies of lists, on the heap -/

variable {G M : Type}

/-- The loop of `observation.py:942-949` `ObsList.copy` (members by reference; metadata is one dictionary). -/
def copyItems (ops : ObsOps G M) (fuel : ℕ) : Store G M → List ℕ → Store G M × Except PyErr (List ℕ)
  | s, [] => (s, .ok [])
  | s, o :: os =>
      match copyObs ops fuel s o with
      | (s1, .error e) => (s1, .error e)
      | (s1, .ok o') =>
          match copyItems ops fuel s1 os with
          | (s2, .error e) => (s2, .error e)
          | (s2, .ok os') => (s2, .ok (o' :: os'))

/-- An ObsList: metadata dictionary and members.  `observation.py:861-876`. -/
structure ObsListRef where
  md : ℕ
  items : List ℕ

/-- `ObsList.copy`, `observation.py:942-949`. -/
def copyObsList (ops : ObsOps G M) (fuel : ℕ) (s : Store G M) (l : ObsListRef) :
    Store G M × Except PyErr ObsListRef :=
  let s1 := s.allocDict (s.dict l.md)
  match copyItems ops fuel s1 l.items with
  | (s2, .error e) => (s2, .error e)
  | (s2, .ok items) => (s2, .ok ⟨s.nDict, items⟩)

/-- `observation.py:959-969` `ObsList.__eq__`. -/
def eqItems (ops : ObsOps G M) (s : Store G M) (fuel : ℕ) : List ℕ → List ℕ → Except PyErr Bool
  | [], [] => .ok true
  | a :: as, b :: bs =>
      match eqObs ops s fuel a b with
      | .error e => .error e
      | .ok false => .ok false
      | .ok true => eqItems ops s fuel as bs
  | _, _ => .ok false

/-- `ObsList.__eq__`: the lengths are compared first.  `observation.py:959-969`. -/
def eqObsList (ops : ObsOps G M) (s : Store G M) (fuel : ℕ) (a b : ObsListRef) : Except PyErr Bool :=
  if a.items.length ≠ b.items.length then .ok false else eqItems ops s fuel a.items b.items

/-- A MultiBandObsList: metadata dictionary and members.  `observation.py:980-996`. -/
structure MbRef where
  md : ℕ
  items : List ObsListRef

/-- The loop of `MultiBandObsList.copy`.  `observation.py:1062-1071`. -/
def copyLists (ops : ObsOps G M) (fuel : ℕ) :
    Store G M → List ObsListRef → Store G M × Except PyErr (List ObsListRef)
  | s, [] => (s, .ok [])
  | s, l :: ls =>
      match copyObsList ops fuel s l with
      | (s1, .error e) => (s1, .error e)
      | (s1, .ok l') =>
          match copyLists ops fuel s1 ls with
          | (s2, .error e) => (s2, .error e)
          | (s2, .ok ls') => (s2, .ok (l' :: ls'))

/-- `observation.py:1062-1069` `MultiBandObsList.copy`. -/
def copyMb (ops : ObsOps G M) (fuel : ℕ) (s : Store G M) (m : MbRef) :
    Store G M × Except PyErr MbRef :=
  let s1 := s.allocDict (s.dict m.md)
  match copyLists ops fuel s1 m.items with
  | (s2, .error e) => (s2, .error e)
  | (s2, .ok items) => (s2, .ok ⟨s.nDict, items⟩)

/-- `self_obslist != obslist` in `observation.py:1089`, negated: the comparison of `list`, inherited from Python because only
`__eq__` is overridden.  It takes an observation to equal itself without comparing it. -/
def listEqItems (ops : ObsOps G M) (s : Store G M) (fuel : ℕ) : List ℕ → List ℕ → Except PyErr Bool
  | [], [] => .ok true
  | a :: as, b :: bs =>
      if a = b then listEqItems ops s fuel as bs
      else
        match eqObs ops s fuel a b with
        | .error e => .error e
        | .ok false => .ok false
        | .ok true => listEqItems ops s fuel as bs
  | _, _ => .ok false

/-- The same for the two lists: lists of different lengths differ.  `observation.py:1089`. -/
def listEqObsList (ops : ObsOps G M) (s : Store G M) (fuel : ℕ) (a b : ObsListRef) : Except PyErr Bool :=
  if a.items.length ≠ b.items.length then .ok false else listEqItems ops s fuel a.items b.items

/-- The comparison loop of `MultiBandObsList.__eq__`, `observation.py:1081-1091`. -/
def eqLists (ops : ObsOps G M) (s : Store G M) (fuel : ℕ) :
    List ObsListRef → List ObsListRef → Except PyErr Bool
  | [], [] => .ok true
  | a :: as, b :: bs =>
      match listEqObsList ops s fuel a b with
      | .error e => .error e
      | .ok false => .ok false
      | .ok true => eqLists ops s fuel as bs
  | _, _ => .ok false

/-- `MultiBandObsList.__eq__`.  `observation.py:1081-1091`. -/
def eqMb (ops : ObsOps G M) (s : Store G M) (fuel : ℕ) (a b : MbRef) : Except PyErr Bool :=
  if a.items.length ≠ b.items.length then .ok false else eqLists ops s fuel a.items b.items

/-! ### get_mb_obs -/

/-- What can be passed to `get_mb_obs`.  `observation.py:1103-1142`. -/
inductive ObsIn (O MD : Type)
  | obs (o : O)
  | list (md : MD) (l : List O)
  | mb (md : MD) (l : List (MD × List O))
  | other

/-- `observation.py:1103-1140` `get_mb_obs`; `get_kmb_obs` `:1574-1604` has the same text.  New lists
get an empty metadata dictionary. -/
def getMbObs {O MD : Type} (empty : MD) : ObsIn O MD → Except PyErr (MD × List (MD × List O))
  | .obs o => .ok (empty, [(empty, [o])])
  | .list md l => .ok (empty, [(md, l)])
  | .mb md l => .ok (md, l)
  | .other => .error .value

end

end Ngmix
