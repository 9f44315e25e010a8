import Verif.Model.MetacalConv
import Verif.Spec.Metacal
import Verif.Spec.ObsList

/-! Specification vocabulary for metacal over lists of observations and for fixnoise. -/

namespace Ngmix.Spec

open Ngmix

variable {σ α β O X : Type}

/-- Doing something for every element of a list in order, stopping at the first error. -/
def inOrder (f : σ → α → σ × Except PyErr β) : List α → σ → σ × Except PyErr (List β)
  | [], st => (st, .ok [])
  | a :: as, st =>
      match f st a with
      | (st, .error e) => (st, .error e)
      | (st, .ok b) =>
          match inOrder f as st with
          | (st, .error e) => (st, .error e)
          | (st, .ok bs) => (st, .ok (b :: bs))

/-- Successful results all have the keys `K`; `Inv` is a condition on the state that calls keep. -/
def UniformKeys (one : σ → α → σ × Except PyErr (Dict β)) (Inv : σ → Prop) (K : String → Prop) : Prop :=
  ∀ st a, Inv st → Inv (one st a).1 ∧
    ∀ d, (one st a).2 = .ok d → d.keys.Nodup ∧ ∀ k, k ∈ d.keys ↔ K k

/-- Variances add where both weights are positive; a zero weight on either side leaves the weight alone. -/
def VarAdded (w nw w' : ℝ) : Prop :=
  (w = 0 ∨ nw = 0 → w' = w) ∧ (0 < w → 0 < nw → 0 < w' ∧ 1 / w' = 1 / w + 1 / nw)

/-- The observation `o` with the noise observation `n` turned back by 90 degrees and added. -/
structure Combined (o n o' : MObs O X) : Prop where
  nrow : o'.image.nrow = o.image.nrow
  ncol : o'.image.ncol = o.image.ncol
  image : ∀ r c, r < o.image.nrow → c < o.image.ncol →
    o'.image.get r c = o.image.get r c + n.image.get (n.image.nrow - 1 - c) r
  weight : ∀ r c, VarAdded (o.weight.get r c) (n.weight.get r c) (o'.weight.get r c)
  wshape : o'.weight.nrow = o.weight.nrow ∧ o'.weight.ncol = o.weight.ncol
  orig : o'.orig = some (o.image, o.weight)
  kept : o'.noise = o.noise ∧ o'.psf = o.psf ∧ o'.rest = o.rest

/-- The same for each member of a list, in order. -/
def CombinedList (l n l' : List (MObs O X)) : Prop :=
  l'.length = l.length ∧ ∀ i (h : i < l.length) (h' : i < l'.length), ∃ hn : i < n.length, Combined l[i] n[i] l'[i]

/-- The same nesting, combined member by member. -/
def CombinedAll : ObsIn (MObs O X) Unit → ObsIn (MObs O X) Unit → ObsIn (MObs O X) Unit → Prop
  | .obs o, .obs n, .obs o' => Combined o n o'
  | .list _ l, .list _ n, .list _ l' => CombinedList l n l'
  | .mb _ l, .mb _ n, .mb _ l' =>
      l'.length = l.length ∧
      ∀ i (h : i < l.length) (h' : i < l'.length), ∃ hn : i < n.length, CombinedList l[i].2 n[i].2 l'[i].2
  | _, _, _ => False

/-- Square image. -/
def Square (im : Image) : Prop := im.nrow = im.ncol

/-- `im'` is `im` turned by 90 degrees counter-clockwise (rows are counted downwards). -/
structure Turned (im im' : Image) : Prop where
  nrow : im'.nrow = im.ncol
  ncol : im'.ncol = im.nrow
  pix : ∀ r c, r < im.ncol → c < im.nrow → im'.get r c = im.get c (im.ncol - 1 - r)

end Ngmix.Spec
