import Verif.Model.GMixHeap

/-!
# Which call may change which object
-/

namespace Ngmix.Spec

open Ngmix

/-- The mixture a call is meant to change: `fill`, `set_cen`, `set_flux`, the lazy norms, and a write
to the array of `get_data`.  All other calls are meant to change none. -/
def changes : WOp → Option ℕ
  | .fill i _ => some i
  | .setCen i _ _ => some i
  | .setFlux i _ => some i
  | .norms i => some i
  | .writeData i _ _ => some i
  | _ => none

/-- The Jacobian a call is meant to change. -/
def changesJac : WOp → Option ℕ
  | .setCenJac j _ => some j
  | _ => none

/-- The array of the caller a call is meant to change. -/
def changesArray : WOp → Option ℕ
  | .writeArray a _ _ => some a
  | _ => none

/-- A program can only name objects it has made and arrays it holds. -/
def WLegal (w : MixHeap) : WOp → Prop
  | .writeArray a _ _ => w.handed a
  | .make a _ => w.handed a
  | .makeCM _ _ a => w.handed a
  | .copy i => i < w.nMix
  | .shear i _ _ => i < w.nMix
  | .round i _ => i < w.nMix
  | .convolve i k => i < w.nMix ∧ k < w.nMix
  | .concat l => ∀ i ∈ l, i < w.nMix
  | .fullPars i => i < w.nMix
  | .fill i a => i < w.nMix ∧ w.handed a
  | .setCen i _ _ => i < w.nMix
  | .setFlux i _ => i < w.nMix
  | .norms i => i < w.nMix
  | .writeData i _ _ => i < w.nMix
  | .copyJac j => j < w.nJobj
  | .setCenJac j _ => j < w.nJobj
  | _ => True

/-- One legal call from `w` to `w'`, whatever its outcome. -/
def WCall (w : MixHeap) (op : WOp) (w' : MixHeap) : Prop :=
  WLegal w op ∧ ∃ r, wStep w op = some (w', r)

/-- A program run: a sequence of calls, with their list. -/
inductive WRun : MixHeap → List WOp → MixHeap → Prop
  | nil (w : MixHeap) : WRun w [] w
  | cons {w w1 w2 : MixHeap} {op : WOp} {ops : List WOp} (h : WCall w op w1) (ht : WRun w1 ops w2) :
      WRun w (op :: ops) w2

/-- A heap some program reaches. -/
def WReach (w : MixHeap) : Prop := ∃ ops, WRun MixHeap.empty ops w

/-- The mixture a call makes, from the values of its arguments; `none` for calls that make none. -/
noncomputable def makes (w : MixHeap) : WOp → Option (Except PyErr GMixObj)
  | .make a m => some (makeGmixModel (w.num a) m)
  | .makeCM fd Td a => some (newGMixCM fd Td (w.num a))
  | .makeEmpty n => some (newGMix (some n) none)
  | .copy i => some (copyGMix (w.get i))
  | .shear i s1 s2 => some (getShearedObj (w.get i) s1 s2)
  | .convolve i k => some (convolveObj (w.get i) (w.get k))
  | .concat l => some (gmixConcat (l.map w.get))
  | _ => none

end Ngmix.Spec
