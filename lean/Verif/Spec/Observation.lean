import Verif.Model.Observation

/-!
# Specifications for Observation

What "a faithful, independent copy" means for an object graph, and when pixels are up to date.
-/

namespace Ngmix.Spec

open Ngmix

variable {G M : Type}

/-- Two optional references are both absent, or both present and related. -/
def Both (R : ℕ → ℕ → Prop) : Option ℕ → Option ℕ → Prop
  | none, none => True
  | some a, some b => R a b
  | _, _ => False

/-- In heap `s`, observation `o'` is a deep copy of `o`, at most `n` psf levels deep: every attribute
is present in both or in neither and has equal contents, and every object reachable from the copy
(arrays, Jacobian, mixture, metadata, psf observations, the copy itself) lies beyond the counters of
`lo`, the heap before copying. `gcopy` is `GMix.copy`. -/
inductive CopyOf (gcopy : G → G) (lo s : Store G M) : ℕ → ℕ → ℕ → Prop
  | mk (n o o' : ℕ)
      (self : lo.nObs ≤ o' ∧ o' < s.nObs)
      (image : lo.nArr ≤ (s.obs o').image ∧ s.arr (s.obs o').image = s.arr (s.obs o).image)
      (weight : lo.nArr ≤ (s.obs o').weight ∧ s.arr (s.obs o').weight = s.arr (s.obs o).weight)
      (aux : ∀ f, Both (fun a b => lo.nArr ≤ b ∧ s.arr b = s.arr a) ((s.obs o).aux f) ((s.obs o').aux f))
      (jac : lo.nJac ≤ (s.obs o').jac ∧ s.jac (s.obs o').jac = s.jac (s.obs o).jac)
      (gmix : Both (fun a b => lo.nGm ≤ b ∧ s.gm b = gcopy (gcopy (s.gm a)))
        (s.obs o).gmix (s.obs o').gmix)
      (md : lo.nDict ≤ (s.obs o').md ∧ s.dict (s.obs o').md = s.dict (s.obs o).md)
      (flags : (s.obs o').storePixels = (s.obs o).storePixels ∧
        (s.obs o').ignoreZero = (s.obs o).ignoreZero ∧ (s.obs o').writeable = false)
      (psfNone : (s.obs o).psf = none ↔ (s.obs o').psf = none)
      (psf : ∀ p q, (s.obs o).psf = some p → (s.obs o').psf = some q → CopyOf gcopy lo s n p q) :
      CopyOf gcopy lo s (n + 1) o o'

/-- The psf chain of `o` ends after at most `n` observations, and each observation on it satisfies
`P`. -/
inductive ChainAll (s : Store G M) (P : Obs → Prop) : ℕ → ℕ → Prop
  | mk (n o : ℕ) (here : P (s.obs o))
      (next : ∀ p, (s.obs o).psf = some p → ChainAll s P n p) : ChainAll s P (n + 1) o

end Ngmix.Spec

namespace Ngmix

variable {G M : Type}

/-- The stored pixels are those of the current image, weight and Jacobian. -/
def InSync (s : Store G M) (r : Obs) : Prop :=
  (r.storePixels = true → ∃ px, makePixels (s.arr r.image).image (s.arr r.weight).image (s.jac r.jac)
      r.ignoreZero = .ok px ∧ r.pixels = some px) ∧
  (r.storePixels = false → r.pixels = none)

end Ngmix
