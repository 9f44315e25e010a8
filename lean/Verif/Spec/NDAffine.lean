import Verif.Spec.GMixND

/-!
# Specification of n-dimensional mixtures in other parameters and orders (C114)
-/

namespace Ngmix.Spec

open Ngmix Matrix

noncomputable section

/-- The mixture that describes `A x + b` when `gm` describes `x`. -/
def inPars {n : ℕ} (A : Matrix (Fin n) (Fin n) ℝ) (b : Fin n → ℝ) (gm : List (NDIn n)) : List (NDIn n) :=
  gm.map fun c => ⟨c.weight, A *ᵥ c.mean + b, A * c.covar * Aᵀ⟩

/-- All weights multiplied by `k`. -/
def weighted {n : ℕ} (k : ℝ) (gm : List (NDIn n)) : List (NDIn n) := gm.map fun c => { c with weight := k * c.weight }

/-- A mixture of normal distributions: determinants positive, weights not negative. -/
def ProperND {n : ℕ} (gm : List (NDIn n)) : Prop := ∀ c ∈ gm, 0 < c.covar.det ∧ 0 ≤ c.weight

end

end Ngmix.Spec
