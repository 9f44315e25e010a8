import Verif.Model.GMixND
import Mathlib.LinearAlgebra.Matrix.DotProduct

/-!
# Specification: mixture of normal distributions in `n` dimensions
-/

namespace Ngmix.Spec

open Ngmix Matrix

noncomputable section

/-- Density of the `n`-dimensional normal distribution of mean `μ` and covariance `C`. -/
def normalDensity {n : ℕ} (μ : Fin n → ℝ) (C : Matrix (Fin n) (Fin n) ℝ) (x : Fin n → ℝ) : ℝ :=
  Real.exp (-((x - μ) ⬝ᵥ (C⁻¹ *ᵥ (x - μ))) / 2) / Real.sqrt ((2 * Real.pi) ^ n * C.det)

/-- Density of a mixture. -/
def mixDensity {n : ℕ} (gm : List (NDIn n)) (x : Fin n → ℝ) : ℝ :=
  (gm.map fun c => c.weight * normalDensity c.mean c.covar x).sum

/-- Logarithm of a density: `-inf` for zero. -/
def lnDensity (p : ℝ) : Fl := open Classical in if p = 0 then .ninf else .fin (Real.log p)

end

end Ngmix.Spec
