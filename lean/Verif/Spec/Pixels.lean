import Mathlib.Analysis.SpecialFunctions.Sqrt

/-! Specification vocabulary for pixel lists. -/

namespace Ngmix.Spec

/-- All (row, col) positions of an `nrow x ncol` array in row-major order. -/
def rowMajor (nrow ncol : ℕ) : List (ℕ × ℕ) :=
  (List.range nrow).flatMap fun r => (List.range ncol).map fun c => (r, c)

/-- The positions whose weight is positive, in row-major order. -/
noncomputable def positiveWeight (nrow ncol : ℕ) (w : ℕ → ℕ → ℝ) : List (ℕ × ℕ) :=
  open Classical in
  (rowMajor nrow ncol).filter fun p => decide (0 < w p.1 p.2)

end Ngmix.Spec
