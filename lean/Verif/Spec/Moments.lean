import Mathlib.LinearAlgebra.Matrix.Notation
import Mathlib.Data.Real.Basic

/-! Specification vocabulary for second moments: 2x2 symmetric matrices in the order
(column, row) = (x, y), and the shear matrix acting on them. -/

namespace Ngmix.Spec

noncomputable section

/-- The second-moment matrix `[[<xx>,<xy>],[<xy>,<yy>]]` (x along columns, y along rows). -/
def momMat (irr irc icc : ℝ) : Matrix (Fin 2) (Fin 2) ℝ := !![icc, irc; irc, irr]

/-- The (unnormalised) shear matrix. -/
def shearMat (s1 s2 : ℝ) : Matrix (Fin 2) (Fin 2) ℝ := !![1 + s1, s2; s2, 1 - s1]

/-- Positive definiteness of a 2x2 symmetric moment matrix (Sylvester). -/
def PosDef2 (irr irc icc : ℝ) : Prop := 0 < irr ∧ 0 < icc ∧ 0 < irr * icc - irc ^ 2

end

end Ngmix.Spec
