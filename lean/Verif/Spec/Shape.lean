import Mathlib.Analysis.Complex.Basic
import Mathlib.Analysis.SpecialFunctions.Complex.Circle

/-!
# Specification vocabulary for shapes

A reduced-shear shape is a point of the complex plane; shearing is a disk
automorphism.  Nothing here refers to the model.
-/

namespace Ngmix.Spec

noncomputable section

/-- A pair of shape components as a complex number. -/
def toC (g : ℝ × ℝ) : ℂ := ⟨g.1, g.2⟩

/-- The open unit disk. -/
def InDisk (g1 g2 : ℝ) : Prop := g1 ^ 2 + g2 ^ 2 < 1

/-- Shear of a shape `g` by `s`: the disk automorphism `(g+s)/(1+conj(s) g)`. -/
def mobius (g s : ℂ) : ℂ := (g + s) / (1 + (starRingEnd ℂ) s * g)

/-- Rotating the coordinate axes by `theta` multiplies a spin-2 shape by
`exp(-2 i theta)`. -/
def spin2 (theta : ℝ) (g : ℂ) : ℂ := Complex.exp (-(2 * theta) * Complex.I) * g

/-- Two plane vectors point the same way with lengths related by `r ≥ 0`. -/
def SameDirection (a b : ℝ × ℝ) : Prop := ∃ r : ℝ, 0 ≤ r ∧ b = (r * a.1, r * a.2)

end

end Ngmix.Spec
