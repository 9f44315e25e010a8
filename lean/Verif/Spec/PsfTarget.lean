import Verif.Model.PsfTarget

/-! Specification vocabulary for the reconvolution psfs. -/

namespace Ngmix.Spec

/-- `lam` is the largest value of the quadratic form of `[[irr, irc], [irc, icc]]` on unit vectors: the variance along the
major axis. -/
def IsMajorVariance (irr irc icc lam : ℝ) : Prop :=
  (∀ x y : ℝ, x ^ 2 + y ^ 2 = 1 → irr * x ^ 2 + 2 * irc * x * y + icc * y ^ 2 ≤ lam) ∧
  ∃ x y : ℝ, x ^ 2 + y ^ 2 = 1 ∧ irr * x ^ 2 + 2 * irc * x * y + icc * y ^ 2 = lam

/-- Where GalSim's shear with reduced shear `(g1, g2)` moves the point `(x, y)`; the map preserves areas. -/
noncomputable def sheared (g1 g2 x y : ℝ) : ℝ × ℝ :=
  (((1 + g1) * x + g2 * y) / Real.sqrt (1 - (g1 ^ 2 + g2 ^ 2)),
   (g2 * x + (1 - g1) * y) / Real.sqrt (1 - (g1 ^ 2 + g2 ^ 2)))

/-- Fourier amplitude of a round gaussian of unit flux and squared width `s2` at squared wavenumber `ksq`. -/
noncomputable def gaussAmp (s2 ksq : ℝ) : ℝ := Real.exp (-(ksq * s2) / 2)

end Ngmix.Spec
