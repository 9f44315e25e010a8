import Verif.Model.PrePSF

/-!
# Specification: smoothing of the kernels of the pre-psf moments (C72)
-/

namespace Ngmix.Spec

open Ngmix

noncomputable section

/-- `s` is the width of the gaussian of full width `fwhm`: at half of it the gaussian is half its maximum (to nine digits). -/
def WidthOf (fwhm s : ℝ) : Prop := 0 < s ∧ |Real.exp (-((fwhm / 2) ^ 2 / (2 * s ^ 2))) - 1 / 2| ≤ 1e-9

/-- `q` is what the fast exponential makes of the Fourier transform of a gaussian of width `s` at a frequency whose square is
`k2`: within 4e-5 of it, and zero from `s² k² / 2 = 12.5`. -/
def GaussFactor (s k2 q : ℝ) : Prop :=
  (s ^ 2 * k2 / 2 < 12.5 → |q - Real.exp (-(s ^ 2 * k2 / 2))| ≤ 4e-5 * Real.exp (-(s ^ 2 * k2 / 2))) ∧
  (12.5 ≤ s ^ 2 * k2 / 2 → q = 0)

/-- `K'` are the kernels `K` smoothed by a gaussian of width `s`: the same modes, all four kernels of a mode times one factor. -/
structure SmoothedKernels (s : ℝ) (k2 : ℕ → ℕ → ℝ) (K K' : Kernels) : Prop where
  msk : ∀ r c, K'.msk r c ↔ K.msk r c
  norm : K'.nrm = K.nrm ∧ K'.fk00 = K.fk00
  factor : ∃ q : ℕ → ℕ → ℝ, ∀ r c, GaussFactor s (k2 r c) (q r c) ∧ K'.fkf r c = q r c * K.fkf r c ∧
    K'.fkr r c = q r c * K.fkr r c ∧ K'.fkp r c = q r c * K.fkp r c ∧ K'.fkc r c = q r c * K.fkc r c

end

end Ngmix.Spec
