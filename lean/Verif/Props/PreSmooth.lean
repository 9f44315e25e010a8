import Verif.Spec.PreSmooth
import Verif.Props.PrePSFRun
import Mathlib.Analysis.SpecialFunctions.Log.Deriv
import Mathlib.Analysis.Complex.ExponentialBounds

/-!
# C72: smoothing of the kernels of the pre-psf moments
-/

namespace Ngmix.Props

open Ngmix Ngmix.Spec

noncomputable section

theorem widthOf_fwhm {fwhm : ℝ} (h : 0 < fwhm) : WidthOf fwhm (fwhmToSigma fwhm) := by
  have hf : (0 : ℝ) < fwhmFac := by unfold fwhmFac; norm_num
  refine ⟨div_pos h hf, ?_⟩
  have e : (fwhm / 2) ^ 2 / (2 * fwhmToSigma fwhm ^ 2) = fwhmFac ^ 2 / 8 := by
    unfold fwhmToSigma
    field_simp
    norm_num
  rw [e]
  have h1 := Real.log_two_gt_d9
  have h2 := Real.log_two_lt_d9
  have hd : |Real.log 2 - fwhmFac ^ 2 / 8| ≤ 1e-9 := by
    unfold fwhmFac
    rw [abs_le]
    constructor <;> norm_num at h1 h2 ⊢ <;> linarith
  have hx : Real.exp (-(fwhmFac ^ 2 / 8)) = 1 / 2 * Real.exp (Real.log 2 - fwhmFac ^ 2 / 8) := by
    rw [sub_eq_add_neg, Real.exp_add, Real.exp_log (by norm_num)]
    ring
  have := Real.abs_exp_sub_one_le (x := Real.log 2 - fwhmFac ^ 2 / 8) (hd.trans (by norm_num))
  rw [hx, show (1 : ℝ) / 2 * Real.exp (Real.log 2 - fwhmFac ^ 2 / 8) - 1 / 2 =
    1 / 2 * (Real.exp (Real.log 2 - fwhmFac ^ 2 / 8) - 1) by ring, abs_mul, abs_of_pos (by norm_num : (0 : ℝ) < 1 / 2)]
  linarith

theorem smoothFactor_gauss {fs : ℝ} (h : 0 < fs) (k2 : ℝ) (hk : 0 ≤ k2) :
    GaussFactor (fwhmToSigma fs) k2 (smoothFactor fs k2) := by
  have hmax : fastexpMaxChi2 / 2 = 12.5 := by unfold fastexpMaxChi2; norm_num
  have e : fwhmToSigma fs * fwhmToSigma fs / 2 * k2 = fwhmToSigma fs ^ 2 * k2 / 2 := by ring
  have h0 : 0 ≤ fwhmToSigma fs ^ 2 * k2 / 2 := by positivity
  unfold smoothFactor smoothProfile
  rw [if_pos h]
  dsimp only
  rw [hmax, e]
  constructor
  · intro hl
    rw [if_pos ⟨hl, h0⟩]
    obtain ⟨y, -, hy, he⟩ := C26_exp5 (-(fwhmToSigma fs ^ 2 * k2 / 2)) (by norm_num at hl ⊢; linarith) (by linarith)
    rw [hy]
    exact he
  · intro hl
    rw [if_neg fun hh => absurd hh.1 (not_lt.2 hl)]

theorem smoothFactor_none {fs : ℝ} (h : fs ≤ 0) (k2 : ℝ) : smoothFactor fs k2 = 1 := by
  unfold smoothFactor; exact if_neg (not_lt.2 h)

/-- C72, smoothing.  With a smoothing scale above zero, the kernels (of either kind) are those without smoothing with all four
of each mode multiplied by the Fourier transform of a gaussian of that full width at half maximum, as the fast exponential gives
it; the modes, the normalisation and the exceptions are the same.  A scale of zero or less does nothing. -/
theorem C72_smoothing (cfg : PreCfg) (n : ℕ) (J : Jacobian) :
    (cfg.fwhmSmooth ≤ 0 → preKernels cfg n J = preKernels { cfg with fwhmSmooth := 0 } n J) ∧
    (0 < cfg.fwhmSmooth → ∃ s, WidthOf cfg.fwhmSmooth s ∧
      ((∃ e, preKernels cfg n J = .error e ∧ preKernels { cfg with fwhmSmooth := 0 } n J = .error e) ∨
       ∃ K K', preKernels { cfg with fwhmSmooth := 0 } n J = .ok K ∧ preKernels cfg n J = .ok K' ∧
        SmoothedKernels s (fun r c => freqU J n r c ^ 2 + freqV J n r c ^ 2) K K')) := by
  obtain ⟨size, ks, pf, ap, fs⟩ := cfg
  dsimp only
  constructor
  · intro h
    unfold preKernels ksigmaKernels gaussKernels
    simp only [smoothFactor_none h, smoothFactor_none le_rfl]
  · intro h
    refine ⟨fwhmToSigma fs, widthOf_fwhm h, ?_⟩
    have hq : ∀ r c, GaussFactor (fwhmToSigma fs) (freqU J n r c ^ 2 + freqV J n r c ^ 2) (smoothFactor fs (freqSq J n r c)) :=
      fun r c => smoothFactor_gauss h _ (by positivity)
    cases ks
    · unfold preKernels gaussKernels
      simp only [Bool.false_eq_true, if_false, smoothFactor_none le_rfl]
      split_ifs
      · exact .inl ⟨_, rfl, rfl⟩
      · refine .inr ⟨_, _, rfl, rfl, fun _ _ => Iff.rfl, ⟨rfl, rfl⟩, fun r c => smoothFactor fs (freqSq J n r c), fun r c => ⟨hq r c, ?_⟩⟩
        dsimp only
        generalize smoothFactor fs (freqSq J n r c) = q
        simp only [mul_one]
        generalize detAtinv J = d
        generalize freqSq J n r c = F
        generalize freqU J n r c = U
        generalize freqV J n r c = V
        generalize fwhmToSigma size = S
        refine ⟨?_, ?_, ?_, ?_⟩ <;> ring
      · exact .inl ⟨_, rfl, rfl⟩
    · unfold preKernels ksigmaKernels
      simp only [if_true, smoothFactor_none le_rfl]
      split_ifs
      · exact .inl ⟨_, rfl, rfl⟩
      · exact .inl ⟨_, rfl, rfl⟩
      · refine .inr ⟨_, _, rfl, rfl, fun _ _ => Iff.rfl, ⟨rfl, rfl⟩, fun r c => smoothFactor fs (freqSq J n r c), fun r c => ⟨hq r c, ?_⟩⟩
        dsimp only
        generalize smoothFactor fs (freqSq J n r c) = q
        simp only [show (1.0 : ℝ) = 1 by norm_num, show (8.0 : ℝ) = 8 by norm_num, show (2 * 4 : ℝ) = 8 by norm_num, mul_one]
        generalize detAtinv J = d
        generalize freqSq J n r c = F
        generalize freqU J n r c = U
        generalize freqV J n r c = V
        generalize fwhmToSigma size = S
        refine ⟨?_, ?_, ?_, ?_⟩ <;> ring
      · exact .inl ⟨_, rfl, rfl⟩

/-- The case of `PrePSFRun` with a smoothing scale of 2 pixels: the kernels exist, and are smoothed. -/
example : ∃ s K K', WidthOf 2 s ∧ preKernels PreExample.cfg 4 (PreExample.J 1.5 1.5) = .ok K ∧
    preKernels { PreExample.cfg with fwhmSmooth := 2 } 4 (PreExample.J 1.5 1.5) = .ok K' ∧
    SmoothedKernels s (fun r c => freqU (PreExample.J 1.5 1.5) 4 r c ^ 2 + freqV (PreExample.J 1.5 1.5) 4 r c ^ 2) K K' := by
  obtain ⟨K, hK⟩ := PreExample.kernel_ok 1.5 1.5
  have hK' : preKernels PreExample.cfg 4 (PreExample.J 1.5 1.5) = .ok K := hK
  obtain ⟨s, hs, h⟩ := (C72_smoothing { PreExample.cfg with fwhmSmooth := 2 } 4 (PreExample.J 1.5 1.5)).2 (by norm_num)
  have hc : ({ ({ PreExample.cfg with fwhmSmooth := 2 } : PreCfg) with fwhmSmooth := 0 } : PreCfg) = PreExample.cfg := rfl
  rw [hc] at h
  rcases h with ⟨e, -, h2⟩ | ⟨K1, K2, h1, h2, h3⟩
  · rw [hK'] at h2; cases h2
  · exact ⟨s, K1, K2, hs, h1, h2, h3⟩

end

end Ngmix.Props
