import Verif.Props.PrePSF
import Mathlib.MeasureTheory.Integral.IntervalIntegral.FundThmCalculus
import Mathlib.Analysis.SpecialFunctions.Integrals.Basic

/-! C61, C71, C72, C73: kernels, whole measurements, caches. -/

namespace Ngmix.Props

open Ngmix Ngmix.Spec

/-! ### Kernels -/

/-- C72.  The frequencies are those of the sky plane: for every displacement the phase computed with `(u, v)` and the
frequencies used is the phase of the array frequencies with `(row, col)`. -/
theorem C72_frequency (J : Jacobian) (hJ : J.dvdrow * J.dudcol - J.dvdcol * J.dudrow ≠ 0) (n kr kc : ℕ) (row col : ℝ) :
    freqV J n kr kc * (J.dvdrow * row + J.dvdcol * col) + freqU J n kr kc * (J.dudrow * row + J.dudcol * col) =
      2 * Real.pi * (fftfreq n kr * row + fftfreq n kc * col) := by
  unfold freqV freqU
  simp only
  rw [show (2.0 : ℝ) = 2 by norm_num]
  obtain ⟨d, hd⟩ : ∃ d, J.dvdrow * J.dudcol - J.dvdcol * J.dudrow = d := ⟨_, rfl⟩
  rw [hd] at hJ ⊢
  field_simp
  rw [← hd]
  ring

/-- The ksigma profile with peak `a` and cutoff `κ` in the square of the frequency. -/
noncomputable def ksigmaProfile (a κ : ℝ) (u v : ℝ) : ℝ := a * (1 - (u ^ 2 + v ^ 2) / κ) ^ 4

/-- The gaussian profile. -/
noncomputable def gaussProfile (a s : ℝ) (u v : ℝ) : ℝ := a * Real.exp (-(s * (u ^ 2 + v ^ 2)))

theorem ksigma_d2 (a κ : ℝ) (hκ : κ ≠ 0) (u v : ℝ) :
    d2uu (ksigmaProfile a κ) u v = a * (-8 / κ) * (1 - (u ^ 2 + v ^ 2) / κ) ^ 3 +
      a * (48 / κ ^ 2) * u ^ 2 * (1 - (u ^ 2 + v ^ 2) / κ) ^ 2 ∧
    d2vv (ksigmaProfile a κ) u v = a * (-8 / κ) * (1 - (u ^ 2 + v ^ 2) / κ) ^ 3 +
      a * (48 / κ ^ 2) * v ^ 2 * (1 - (u ^ 2 + v ^ 2) / κ) ^ 2 ∧
    d2uv (ksigmaProfile a κ) u v = a * (48 / κ ^ 2) * u * v * (1 - (u ^ 2 + v ^ 2) / κ) ^ 2 := by
  have B : ∀ v x : ℝ, HasDerivAt (fun b : ℝ => 1 - (b ^ 2 + v ^ 2) / κ) (-(2 * x / κ)) x := by
    intro v x
    refine ((((hasDerivAt_pow 2 x).add_const (v ^ 2)).div_const κ).const_sub 1).congr_deriv ?_
    norm_num
  have B' : ∀ u x : ℝ, HasDerivAt (fun b : ℝ => 1 - (u ^ 2 + b ^ 2) / κ) (-(2 * x / κ)) x := by
    intro u x
    refine ((((hasDerivAt_pow 2 x).const_add (u ^ 2)).div_const κ).const_sub 1).congr_deriv ?_
    norm_num
  have D1 : ∀ v x : ℝ, deriv (fun b => ksigmaProfile a κ b v) x = a * (-8 / κ) * (x * (1 - (x ^ 2 + v ^ 2) / κ) ^ 3) := by
    intro v x
    unfold ksigmaProfile
    refine HasDerivAt.deriv (HasDerivAt.congr_deriv (((B v x).pow 4).const_mul a) ?_)
    try simp only [Pi.pow_apply]
    norm_num; ring
  have D2 : ∀ u x : ℝ, deriv (fun b => ksigmaProfile a κ u b) x = a * (-8 / κ) * (x * (1 - (u ^ 2 + x ^ 2) / κ) ^ 3) := by
    intro u x
    unfold ksigmaProfile
    refine HasDerivAt.deriv (HasDerivAt.congr_deriv (((B' u x).pow 4).const_mul a) ?_)
    try simp only [Pi.pow_apply]
    norm_num; ring
  unfold d2uu d2vv d2uv
  simp only [D1, D2]
  refine ⟨?_, ?_, ?_⟩
  · refine HasDerivAt.deriv (HasDerivAt.congr_deriv (((hasDerivAt_id' u).mul ((B v u).pow 3)).const_mul (a * (-8 / κ))) ?_)
    try simp only [Pi.pow_apply]
    norm_num; ring
  · refine HasDerivAt.deriv (HasDerivAt.congr_deriv (((hasDerivAt_id' v).mul ((B' u v).pow 3)).const_mul (a * (-8 / κ))) ?_)
    try simp only [Pi.pow_apply]
    norm_num; ring
  · refine HasDerivAt.deriv (HasDerivAt.congr_deriv ((((B v u).pow 3).const_mul v).const_mul (a * (-8 / κ))) ?_)
    try simp only [Pi.pow_apply]
    norm_num; ring

theorem gauss_d2 (a s : ℝ) (u v : ℝ) :
    d2uu (gaussProfile a s) u v = (-2 * s + 4 * s ^ 2 * u ^ 2) * gaussProfile a s u v ∧
    d2vv (gaussProfile a s) u v = (-2 * s + 4 * s ^ 2 * v ^ 2) * gaussProfile a s u v ∧
    d2uv (gaussProfile a s) u v = 4 * s ^ 2 * u * v * gaussProfile a s u v := by
  have B : ∀ v x : ℝ, HasDerivAt (fun b : ℝ => Real.exp (-(s * (b ^ 2 + v ^ 2))))
      (Real.exp (-(s * (x ^ 2 + v ^ 2))) * (-(s * (2 * x)))) x := by
    intro v x
    refine ((((hasDerivAt_pow 2 x).add_const (v ^ 2)).const_mul s).neg.exp).congr_deriv ?_
    norm_num
  have B' : ∀ u x : ℝ, HasDerivAt (fun b : ℝ => Real.exp (-(s * (u ^ 2 + b ^ 2))))
      (Real.exp (-(s * (u ^ 2 + x ^ 2))) * (-(s * (2 * x)))) x := by
    intro u x
    refine ((((hasDerivAt_pow 2 x).const_add (u ^ 2)).const_mul s).neg.exp).congr_deriv ?_
    norm_num
  have D1 : ∀ v x : ℝ, deriv (fun b => gaussProfile a s b v) x = a * (-2 * s) * (x * Real.exp (-(s * (x ^ 2 + v ^ 2)))) := by
    intro v x
    unfold gaussProfile
    refine HasDerivAt.deriv (HasDerivAt.congr_deriv ((B v x).const_mul a) ?_)
    ring
  have D2 : ∀ u x : ℝ, deriv (fun b => gaussProfile a s u b) x = a * (-2 * s) * (x * Real.exp (-(s * (u ^ 2 + x ^ 2)))) := by
    intro u x
    unfold gaussProfile
    refine HasDerivAt.deriv (HasDerivAt.congr_deriv ((B' u x).const_mul a) ?_)
    ring
  unfold d2uu d2vv d2uv
  simp only [D1, D2]
  unfold gaussProfile
  refine ⟨?_, ?_, ?_⟩
  · refine HasDerivAt.deriv (HasDerivAt.congr_deriv (((hasDerivAt_id' u).mul (B v u)).const_mul (a * (-2 * s))) ?_)
    ring
  · refine HasDerivAt.deriv (HasDerivAt.congr_deriv (((hasDerivAt_id' v).mul (B' u v)).const_mul (a * (-2 * s))) ?_)
    ring
  · refine HasDerivAt.deriv (HasDerivAt.congr_deriv (((B v u).const_mul v).const_mul (a * (-2 * s))) ?_)
    ring

/-- The four kernels of a profile `W`, with smoothing factor `sm` and a common factor `q`: `u² + v²`, `u² - v²` and `2uv` in
real space are minus the second derivatives in Fourier space. -/
structure MomentKernels (J : Jacobian) (n : ℕ) (K : Kernels) (W : ℝ → ℝ → ℝ) (fwhmSmooth : ℝ) (q : ℕ → ℕ → ℝ) : Prop where
  flux : ∀ r c, K.msk r c → K.fkf r c =
    W (freqU J n r c) (freqV J n r c) * (q r c * smoothFactor fwhmSmooth (freqU J n r c ^ 2 + freqV J n r c ^ 2))
  size : ∀ r c, K.msk r c → K.fkr r c =
    -(d2uu W (freqU J n r c) (freqV J n r c) + d2vv W (freqU J n r c) (freqV J n r c)) *
      (q r c * smoothFactor fwhmSmooth (freqU J n r c ^ 2 + freqV J n r c ^ 2))
  plus : ∀ r c, K.msk r c → K.fkp r c =
    -(d2uu W (freqU J n r c) (freqV J n r c) - d2vv W (freqU J n r c) (freqV J n r c)) *
      (q r c * smoothFactor fwhmSmooth (freqU J n r c ^ 2 + freqV J n r c ^ 2))
  cross : ∀ r c, K.msk r c → K.fkc r c =
    -(2 * d2uv W (freqU J n r c) (freqV J n r c)) *
      (q r c * smoothFactor fwhmSmooth (freqU J n r c ^ 2 + freqV J n r c ^ 2))

/-- C72.  The ksigma kernels are the four moment kernels of the profile `(1 - k²σ²/8)⁴`, on the modes below the cutoff. -/
theorem C72_ksigma (n : ℕ) (size : ℝ) (J : Jacobian) (fwhmSmooth : ℝ) (K : Kernels)
    (h : ksigmaKernels n size J fwhmSmooth = .ok K) :
    MomentKernels J n K (ksigmaProfile K.fk00 (8 / fwhmToSigma size ^ 2)) fwhmSmooth (fun _ _ => 1) ∧
    (∀ r c, K.msk r c ↔ freqU J n r c ^ 2 + freqV J n r c ^ 2 < 8 / fwhmToSigma size ^ 2) ∧
    K.fk00 = |1 / (J.dvdrow * J.dudcol - J.dvdcol * J.dudrow)| * (fwhmToSigma size ^ 2 * 10 * Real.pi / 4) := by
  unfold ksigmaKernels at h
  simp only at h
  by_cases h1 : J.dvdrow * J.dudcol - J.dvdcol * J.dudrow = 0
  · rw [if_pos h1] at h; cases h
  rw [if_neg h1] at h
  by_cases h2 : fwhmToSigma size ^ 2 = 0
  · rw [if_pos h2] at h; cases h
  rw [if_neg h2] at h
  generalize hs : fwhmToSigma size ^ 2 = s at *
  split_ifs at h with h3
  cases h
  have hκ : (8 / s : ℝ) ≠ 0 := div_ne_zero (by norm_num) h2
  refine ⟨⟨?_, ?_, ?_, ?_⟩, ?_, ?_⟩
  · intro r c _
    unfold ksigmaProfile freqSq
    simp only [show (1.0 : ℝ) = 1 by norm_num, show (8.0 : ℝ) = 8 by norm_num, show (2 * 4 : ℝ) = 8 by norm_num, one_mul]
    generalize smoothFactor fwhmSmooth (freqU J n r c ^ 2 + freqV J n r c ^ 2) = sm
    generalize detAtinv J / (4 / (s * 10 * Real.pi)) = kn
    generalize (8 / s : ℝ) = κ
    ring
  · intro r c _
    rw [(ksigma_d2 _ _ hκ _ _).1, (ksigma_d2 _ _ hκ _ _).2.1]
    unfold freqSq
    simp only [show (1.0 : ℝ) = 1 by norm_num, show (8.0 : ℝ) = 8 by norm_num, show (2 * 4 : ℝ) = 8 by norm_num, one_mul]
    generalize smoothFactor fwhmSmooth (freqU J n r c ^ 2 + freqV J n r c ^ 2) = sm
    generalize detAtinv J / (4 / (s * 10 * Real.pi)) = kn
    generalize (8 / s : ℝ) = κ
    ring
  · intro r c _
    rw [(ksigma_d2 _ _ hκ _ _).1, (ksigma_d2 _ _ hκ _ _).2.1]
    unfold freqSq
    simp only [show (1.0 : ℝ) = 1 by norm_num, show (8.0 : ℝ) = 8 by norm_num, show (2 * 4 : ℝ) = 8 by norm_num, one_mul]
    generalize smoothFactor fwhmSmooth (freqU J n r c ^ 2 + freqV J n r c ^ 2) = sm
    generalize detAtinv J / (4 / (s * 10 * Real.pi)) = kn
    generalize (8 / s : ℝ) = κ
    ring
  · intro r c _
    rw [(ksigma_d2 _ _ hκ _ _).2.2]
    unfold freqSq
    simp only [show (1.0 : ℝ) = 1 by norm_num, show (8.0 : ℝ) = 8 by norm_num, show (2 * 4 : ℝ) = 8 by norm_num, one_mul]
    generalize smoothFactor fwhmSmooth (freqU J n r c ^ 2 + freqV J n r c ^ 2) = sm
    generalize detAtinv J / (4 / (s * 10 * Real.pi)) = kn
    generalize (8 / s : ℝ) = κ
    ring
  · intro r c
    unfold freqSq
    norm_num
  · unfold detAtinv
    have := Real.pi_ne_zero
    field_simp

/-- C72.  The gaussian kernels are the four moment kernels of `exp(-k²σ²/2)` on the modes with `k²σ²/2` below 12.5, up to one
common factor per mode, that of the fast exponential, within 4e-5 of one. -/
theorem C72_gauss (n : ℕ) (size : ℝ) (J : Jacobian) (fwhmSmooth : ℝ) (K : Kernels)
    (h : gaussKernels n size J fwhmSmooth = .ok K) :
    (∃ q : ℕ → ℕ → ℝ, (∀ r c, K.msk r c → |q r c - 1| ≤ 4e-5) ∧
      MomentKernels J n K (gaussProfile K.fk00 (fwhmToSigma size ^ 2 / 2)) fwhmSmooth q) ∧
    (∀ r c, K.msk r c ↔ fwhmToSigma size ^ 2 / 2 * (freqU J n r c ^ 2 + freqV J n r c ^ 2) < 12.5) ∧
    K.fk00 = |1 / (J.dvdrow * J.dudcol - J.dvdcol * J.dudrow)| * (2 * Real.pi * fwhmToSigma size ^ 2) := by
  unfold gaussKernels at h
  simp only at h
  by_cases h1 : J.dvdrow * J.dudcol - J.dvdcol * J.dudrow = 0
  · rw [if_pos h1] at h; cases h
  rw [if_neg h1] at h
  rw [← pow_two] at h
  have hs0 : 0 ≤ fwhmToSigma size ^ 2 := sq_nonneg _
  generalize hs : fwhmToSigma size ^ 2 = s at *
  split_ifs at h with h3
  cases h
  have hmax : fastexpMaxChi2 / 2 = 12.5 := by unfold fastexpMaxChi2; norm_num
  have hmsk : ∀ r c, (s / 2 * freqSq J n r c < fastexpMaxChi2 / 2 ∧ s / 2 * freqSq J n r c ≥ 0) ↔
      s / 2 * (freqU J n r c ^ 2 + freqV J n r c ^ 2) < 12.5 := by
    intro r c
    unfold freqSq
    rw [hmax]
    exact ⟨fun h => h.1, fun h => ⟨h, by positivity⟩⟩
  obtain ⟨q, hq⟩ : ∃ q : ℕ → ℕ → ℝ, ∀ r c,
      fexp (-(s / 2 * freqSq J n r c)) = Real.exp (-(s / 2 * (freqU J n r c ^ 2 + freqV J n r c ^ 2))) * q r c := by
    refine ⟨fun r c => fexp (-(s / 2 * freqSq J n r c)) / Real.exp (-(s / 2 * (freqU J n r c ^ 2 + freqV J n r c ^ 2))),
      fun r c => ?_⟩
    have := (Real.exp_pos (-(s / 2 * (freqU J n r c ^ 2 + freqV J n r c ^ 2)))).ne'
    simp only
    generalize Real.exp (-(s / 2 * (freqU J n r c ^ 2 + freqV J n r c ^ 2))) = e at *
    field_simp
  refine ⟨⟨q, ?_, ⟨?_, ?_, ?_, ?_⟩⟩, hmsk, ?_⟩
  · intro r c hm
    have hm' : s / 2 * freqSq J n r c < fastexpMaxChi2 / 2 ∧ s / 2 * freqSq J n r c ≥ 0 := hm
    rw [hmax] at hm'
    obtain ⟨y, -, hy, hb⟩ := C26_exp5 (-(s / 2 * freqSq J n r c)) (by linarith [hm'.1]) (by linarith [hm'.2])
    rw [← hy, hq r c] at hb
    rw [show freqU J n r c ^ 2 + freqV J n r c ^ 2 = freqSq J n r c from rfl] at hb
    have hp := Real.exp_pos (-(s / 2 * freqSq J n r c))
    generalize Real.exp (-(s / 2 * freqSq J n r c)) = e at *
    rw [show e * q r c - e = (q r c - 1) * e by ring, abs_mul, abs_of_pos hp] at hb
    exact le_of_mul_le_mul_right hb hp
  · intro r c _
    simp only [hq r c]
    unfold gaussProfile
    rw [show freqU J n r c ^ 2 + freqV J n r c ^ 2 = freqSq J n r c from rfl]
    ring
  · intro r c _
    rw [(gauss_d2 _ _ _ _).1, (gauss_d2 _ _ _ _).2.1]
    simp only [hq r c]
    unfold gaussProfile
    rw [show freqSq J n r c = freqU J n r c ^ 2 + freqV J n r c ^ 2 from rfl]
    ring
  · intro r c _
    rw [(gauss_d2 _ _ _ _).1, (gauss_d2 _ _ _ _).2.1]
    simp only [hq r c]
    unfold gaussProfile
    rw [show freqSq J n r c = freqU J n r c ^ 2 + freqV J n r c ^ 2 from rfl]
    ring
  · intro r c _
    rw [(gauss_d2 _ _ _ _).2.2]
    simp only [hq r c]
    unfold gaussProfile
    rw [show freqSq J n r c = freqU J n r c ^ 2 + freqV J n r c ^ 2 from rfl]
    ring
  · unfold detAtinv
    simp only
    ring

/-- The modes kept by the ksigma kernel, and the peak its profile is given. -/
def ksigmaModes (J : Jacobian) (n : ℕ) (size : ℝ) (r c : ℕ) : Prop :=
  freqU J n r c ^ 2 + freqV J n r c ^ 2 < 8 / fwhmToSigma size ^ 2

theorem realWeight_zero (n : ℕ) (M : Finset (ℕ × ℕ)) (kern : ℕ → ℕ → ℝ) :
    realWeight n M kern 0 0 = (∑ k ∈ M, kern k.1 k.2) / n / n := by
  unfold realWeight
  simp only [mul_zero, add_zero, Real.cos_zero, mul_one]
  rw [div_div, pow_two]

/-- C72.  When kernels are returned, the flux weight without smoothing is one at the centre, within 1e-5. -/
theorem C72_unit_peak (cfg : PreCfg) (n : ℕ) (J : Jacobian) (K : Kernels) (h : preKernels cfg n J = .ok K) :
    |K.nrm - 1| ≤ 1e-5 ∧ (cfg.fwhmSmooth ≤ 0 → realWeight n (modes n K.msk) K.fkf 0 0 = K.nrm) := by
  have hsm : ∀ x, cfg.fwhmSmooth ≤ 0 → smoothFactor cfg.fwhmSmooth x = 1 := fun x h => by
    unfold smoothFactor; exact if_neg (not_lt.2 h)
  unfold preKernels at h
  split_ifs at h with hk
  · unfold ksigmaKernels at h
    simp only at h
    split_ifs at h with h1 h2 h3
    cases h
    refine ⟨by rw [show (1 : ℝ) = 1.0 by norm_num]; exact h3, fun hs => ?_⟩
    rw [realWeight_zero]
    simp only [hsm _ hs, mul_one]
    rfl
  · unfold gaussKernels at h
    simp only at h
    split_ifs at h with h1 h3
    cases h
    refine ⟨by rw [show (1 : ℝ) = 1.0 by norm_num]; exact h3, fun hs => ?_⟩
    rw [realWeight_zero]
    simp only [hsm _ hs, mul_one]
    rfl

/-- C72.  Which errors the kernels raise: LinAlgError for a singular jacobian; ZeroDivisionError for ksigma of zero size;
FFTRangeError exactly when the sum of the profile over the modes of the array is not one within 1e-5. -/
theorem C72_ksigma_errors (n : ℕ) (size : ℝ) (J : Jacobian) (fwhmSmooth : ℝ) :
    (J.dvdrow * J.dudcol - J.dvdcol * J.dudrow = 0 → ksigmaKernels n size J fwhmSmooth = .error .linAlg) ∧
    (J.dvdrow * J.dudcol - J.dvdcol * J.dudrow ≠ 0 → fwhmToSigma size = 0 →
      ksigmaKernels n size J fwhmSmooth = .error .zeroDiv) ∧
    (J.dvdrow * J.dudcol - J.dvdcol * J.dudrow ≠ 0 → fwhmToSigma size ≠ 0 →
      let peak := |1 / (J.dvdrow * J.dudcol - J.dvdcol * J.dudrow)| * (fwhmToSigma size ^ 2 * 10 * Real.pi / 4)
      let total := realWeight n (modes n (ksigmaModes J n size))
        (fun r c => ksigmaProfile peak (8 / fwhmToSigma size ^ 2) (freqU J n r c) (freqV J n r c)) 0 0
      (|total - 1| ≤ 1e-5 → ∃ K, ksigmaKernels n size J fwhmSmooth = .ok K ∧ K.nrm = total) ∧
      (1e-5 < |total - 1| → ksigmaKernels n size J fwhmSmooth = .error .fftRange)) := by
  unfold ksigmaKernels
  refine ⟨fun h => by rw [if_pos h], fun h h0 => ?_, fun h h0 => ?_⟩
  · rw [if_neg h]; simp only; rw [if_pos (by rw [h0]; norm_num)]
  · simp only
    rw [if_neg h, if_neg (pow_ne_zero 2 h0)]
    have hs0 : fwhmToSigma size ^ 2 ≠ 0 := pow_ne_zero 2 h0
    have hmode : (fun r c => freqSq J n r c < 2 * 4 / fwhmToSigma size ^ 2) = ksigmaModes J n size := by
      funext r c
      unfold freqSq ksigmaModes
      norm_num
    have htot : kernelNorm n (fun r c => freqSq J n r c < 2 * 4 / fwhmToSigma size ^ 2)
        (fun r c => (1.0 - freqSq J n r c / (2 * 4 / fwhmToSigma size ^ 2)) ^ 4 *
          (detAtinv J / (4 / (fwhmToSigma size ^ 2 * 10 * Real.pi)))) =
        realWeight n (modes n (ksigmaModes J n size))
          (fun r c => ksigmaProfile (|1 / (J.dvdrow * J.dudcol - J.dvdcol * J.dudrow)| *
            (fwhmToSigma size ^ 2 * 10 * Real.pi / 4)) (8 / fwhmToSigma size ^ 2) (freqU J n r c) (freqV J n r c)) 0 0 := by
      rw [realWeight_zero, hmode]
      unfold kernelNorm
      congr 2
      refine Finset.sum_congr rfl fun k _ => ?_
      unfold ksigmaProfile freqSq detAtinv
      simp only [show (1.0 : ℝ) = 1 by norm_num, show (2 * 4 : ℝ) = 8 by norm_num]
      have := Real.pi_ne_zero
      generalize (1 - (freqU J n k.1 k.2 ^ 2 + freqV J n k.1 k.2 ^ 2) / (8 / fwhmToSigma size ^ 2)) = A
      generalize |1 / (J.dvdrow * J.dudcol - J.dvdcol * J.dudrow)| = B
      field_simp
    rw [htot, show (1.0 : ℝ) = 1 by norm_num]
    exact ⟨fun hle => ⟨_, by rw [if_neg (not_not.2 hle)], rfl⟩, fun hlt => by rw [if_pos (not_le.2 hlt)]⟩

theorem fexp_pos_of {x : ℝ} (h : x < fastexpMaxChi2 / 2 ∧ x ≥ 0) : 0 < fexp (-x) := by
  have hmax : fastexpMaxChi2 / 2 = 12.5 := by unfold fastexpMaxChi2; norm_num
  rw [hmax] at h
  obtain ⟨y, -, hy, hb⟩ := C26_exp5 (-x) (by linarith [h.1]) (by linarith [h.2])
  rw [← hy] at hb
  have hp := Real.exp_pos (-x)
  have := (abs_le.1 hb).1
  nlinarith

/-- C72.  The weight function has its maximum at the object's position, with smoothing or without. -/
theorem C72_maximum (cfg : PreCfg) (n : ℕ) (J : Jacobian) (K : Kernels) (h : preKernels cfg n J = .ok K) (dr dc : ℝ) :
    realWeight n (modes n K.msk) K.fkf dr dc ≤ realWeight n (modes n K.msk) K.fkf 0 0 := by
  have hsm : ∀ x, 0 ≤ smoothFactor cfg.fwhmSmooth x := by
    intro x
    unfold smoothFactor
    split_ifs with h1
    · unfold smoothProfile
      simp only
      split_ifs with h2
      · exact (fexp_pos_of h2).le
      · exact le_rfl
    · exact zero_le_one
  have hdet : 0 ≤ detAtinv J := abs_nonneg _
  have hpos : ∀ k ∈ modes n K.msk, 0 ≤ K.fkf k.1 k.2 := by
    intro k hk
    have hmsk : K.msk k.1 k.2 := by
      classical
      simp only [modes, Finset.mem_filter] at hk
      exact hk.2
    unfold preKernels at h
    split_ifs at h with hks
    · unfold ksigmaKernels at h
      simp only at h
      split_ifs at h with h1 h2 h3
      cases h
      simp only
      have := hsm (freqSq J n k.1 k.2)
      have hp := Real.pi_pos
      have : 0 ≤ (1.0 - freqSq J n k.1 k.2 / (2 * 4 / fwhmToSigma cfg.fwhm ^ 2)) ^ 4 := by positivity
      positivity
    · unfold gaussKernels at h
      simp only at h
      split_ifs at h with h1 h3
      cases h
      simp only
      have hm : fwhmToSigma cfg.fwhm * fwhmToSigma cfg.fwhm / 2 * freqSq J n k.1 k.2 < fastexpMaxChi2 / 2 ∧
          fwhmToSigma cfg.fwhm * fwhmToSigma cfg.fwhm / 2 * freqSq J n k.1 k.2 ≥ 0 := hmsk
      have h4 := (fexp_pos_of hm).le
      have h5 := hsm (freqSq J n k.1 k.2)
      have hp := Real.pi_pos
      have h6 := mul_self_nonneg (fwhmToSigma cfg.fwhm)
      positivity
  unfold realWeight
  refine div_le_div_of_nonneg_right (Finset.sum_le_sum fun k hk => ?_) (by positivity)
  rw [mul_zero, mul_zero, add_zero, mul_zero, Real.cos_zero]
  exact mul_le_mul_of_nonneg_left (Real.cos_le_one _) (hpos k hk)

/-- The modes kept by the gaussian kernel. -/
def gaussModes (J : Jacobian) (n : ℕ) (size : ℝ) (r c : ℕ) : Prop :=
  fwhmToSigma size ^ 2 / 2 * (freqU J n r c ^ 2 + freqV J n r c ^ 2) < 12.5

/-- C72.  The errors of the gaussian kernel: LinAlgError for a singular jacobian, and else FFTRangeError exactly when the sum
over the modes is not one within 1e-5; so always for zero size. -/
theorem C72_gauss_errors (n : ℕ) (size : ℝ) (J : Jacobian) (fwhmSmooth : ℝ) :
    (J.dvdrow * J.dudcol - J.dvdcol * J.dudrow = 0 → gaussKernels n size J fwhmSmooth = .error .linAlg) ∧
    (J.dvdrow * J.dudcol - J.dvdcol * J.dudrow ≠ 0 →
      let peak := |1 / (J.dvdrow * J.dudcol - J.dvdcol * J.dudrow)| * (2 * Real.pi * fwhmToSigma size ^ 2)
      let total := realWeight n (modes n (gaussModes J n size))
        (fun r c => peak * fexp (-(fwhmToSigma size ^ 2 / 2 * (freqU J n r c ^ 2 + freqV J n r c ^ 2)))) 0 0
      (|total - 1| ≤ 1e-5 → ∃ K, gaussKernels n size J fwhmSmooth = .ok K ∧ K.nrm = total) ∧
      (1e-5 < |total - 1| → gaussKernels n size J fwhmSmooth = .error .fftRange) ∧
      (fwhmToSigma size = 0 → gaussKernels n size J fwhmSmooth = .error .fftRange)) := by
  unfold gaussKernels
  refine ⟨fun h => by rw [if_pos h], fun h => ?_⟩
  simp only
  rw [if_neg h]
  have hmax : fastexpMaxChi2 / 2 = 12.5 := by unfold fastexpMaxChi2; norm_num
  have hmode : (fun r c => fwhmToSigma size * fwhmToSigma size / 2 * freqSq J n r c < fastexpMaxChi2 / 2 ∧
      fwhmToSigma size * fwhmToSigma size / 2 * freqSq J n r c ≥ 0) = gaussModes J n size := by
    funext r c
    unfold freqSq gaussModes
    rw [hmax, ← pow_two]
    exact propext ⟨fun h => h.1, fun h => ⟨h, by positivity⟩⟩
  have htot : kernelNorm n (fun r c => fwhmToSigma size * fwhmToSigma size / 2 * freqSq J n r c < fastexpMaxChi2 / 2 ∧
        fwhmToSigma size * fwhmToSigma size / 2 * freqSq J n r c ≥ 0)
      (fun r c => fexp (-(fwhmToSigma size * fwhmToSigma size / 2 * freqSq J n r c)) *
        (detAtinv J * Real.pi * 2 * (fwhmToSigma size * fwhmToSigma size))) =
      realWeight n (modes n (gaussModes J n size))
        (fun r c => |1 / (J.dvdrow * J.dudcol - J.dvdcol * J.dudrow)| * (2 * Real.pi * fwhmToSigma size ^ 2) *
          fexp (-(fwhmToSigma size ^ 2 / 2 * (freqU J n r c ^ 2 + freqV J n r c ^ 2)))) 0 0 := by
    rw [realWeight_zero, hmode]
    unfold kernelNorm
    congr 2
    refine Finset.sum_congr rfl fun k _ => ?_
    unfold freqSq detAtinv
    rw [← pow_two (fwhmToSigma size)]
    ring
  rw [htot, show (1.0 : ℝ) = 1 by norm_num]
  refine ⟨fun hle => ⟨_, by rw [if_neg (not_not.2 hle)], rfl⟩, fun hlt => by rw [if_pos (not_le.2 hlt)], fun h0 => ?_⟩
  rw [if_pos]
  rw [realWeight_zero, h0]
  norm_num

/-- C72.  The peak given to the ksigma profile makes its integral over the frequency plane, with the measure of angular
frequencies, the inverse of the pixel area: the weight function is one at the centre in the limit of a fine grid. -/
theorem C72_peak_integral (a κ : ℝ) (hκ : 0 < κ) :
    ∫ x in (0 : ℝ)..Real.sqrt κ, 1 / (2 * Real.pi) ^ 2 * (2 * Real.pi * x * ksigmaProfile a κ x 0) =
      a * κ / (20 * Real.pi) := by
  have hpi := Real.pi_ne_zero
  have hd : ∀ x ∈ Set.uIcc (0 : ℝ) (Real.sqrt κ), HasDerivAt (fun x => -(a * κ / (20 * Real.pi)) * (1 - x ^ 2 / κ) ^ 5)
      (1 / (2 * Real.pi) ^ 2 * (2 * Real.pi * x * ksigmaProfile a κ x 0)) x := by
    intro x _
    have h1 : HasDerivAt (fun x : ℝ => 1 - x ^ 2 / κ) (-(2 * x / κ)) x := by
      refine (((hasDerivAt_pow 2 x).div_const κ).const_sub 1).congr_deriv ?_
      norm_num
    refine ((h1.pow 5).const_mul (-(a * κ / (20 * Real.pi)))).congr_deriv ?_
    unfold ksigmaProfile
    rw [show x ^ 2 + 0 ^ 2 = x ^ 2 by ring]
    norm_num
    generalize 1 - x ^ 2 / κ = A
    field_simp
    ring
  rw [intervalIntegral.integral_eq_sub_of_hasDerivAt hd]
  · rw [Real.sq_sqrt hκ.le, div_self hκ.ne']
    norm_num
  · refine Continuous.intervalIntegrable ?_ _ _
    unfold ksigmaProfile
    fun_prop

/-- The origin is among the modes of a kernel. -/
theorem origin_mode (cfg : PreCfg) (n : ℕ) (hn : 0 < n) (J : Jacobian) (K : Kernels) (h : preKernels cfg n J = .ok K) :
    (0, 0) ∈ modes n K.msk := by
  have hz : ∀ a b : ℝ, freqU J n 0 0 = 0 ∧ freqV J n 0 0 = 0 := by
    intro _ _
    have : fftfreq n 0 = 0 := by unfold fftfreq; rw [if_pos (by omega)]; simp
    unfold freqU freqV
    simp [this]
  obtain ⟨hu, hv⟩ := hz 0 0
  classical
  refine Finset.mem_filter.2 ⟨by simp [hn], ?_⟩
  show K.msk 0 0
  unfold preKernels at h
  split_ifs at h with hk
  · rw [(C72_ksigma n cfg.fwhm J cfg.fwhmSmooth K h).2.1, hu, hv]
    have hs : fwhmToSigma cfg.fwhm ≠ 0 := by
      intro h0
      unfold ksigmaKernels at h
      simp only at h
      split_ifs at h with h1 h2 h3
      exact h2 (by rw [h0]; norm_num)
    have : 0 < fwhmToSigma cfg.fwhm ^ 2 := by positivity
    simp only [ne_eq, OfNat.ofNat_ne_zero, not_false_eq_true, zero_pow, add_zero]
    positivity
  · rw [(C72_gauss n cfg.fwhm J cfg.fwhmSmooth K h).2.1, hu, hv]
    norm_num

end Ngmix.Props
