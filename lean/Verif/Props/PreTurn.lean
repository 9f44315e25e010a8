import Verif.Spec.PreTurn
import Verif.Props.GaussTurn
import Verif.Props.PrePSFRun
import Verif.Props.MomUnit

/-!
# C110: pre-psf moments of the same sky in other coordinates and in another array
-/

namespace Ngmix.Props

open Ngmix Ngmix.Spec

noncomputable section

theorem turnedJac_deriv {k theta eps : ℝ} {j j' : Jacobian} (h : TurnedJac k theta eps j j') :
    j'.dvdrow = k * Real.cos theta * j.dvdrow - k * Real.sin theta * j.dudrow ∧
    j'.dvdcol = k * Real.cos theta * j.dvdcol - k * Real.sin theta * j.dudcol ∧
    j'.dudrow = eps * (k * Real.sin theta * j.dvdrow + k * Real.cos theta * j.dudrow) ∧
    j'.dudcol = eps * (k * Real.sin theta * j.dvdcol + k * Real.cos theta * j.dudcol) := by
  obtain ⟨h1, h2, h3⟩ := h
  have a := h3 (j.row0 + 1) j.col0
  have b := h3 j.row0 (j.col0 + 1)
  simp only [Jacobian.getVU, SkyMap.point, simMap, Prod.mk.injEq, h1, h2] at a b
  refine ⟨?_, ?_, ?_, ?_⟩
  · linear_combination a.1
  · linear_combination b.1
  · linear_combination a.2
  · linear_combination b.2

theorem turnedJac_det {k theta eps : ℝ} {j j' : Jacobian} (h : TurnedJac k theta eps j j') :
    j'.dvdrow * j'.dudcol - j'.dvdcol * j'.dudrow = eps * k ^ 2 * (j.dvdrow * j.dudcol - j.dvdcol * j.dudrow) := by
  obtain ⟨h1, h2, h3, h4⟩ := turnedJac_deriv h
  rw [h1, h2, h3, h4]
  linear_combination eps * k ^ 2 * (j.dvdrow * j.dudcol - j.dvdcol * j.dudrow) * Real.sin_sq_add_cos_sq theta

theorem turned_freqV {k theta eps : ℝ} (hk : k ≠ 0) (he : eps = 1 ∨ eps = -1) {j j' : Jacobian} (h : TurnedJac k theta eps j j')
    (hd : j.dvdrow * j.dudcol - j.dvdcol * j.dudrow ≠ 0) (n r c : ℕ) :
    freqV j' n r c = (Real.cos theta * freqV j n r c - Real.sin theta * freqU j n r c) / k := by
  have he0 : eps ≠ 0 := by rcases he with rfl | rfl <;> norm_num
  obtain ⟨h1, h2, h3, h4⟩ := turnedJac_deriv h
  unfold freqV freqU
  simp only
  rw [turnedJac_det h, h3, h4]
  generalize j.dvdrow * j.dudcol - j.dvdcol * j.dudrow = d at hd
  generalize fftfreq n c * (2.0 * Real.pi) = fx
  generalize fftfreq n r * (2.0 * Real.pi) = fy
  field_simp
  ring

theorem turned_freqU {k theta eps : ℝ} (hk : k ≠ 0) (he : eps = 1 ∨ eps = -1) {j j' : Jacobian} (h : TurnedJac k theta eps j j')
    (hd : j.dvdrow * j.dudcol - j.dvdcol * j.dudrow ≠ 0) (n r c : ℕ) :
    freqU j' n r c = eps * (Real.sin theta * freqV j n r c + Real.cos theta * freqU j n r c) / k := by
  have he0 : eps ≠ 0 := by rcases he with rfl | rfl <;> norm_num
  have he2 : eps * eps = 1 := by rcases he with rfl | rfl <;> norm_num
  obtain ⟨h1, h2, h3, h4⟩ := turnedJac_deriv h
  unfold freqV freqU
  simp only
  rw [turnedJac_det h, h1, h2]
  generalize j.dvdrow * j.dudcol - j.dvdcol * j.dudrow = d at hd
  generalize fftfreq n c * (2.0 * Real.pi) = fx
  generalize fftfreq n r * (2.0 * Real.pi) = fy
  generalize Real.sin theta = s
  generalize Real.cos theta = t
  have : eps⁻¹ = eps := by rw [inv_eq_iff_eq_inv]; exact eq_inv_of_mul_eq_one_left he2
  have e : eps * k ^ 2 * d = k ^ 2 * d / eps := by
    rw [div_eq_mul_inv, this]; ring
  rw [e]
  field_simp
  ring

theorem turned_freqSq {k theta eps : ℝ} (hk : k ≠ 0) (he : eps = 1 ∨ eps = -1) {j j' : Jacobian} (h : TurnedJac k theta eps j j')
    (hd : j.dvdrow * j.dudcol - j.dvdcol * j.dudrow ≠ 0) (n : ℕ) :
    freqSq j' n = fun r c => freqSq j n r c / k ^ 2 := by
  have he2 : eps ^ 2 = 1 := by rcases he with rfl | rfl <;> norm_num
  funext r c
  unfold freqSq
  rw [turned_freqU hk he h hd, turned_freqV hk he h hd]
  have h1 := Real.sin_sq_add_cos_sq theta
  generalize freqU j n r c = u
  generalize freqV j n r c = v
  generalize Real.sin theta = s at h1
  generalize Real.cos theta = t at h1
  rw [div_pow, div_pow, ← add_div]
  congr 1
  rw [mul_pow, he2]
  linear_combination (u ^ 2 + v ^ 2) * h1

theorem turned_freq_plus {k theta eps : ℝ} (hk : k ≠ 0) (he : eps = 1 ∨ eps = -1) {j j' : Jacobian} (h : TurnedJac k theta eps j j')
    (hd : j.dvdrow * j.dudcol - j.dvdcol * j.dudrow ≠ 0) (n r c : ℕ) :
    freqU j' n r c ^ 2 - freqV j' n r c ^ 2 = (Real.cos (2 * theta) * (freqU j n r c ^ 2 - freqV j n r c ^ 2) +
      Real.sin (2 * theta) * (2 * freqU j n r c * freqV j n r c)) / k ^ 2 := by
  have he2 : eps ^ 2 = 1 := by rcases he with rfl | rfl <;> norm_num
  rw [turned_freqU hk he h hd, turned_freqV hk he h hd, Real.cos_two_mul', Real.sin_two_mul]
  generalize freqU j n r c = u
  generalize freqV j n r c = v
  rw [div_pow, div_pow, ← sub_div]
  congr 1
  rw [mul_pow, he2]
  ring

theorem turned_freq_cross {k theta eps : ℝ} (hk : k ≠ 0) (he : eps = 1 ∨ eps = -1) {j j' : Jacobian} (h : TurnedJac k theta eps j j')
    (hd : j.dvdrow * j.dudcol - j.dvdcol * j.dudrow ≠ 0) (n r c : ℕ) :
    2 * freqU j' n r c * freqV j' n r c = eps * (Real.cos (2 * theta) * (2 * freqU j n r c * freqV j n r c) -
      Real.sin (2 * theta) * (freqU j n r c ^ 2 - freqV j n r c ^ 2)) / k ^ 2 := by
  rw [turned_freqU hk he h hd, turned_freqV hk he h hd, Real.cos_two_mul', Real.sin_two_mul]
  generalize freqU j n r c = u
  generalize freqV j n r c = v
  field_simp
  ring

/-- Kernels in the new coordinates. -/
structure TurnedKernels (k theta eps : ℝ) (K K' : Kernels) : Prop where
  msk : K'.msk = K.msk
  nrm : K'.nrm = K.nrm
  fk00 : K'.fk00 = K.fk00
  fkf : K'.fkf = K.fkf
  fkr : ∀ r c, K'.fkr r c = k ^ 2 * K.fkr r c
  fkp : ∀ r c, K'.fkp r c = k ^ 2 * Real.cos (2 * theta) * K.fkp r c + k ^ 2 * Real.sin (2 * theta) * K.fkc r c
  fkc : ∀ r c, K'.fkc r c = -(eps * (k ^ 2 * Real.sin (2 * theta))) * K.fkp r c + eps * (k ^ 2 * Real.cos (2 * theta)) * K.fkc r c

/-- The outcomes of the two requests for kernels. -/
def KernelsOut (k theta eps : ℝ) (r r' : Except PyErr Kernels) : Prop :=
  match r, r' with
  | .error e, .error e' => e' = e
  | .ok K, .ok K' => TurnedKernels k theta eps K K'
  | _, _ => False

theorem fwhmToSigma_mul (k s : ℝ) : fwhmToSigma (k * s) = k * fwhmToSigma s := by unfold fwhmToSigma; ring

theorem smooth_length {k : ℝ} (hk : 0 < k) (f f2 : ℝ) : smoothFactor (k * f) (f2 / k ^ 2) = smoothFactor f f2 := by
  unfold smoothFactor smoothProfile
  simp only
  have e : fwhmToSigma (k * f) * fwhmToSigma (k * f) / 2 * (f2 / k ^ 2) = fwhmToSigma f * fwhmToSigma f / 2 * f2 := by
    rw [fwhmToSigma_mul]
    generalize fwhmToSigma f = s
    field_simp
  rw [e]
  by_cases h : f > 0
  · rw [if_pos h, if_pos (mul_pos hk h)]
  · rw [if_neg h, if_neg]
    rw [gt_iff_lt, mul_pos_iff_of_pos_left hk]
    exact h

theorem detAtinv_turned {k theta eps : ℝ} (he : eps = 1 ∨ eps = -1) {j j' : Jacobian} (h : TurnedJac k theta eps j j') :
    detAtinv j' = detAtinv j / k ^ 2 := by
  unfold detAtinv
  rw [turnedJac_det h, abs_div, abs_div, abs_mul, abs_mul, abs_one, abs_of_nonneg (sq_nonneg k)]
  have : |eps| = 1 := by rcases he with rfl | rfl <;> simp
  rw [this, one_mul, mul_comm, div_div]

theorem ksigma_turned {k theta eps : ℝ} (hk : 0 < k) (he : eps = 1 ∨ eps = -1) {j j' : Jacobian} (h : TurnedJac k theta eps j j')
    (n : ℕ) (size fs : ℝ) :
    KernelsOut k theta eps (ksigmaKernels n size j fs) (ksigmaKernels n (k * size) j' (k * fs)) := by
  have hk0 := hk.ne'
  have he0 : eps ≠ 0 := by rcases he with rfl | rfl <;> norm_num
  have hdet := turnedJac_det h
  unfold ksigmaKernels
  by_cases hd : j.dvdrow * j.dudcol - j.dvdcol * j.dudrow = 0
  · rw [if_pos hd, if_pos (by rw [hdet, hd, mul_zero])]
    rfl
  have hd' : ¬ j'.dvdrow * j'.dudcol - j'.dvdcol * j'.dudrow = 0 := by
    rw [hdet]; exact mul_ne_zero (mul_ne_zero he0 (pow_ne_zero 2 hk0)) hd
  rw [if_neg hd, if_neg hd']
  simp only
  rw [fwhmToSigma_mul]
  generalize fwhmToSigma size = s
  by_cases hs : s ^ 2 = 0
  · rw [if_pos hs, if_pos (by rw [mul_pow, hs, mul_zero])]
    rfl
  have hs0 : s ≠ 0 := fun h0 => hs (by rw [h0]; ring)
  have hs' : ¬ (k * s) ^ 2 = 0 := by rw [mul_pow]; exact mul_ne_zero (pow_ne_zero 2 hk0) hs
  rw [if_neg hs, if_neg hs']
  have hfs := turned_freqSq hk0 he h hd n
  have e1 : (2 * 4 / (k * s) ^ 2 : ℝ) = 2 * 4 / s ^ 2 / k ^ 2 := by rw [mul_pow, div_div, mul_comm (k ^ 2)]
  have hpi := Real.pi_ne_zero
  have e2 : detAtinv j' / (4 / ((k * s) ^ 2 * 10 * Real.pi)) = detAtinv j / (4 / (s ^ 2 * 10 * Real.pi)) := by
    rw [detAtinv_turned he h]
    field_simp
  have hK : (0 : ℝ) < 2 * 4 / s ^ 2 := by positivity
  rw [hfs, e1, e2]
  generalize (2 * 4 / s ^ 2 : ℝ) = κ at hK
  generalize detAtinv j / (4 / (s ^ 2 * 10 * Real.pi)) = knrm
  have e3 : ∀ r c, freqSq j n r c / k ^ 2 / (κ / k ^ 2) = freqSq j n r c / κ := by
    intro r c
    rw [div_div_div_cancel_right₀ (pow_ne_zero 2 hk0)]
  have e4 : ∀ r c, (freqSq j n r c / k ^ 2 < κ / k ^ 2) = (freqSq j n r c < κ) := by
    intro r c
    rw [eq_iff_iff]
    exact div_lt_div_iff_of_pos_right (by positivity)
  simp only [e3, e4, smooth_length hk]
  by_cases hn : ¬ |kernelNorm n (fun r c => freqSq j n r c < κ) (fun r c => (1.0 - freqSq j n r c / κ) ^ 4 * knrm) - 1.0| ≤ 1e-5
  · rw [if_pos hn, if_pos hn]; rfl
  rw [if_neg hn, if_neg hn]
  refine ⟨rfl, rfl, rfl, rfl, fun r c => ?_, fun r c => ?_, fun r c => ?_⟩
  · simp only
    generalize smoothFactor fs (freqSq j n r c) = sm
    generalize freqSq j n r c = f2
    generalize (1.0 - f2 / κ) = q
    have := hK.ne'
    field_simp
  · simp only
    rw [turned_freq_plus hk0 he h hd]
    generalize smoothFactor fs (freqSq j n r c) = sm
    generalize (1.0 - freqSq j n r c / κ) = q
    have := hK.ne'
    generalize Real.sin (2 * theta) = s
    generalize Real.cos (2 * theta) = c
    field_simp
    ring
  · simp only
    have := turned_freq_cross hk0 he h hd n r c
    rw [neg_mul, neg_mul, neg_mul, this]
    generalize smoothFactor fs (freqSq j n r c) = sm
    generalize (1.0 - freqSq j n r c / κ) = q
    have := hK.ne'
    generalize Real.sin (2 * theta) = s
    generalize Real.cos (2 * theta) = c
    field_simp
    ring

theorem gauss_turned {k theta eps : ℝ} (hk : 0 < k) (he : eps = 1 ∨ eps = -1) {j j' : Jacobian} (h : TurnedJac k theta eps j j')
    (n : ℕ) (size fs : ℝ) :
    KernelsOut k theta eps (gaussKernels n size j fs) (gaussKernels n (k * size) j' (k * fs)) := by
  have hk0 := hk.ne'
  have he0 : eps ≠ 0 := by rcases he with rfl | rfl <;> norm_num
  have hdet := turnedJac_det h
  unfold gaussKernels
  by_cases hd : j.dvdrow * j.dudcol - j.dvdcol * j.dudrow = 0
  · rw [if_pos hd, if_pos (by rw [hdet, hd, mul_zero])]
    rfl
  have hd' : ¬ j'.dvdrow * j'.dudcol - j'.dvdcol * j'.dudrow = 0 := by
    rw [hdet]; exact mul_ne_zero (mul_ne_zero he0 (pow_ne_zero 2 hk0)) hd
  rw [if_neg hd, if_neg hd']
  simp only
  rw [fwhmToSigma_mul]
  generalize fwhmToSigma size = s
  have hfs := turned_freqSq hk0 he h hd n
  have e2 : detAtinv j' * Real.pi * 2 * (k * s * (k * s)) = detAtinv j * Real.pi * 2 * (s * s) := by
    rw [detAtinv_turned he h]
    field_simp
  have e1 : ∀ r c, k * s * (k * s) / 2 * (freqSq j n r c / k ^ 2) = s * s / 2 * freqSq j n r c := by
    intro r c
    generalize freqSq j n r c = f2
    field_simp
  rw [hfs, e2]
  generalize detAtinv j * Real.pi * 2 * (s * s) = knrm
  simp only [e1, smooth_length hk]
  by_cases hn : ¬ |kernelNorm n (fun r c => s * s / 2 * freqSq j n r c < fastexpMaxChi2 / 2 ∧ s * s / 2 * freqSq j n r c ≥ 0)
    (fun r c => fexp (-(s * s / 2 * freqSq j n r c)) * knrm) - 1.0| ≤ 1e-5
  · rw [if_pos hn, if_pos hn]; rfl
  rw [if_neg hn, if_neg hn]
  refine ⟨rfl, rfl, rfl, rfl, fun r c => ?_, fun r c => ?_, fun r c => ?_⟩
  · simp only
    generalize fexp (-(s * s / 2 * freqSq j n r c)) * knrm * smoothFactor fs (freqSq j n r c) = F
    generalize freqSq j n r c = f2
    field_simp
  · simp only
    rw [← neg_sub, turned_freq_plus hk0 he h hd]
    generalize fexp (-(s * s / 2 * freqSq j n r c)) * knrm * smoothFactor fs (freqSq j n r c) = F
    generalize Real.sin (2 * theta) = s'
    generalize Real.cos (2 * theta) = c'
    field_simp
    ring
  · simp only
    have := turned_freq_cross hk0 he h hd n r c
    generalize fexp (-(s * s / 2 * freqSq j n r c)) * knrm * smoothFactor fs (freqSq j n r c) = F
    rw [show -2 * (4 * (k * s * (k * s) / 2) ^ 2) * freqU j' n r c * freqV j' n r c * F =
      -(4 * (k * s * (k * s) / 2) ^ 2) * (2 * freqU j' n r c * freqV j' n r c) * F by ring, this]
    generalize Real.sin (2 * theta) = s'
    generalize Real.cos (2 * theta) = c'
    field_simp
    ring


theorem sum_Ico26 (f : ℕ → ℝ) : ∑ a ∈ Finset.Ico 2 6, f a = f 2 + f 3 + f 4 + f 5 := by
  rw [Finset.sum_Ico_eq_sum_range]
  simp only [show 6 - 2 = 4 from rfl, Finset.sum_range_succ, Finset.sum_range_zero, zero_add, Nat.add_zero, Nat.reduceAdd]

theorem kern_turned {k theta eps : ℝ} {K K' : Kernels} (h : TurnedKernels k theta eps K K') (r c : ℕ) :
    ∀ i ∈ Finset.Ico 2 6, K'.kern i r c = ∑ a ∈ Finset.Ico 2 6, turnEntry k theta eps i a * K.kern a r c := by
  intro i hi
  rw [Finset.mem_Ico] at hi
  obtain ⟨h1, h2⟩ := hi
  rw [sum_Ico26]
  interval_cases i <;> simp only [Kernels.kern, turnEntry]
  · rw [h.fkp]; ring
  · rw [h.fkc]; ring
  · rw [h.fkr]; ring
  · rw [h.fkf]; ring

theorem spin_eq {k theta eps : ℝ} (he : eps = 1 ∨ eps = -1) (a b : ℝ) :
    ((k ^ 2 : ℝ) : ℂ) * turnedSpin theta eps 2 ⟨a, b⟩ = ⟨k ^ 2 * Real.cos (2 * theta) * a + k ^ 2 * Real.sin (2 * theta) * b,
      -(eps * (k ^ 2 * Real.sin (2 * theta))) * a + eps * (k ^ 2 * Real.cos (2 * theta)) * b⟩ := by
  have hexp : Complex.exp (-(((2 : ℕ) : ℂ) * theta * Complex.I)) = ⟨Real.cos (2 * theta), -Real.sin (2 * theta)⟩ := by
    rw [show -(((2 : ℕ) : ℂ) * theta * Complex.I) = ((-(2 * theta) : ℝ) : ℂ) * Complex.I by push_cast; ring, Complex.exp_mul_I,
      ← Complex.ofReal_cos, ← Complex.ofReal_sin, Real.cos_neg, Real.sin_neg]
    apply Complex.ext <;> simp [-Complex.ofReal_cos, -Complex.ofReal_sin]
  unfold turnedSpin
  rw [hexp]
  generalize Real.cos (2 * theta) = c
  generalize Real.sin (2 * theta) = s
  rcases he with rfl | rfl
  · rw [if_pos rfl]
    apply Complex.ext <;> simp only [Complex.mul_re, Complex.mul_im, Complex.ofReal_re, Complex.ofReal_im] <;> ring
  · rw [if_neg (by norm_num)]
    apply Complex.ext <;> simp only [even_two, Even.neg_pow, one_pow, one_mul, Complex.conj_re, Complex.conj_im, Complex.mul_re,
      Complex.mul_im, Complex.ofReal_re, Complex.ofReal_im] <;> ring

theorem pair_re (x y : ℝ) (w : ℂ) : (((x : ℂ) * w) * (starRingEnd ℂ) ((y : ℂ) * w)).re = x * y * Complex.normSq w := by
  rw [map_mul, Complex.conj_ofReal, show (x : ℂ) * w * ((y : ℂ) * (starRingEnd ℂ) w) = ((x * y : ℝ) : ℂ) * (w * (starRingEnd ℂ) w) by
    push_cast; ring, Complex.mul_conj, ← Complex.ofReal_mul, Complex.ofReal_re]

/-- The moments made with two corresponding sets of kernels. -/
theorem measure_turned {k theta eps : ℝ} (he : eps = 1 ∨ eps = -1) {K K' : Kernels} (h : TurnedKernels k theta eps K K')
    (n : ℕ) (kim kpsf : ℕ → ℕ → ℂ) (tv pad dr dc : ℝ) :
    (measureMoments n kim kpsf tv pad K dr dc = none ∧ measureMoments n kim kpsf tv pad K' dr dc = none) ∨
    ∃ m m', measureMoments n kim kpsf tv pad K dr dc = some m ∧ measureMoments n kim kpsf tv pad K' dr dc = some m' ∧
      TurnedMoments k theta eps m m' ∧ ∀ i j, i < 2 ∨ j < 2 → m'.cov i j = m.cov i j := by
  by_cases h0 : ∃ k ∈ modes n K.msk, psfUsed (kpsf k.1 k.2) ‖kpsf 0 0‖ = 0
  · left
    unfold measureMoments
    rw [h.msk]
    dsimp only
    rw [if_pos h0, if_pos h0]
    exact ⟨rfl, rfl⟩
  · right
    obtain ⟨m, hm⟩ : ∃ m, measureMoments n kim kpsf tv pad K dr dc = some m := by
      unfold measureMoments
      dsimp only
      rw [if_neg h0]
      exact ⟨_, rfl⟩
    obtain ⟨m', hm'⟩ : ∃ m, measureMoments n kim kpsf tv pad K' dr dc = some m := by
      unfold measureMoments
      rw [h.msk]
      dsimp only
      rw [if_neg h0]
      exact ⟨_, rfl⟩
    obtain ⟨-, a1, a2⟩ := measure_some hm
    obtain ⟨-, b1, b2⟩ := measure_some hm'
    have hat : ∀ i ∈ Finset.Ico 2 6, m'.at i = ∑ a ∈ Finset.Ico 2 6, turnEntry k theta eps i a * m.at a := by
      intro i hi
      rw [b1 i, h.msk]
      simp only [a1]
      generalize (1 / (n : ℝ) * (1 / (n : ℝ))) = D
      simp only [← mul_assoc]
      rw [← Finset.sum_mul]
      congr 1
      simp only [Finset.mul_sum]
      rw [Finset.sum_comm]
      refine Finset.sum_congr rfl fun x _ => ?_
      rw [kern_turned h x.1 x.2 i hi]
      generalize kim x.1 x.2 / psfUsed (kpsf x.1 x.2) ‖kpsf 0 0‖ * cenPhase n dr dc x.1 x.2 = X
      rw [Complex.re_mul_ofReal, Finset.mul_sum]
      refine Finset.sum_congr rfl fun a _ => ?_
      rw [Complex.re_mul_ofReal]
      ring
    refine ⟨m, m', hm, hm', ⟨?_, ?_, ?_, ?_⟩, ?_⟩
    · have := hat 5 (by simp)
      rw [sum_Ico26] at this
      simp only [turnEntry, zero_mul, zero_add, one_mul] at this
      exact this
    · have := hat 4 (by simp)
      rw [sum_Ico26] at this
      simp only [turnEntry, zero_mul, zero_add, add_zero] at this
      exact this
    · have h2 := hat 2 (by simp)
      have h3 := hat 3 (by simp)
      rw [sum_Ico26] at h2 h3
      simp only [turnEntry, zero_mul, add_zero] at h2 h3
      rw [spin_eq he]
      exact Complex.ext h2 h3
    · intro i hi j hj
      have hi' := Finset.mem_Ico.1 hi
      have hj' := Finset.mem_Ico.1 hj
      rw [b2, if_pos ⟨hi'.1, hi'.2, hj'.1, hj'.2⟩, h.msk]
      have hc : ∀ a ∈ Finset.Ico 2 6, ∀ b ∈ Finset.Ico 2 6, m.cov a b =
          (∑ x ∈ modes n K.msk, K.kern a x.1 x.2 * K.kern b x.1 x.2 * Complex.normSq (1 / psfUsed (kpsf x.1 x.2) ‖kpsf 0 0‖)) *
            (tv * pad ^ 2 * (1 / n * (1 / n) * (1 / n * (1 / n)))) := by
        intro a ha b hb
        have ha' := Finset.mem_Ico.1 ha
        have hb' := Finset.mem_Ico.1 hb
        rw [a2, if_pos ⟨ha'.1, ha'.2, hb'.1, hb'.2⟩]
        simp only [pair_re]
      rw [Finset.sum_congr rfl fun a ha => Finset.sum_congr rfl fun b hb => by rw [hc a ha b hb]]
      simp only [pair_re]
      generalize tv * pad ^ 2 * (1 / (n : ℝ) * (1 / (n : ℝ)) * (1 / (n : ℝ) * (1 / (n : ℝ)))) = D
      simp only [← mul_assoc, ← Finset.sum_mul]
      congr 1
      simp only [Finset.mul_sum]
      rw [Finset.sum_congr rfl fun a _ => Finset.sum_comm, Finset.sum_comm]
      refine Finset.sum_congr rfl fun x _ => ?_
      rw [kern_turned h x.1 x.2 i hi, kern_turned h x.1 x.2 j hj, Finset.sum_mul_sum, Finset.sum_mul]
      refine Finset.sum_congr rfl fun a _ => ?_
      rw [Finset.sum_mul]
      refine Finset.sum_congr rfl fun b _ => ?_
      ring
    · intro i j hij
      have hn : ¬ (2 ≤ i ∧ i < 6 ∧ 2 ≤ j ∧ j < 6) := by omega
      rw [a2, b2, if_neg hn, if_neg hn]

theorem sameWcs_turned {k theta eps : ℝ} (hk : k ≠ 0) (he : eps = 1 ∨ eps = -1) {p p' j j' : Jacobian}
    (hp : TurnedJac k theta eps p p') (hj : TurnedJac k theta eps j j') : sameWcs p' j' ↔ sameWcs p j := by
  have he0 : eps ≠ 0 := by rcases he with rfl | rfl <;> norm_num
  obtain ⟨a1, a2, a3, a4⟩ := turnedJac_deriv hp
  obtain ⟨b1, b2, b3, b4⟩ := turnedJac_deriv hj
  unfold sameWcs
  rw [a1, a2, a3, a4, b1, b2, b3, b4]
  have h1 := Real.sin_sq_add_cos_sq theta
  generalize Real.sin theta = s at *
  generalize Real.cos theta = c at *
  have key : ∀ x y x' y' : ℝ, k * c * x - k * s * y = k * c * x' - k * s * y' →
      eps * (k * s * x + k * c * y) = eps * (k * s * x' + k * c * y') → x = x' ∧ y = y' := by
    intro x y x' y' e1 e2
    have e2 := mul_left_cancel₀ he0 e2
    constructor
    · refine mul_left_cancel₀ hk ?_
      linear_combination c * e1 + s * e2 - k * (x - x') * h1
    · refine mul_left_cancel₀ hk ?_
      linear_combination c * e2 - s * e1 - k * (y - y') * h1
  constructor
  · rintro ⟨e1, e2, e3, e4⟩
    obtain ⟨r1, r2⟩ := key _ _ _ _ e1 e3
    obtain ⟨r3, r4⟩ := key _ _ _ _ e2 e4
    exact ⟨r1, r3, r2, r4⟩
  · rintro ⟨e1, e2, e3, e4⟩
    rw [e1, e2, e3, e4]
    exact ⟨rfl, rfl, rfl, rfl⟩

/-- The outcomes of two measurements up to the moments: the same exception, no numbers in both, or the moments of the same
object in the two coordinate systems. -/
def MomentsOut (k theta eps : ℝ) (x x' : Except PyErr (Option KMoments × Kernels)) : Prop :=
  match x, x' with
  | .error e, .error e' => e' = e
  | .ok (none, K), .ok (none, K') => TurnedKernels k theta eps K K'
  | .ok (some m, K), .ok (some m', K') => TurnedMoments k theta eps m m' ∧ TurnedKernels k theta eps K K' ∧
      ∀ i j, i < 2 ∨ j < 2 → m'.cov i j = m.cov i j
  | _, _ => False

theorem padAndFft_cen (im : Image) (r c r' c' : ℝ) (hr : r' = r) (hc : c' = c) (t : ℤ) (ap : ℝ) :
    padAndFft im r' c' t ap = padAndFft im r c t ap := by rw [hr, hc]

/-- C110.  The moments, in whole measurements: every image, weight map and psf, every setting. -/
theorem C110_moments {k theta eps : ℝ} (hk : 0 < k) (he : eps = 1 ∨ eps = -1) (cfg : PreCfg) (o o' : PreObs)
    (h : TurnedPre k theta eps o o') (noPsf : Bool) :
    MomentsOut k theta eps (preMoments cfg (some o) noPsf) (preMoments (cfgInLength k cfg) (some o') noPsf) := by
  obtain ⟨hi, hw, hj, hp⟩ := h
  -- the part after the checks
  have core : ∀ psf psf' : Option (Image × Jacobian),
      (match psf, psf' with
        | none, none => True
        | some p, some p' => p'.1 = p.1 ∧ TurnedJac k theta eps p.2 p'.2
        | _, _ => False) →
      checkObs (some o) noPsf = .ok (o, psf) → checkObs (some o') noPsf = .ok (o', psf') →
      MomentsOut k theta eps (preMoments cfg (some o) noPsf) (preMoments (cfgInLength k cfg) (some o') noPsf) := by
    intro psf psf' hpp hc hc'
    unfold preMoments
    rw [hc, hc']
    simp only [Except.bind]
    have ht : targetDim (cfgInLength k cfg) o' psf' = targetDim cfg o psf := by
      unfold targetDim cfgInLength
      rcases psf with _ | p <;> rcases psf' with _ | p'
      · simp only [hi]
      · exact hpp.elim
      · exact hpp.elim
      · simp only [hi, hpp.1]
    have hps : ∀ t n, psfFft psf' t n = psfFft psf t n := by
      intro t n
      unfold psfFft
      rcases psf with _ | p <;> rcases psf' with _ | p'
      · rfl
      · exact hpp.elim
      · exact hpp.elim
      · simp only [hpp.1, hpp.2.1, hpp.2.2.1]
    rw [ht, hi, hw, hj.1, hj.2.1]
    have ha : (cfgInLength k cfg).apRad = cfg.apRad := rfl
    rw [ha]
    by_cases h0 : o.image.nrow = 0
    · rw [if_pos h0, if_pos h0]; rfl
    rw [if_neg h0, if_neg h0]
    rcases padAndFft o.image o.jac.row0 o.jac.col0 (targetDim cfg o psf) cfg.apRad with e | kim
    · exact rfl
    simp only [hps]
    rcases psfFft psf (targetDim cfg o psf) kim.nrow with e | kpsf
    · exact rfl
    simp only
    have hK : KernelsOut k theta eps (preKernels cfg kim.nrow o.jac) (preKernels (cfgInLength k cfg) kim.nrow o'.jac) := by
      unfold preKernels cfgInLength
      simp only
      by_cases hs : cfg.ksigma = true
      · rw [if_pos hs, if_pos hs]; exact ksigma_turned hk he hj _ _ _
      · rw [if_neg hs, if_neg hs]; exact gauss_turned hk he hj _ _ _
    rcases h1 : preKernels cfg kim.nrow o.jac with e | K <;> rcases h2 : preKernels (cfgInLength k cfg) kim.nrow o'.jac with e' | K' <;>
      rw [h1, h2] at hK
    · exact hK
    · exact hK.elim
    · exact hK.elim
    · simp only
      by_cases hq : kpsf.nrow ≠ kpsf.ncol
      · rw [if_pos hq, if_pos hq]; exact rfl
      rw [if_neg hq, if_neg hq]
      rcases measure_turned he hK kim.nrow kim.k kpsf.k (totVar o.weight) ((targetDim cfg o psf : ℝ) / o.image.nrow)
        (kim.row - kpsf.row) (kim.col - kpsf.col) with ⟨e1, e2⟩ | ⟨m, m', e1, e2, e3, e4⟩
      · rw [e1, e2]; exact hK
      · rw [e1, e2]; exact ⟨e3, hK, e4⟩
  by_cases hsq : o.image.nrow ≠ o.image.ncol
  · unfold preMoments checkObs
    simp only [hi]
    rw [if_pos hsq, if_pos hsq]
    exact rfl
  cases noPsf with
  | true =>
    refine core none none trivial ?_ ?_
    · unfold checkObs; simp only; rw [if_neg hsq]
    · unfold checkObs; simp only [hi]; rw [if_neg hsq]
  | false =>
    rcases h1 : o.psf with _ | p <;> rcases h2 : o'.psf with _ | p' <;> rw [h1, h2] at hp
    · unfold preMoments checkObs
      simp only [hi, h1, h2]
      rw [if_neg hsq]
      exact rfl
    · exact hp.elim
    · exact hp.elim
    · by_cases hs : ¬ sameWcs p.2 o.jac
      · have hs' : ¬ sameWcs p'.2 o'.jac := by rwa [sameWcs_turned hk.ne' he hp.2 hj]
        unfold preMoments checkObs
        simp only [hi, h1, h2]
        rw [if_neg hsq, if_neg hsq, if_pos hs, if_pos hs']
        exact rfl
      · have hs' : ¬ ¬ sameWcs p'.2 o'.jac := by rwa [sameWcs_turned hk.ne' he hp.2 hj]
        refine core (some p) (some p') hp ?_ ?_
        · unfold checkObs; simp only [h1]; rw [if_neg hsq, if_neg hs]
        · unfold checkObs; simp only [hi, h2]; rw [if_neg hsq, if_neg hs']

theorem pre_input (m : KMoments) :
    MomInput 6 (preSums m) ⟨6, 6, fun i j => .fin (m.cov i j)⟩ m.cov m.mp m.mc m.mr m.mf :=
  ⟨Or.inl rfl, rfl, rfl, rfl, rfl, rfl, rfl, rfl, fun _ _ _ _ => rfl⟩

theorem ratioQuad_scaled (s t a b va vb cab : ℝ) (hs : s ≠ 0) (ht : t ≠ 0) :
    ratioQuad (s * a) (t * b) (s ^ 2 * va) (t ^ 2 * vb) (s * t * cab) = (s / t) ^ 2 * ratioQuad a b va vb cab := by
  unfold ratioQuad
  have h1 : 1 / (t * b) = 1 / t * (1 / b) := by rw [one_div_mul_one_div]
  have h2 : -(s * a) / (t * b) ^ 2 = s / t ^ 2 * (-a / b ^ 2) := by
    rw [mul_pow, ← mul_neg, mul_div_mul_comm]
  rw [h1, h2]
  generalize 1 / b = x
  generalize -a / b ^ 2 = y
  field_simp

theorem turned_cov {k theta eps : ℝ} {m m' : KMoments} (h : TurnedMoments k theta eps m m') :
    m'.cov 5 5 = m.cov 5 5 ∧ m'.cov 4 4 = (k ^ 2) ^ 2 * m.cov 4 4 ∧ m'.cov 4 5 = k ^ 2 * m.cov 4 5 := by
  obtain ⟨-, -, -, h⟩ := h
  refine ⟨?_, ?_, ?_⟩
  · rw [h 5 (by simp) 5 (by simp)]
    simp only [sum_Ico26, turnEntry]; ring
  · rw [h 4 (by simp) 4 (by simp)]
    simp only [sum_Ico26, turnEntry]; ring
  · rw [h 4 (by simp) 5 (by simp)]
    simp only [sum_Ico26, turnEntry]; ring

theorem result_turned {k theta eps : ℝ} (hk : 0 < k) (he : eps = 1 ∨ eps = -1) {m m' : KMoments}
    (h : TurnedMoments k theta eps m m') (nrm nrm' : Option Fl) :
    ∃ r r', makeMomResult (preSums m) ⟨6, 6, fun i j => .fin (m.cov i j)⟩ nrm = .ok r ∧
      makeMomResult (preSums m') ⟨6, 6, fun i j => .fin (m'.cov i j)⟩ nrm' = .ok r' ∧ SameButLength k r r' ∧
      (r.flags = 0 → r'.flags = 0 → TurnedShape theta eps r r') := by
  have hk2 : 0 < k ^ 2 := by positivity
  obtain ⟨c55, c44, c45⟩ := turned_cov h
  obtain ⟨hf, hr, hs, -⟩ := h
  obtain ⟨r, e1, f1, t1, s1, -⟩ := C11_decision_table 6 _ _ _ _ _ _ _ (pre_input m) nrm
  obtain ⟨r', e2, f2, t2, s2, -⟩ := C11_decision_table 6 _ _ _ _ _ _ _ (pre_input m') nrm'
  rw [c55, hf] at f2
  refine ⟨r, r', e1, e2, ?_, fun g1 g2 => ?_⟩
  · have hT : r'.TFlags = r.TFlags ∧ r'.T = .fin (k ^ 2) * r.T ∧ r'.Terr = .fin (k ^ 2) * r.Terr := by
      have c44p : 0 < m'.cov 4 4 ↔ 0 < m.cov 4 4 := by rw [c44]; exact mul_pos_iff_of_pos_left (by positivity)
      by_cases v : 0 < m.cov 5 5 ∧ 0 < m.cov 4 4
      · by_cases p : 0 < m.mf
        · obtain ⟨a1, a2, a3, a4⟩ := t1.good v.1 v.2 p
          obtain ⟨b1, b2, b3, b4⟩ := t2.good (by rw [c55]; exact v.1) (c44p.2 v.2) (by rw [hf]; exact p)
          refine ⟨by rw [a1, b1], ?_, ?_⟩
          · rw [a2, b2, hr, hf, Fl.fin_mul, mul_div_assoc]
          · by_cases z : m.mr = 0
            · rw [a4 z, b4 (by rw [hr, z, mul_zero])]; rfl
            · rw [a3 z, b3 (by rw [hr]; exact mul_ne_zero hk2.ne' z), Fl.fin_mul, hr, hf, c44, c55, c45]
              have := ratioQuad_scaled (k ^ 2) 1 m.mr m.mf (m.cov 4 4) (m.cov 5 5) (m.cov 4 5) hk2.ne' one_ne_zero
              rw [one_mul, one_pow, one_mul, mul_one, div_one] at this
              rw [this, show max ((k ^ 2) ^ 2 * ratioQuad m.mr m.mf (m.cov 4 4) (m.cov 5 5) (m.cov 4 5)) 0 =
                (k ^ 2) ^ 2 * max (ratioQuad m.mr m.mf (m.cov 4 4) (m.cov 5 5) (m.cov 4 5)) 0 by
                  rw [mul_max_of_nonneg _ _ (by positivity), mul_zero], Real.sqrt_mul (by positivity),
                Real.sqrt_sq hk2.le]
        · obtain ⟨a1, a2, a3⟩ := t1.flux v.1 v.2 (not_lt.1 p)
          obtain ⟨b1, b2, b3⟩ := t2.flux (by rw [c55]; exact v.1) (c44p.2 v.2) (by rw [hf]; exact not_lt.1 p)
          rw [a1, a2, a3, b1, b2, b3]
          exact ⟨rfl, rfl, rfl⟩
      · have w : m.cov 5 5 ≤ 0 ∨ m.cov 4 4 ≤ 0 := by
          by_contra hh; push Not at hh; exact v hh
        obtain ⟨a1, a2, a3⟩ := t1.var w
        obtain ⟨b1, b2, b3⟩ := t2.var (by rwa [c55, ← not_lt, ← not_lt, c44p, not_lt, not_lt])
        rw [a1, a2, a3, b1, b2, b3]
        exact ⟨rfl, rfl, rfl⟩
    obtain ⟨hT1, hT2, hT3⟩ := hT
    have hF : r'.fluxErr = r.fluxErr ∧ r'.s2n = r.s2n ∧ r'.fluxFlags = r.fluxFlags := by
      by_cases v : 0 < m.cov 5 5
      · obtain ⟨a1, a2, a3⟩ := f1.good v
        obtain ⟨b1, b2, b3⟩ := f2.good v
        rw [a1, a2, a3, b1, b2, b3]; exact ⟨rfl, rfl, rfl⟩
      · obtain ⟨a1, a2, a3⟩ := f1.bad (not_lt.1 v)
        obtain ⟨b1, b2, b3⟩ := f2.bad (not_lt.1 v)
        rw [a1, a2, a3, b1, b2, b3]; exact ⟨rfl, rfl, rfl⟩
    exact ⟨by rw [f1.flux, f2.flux], hF.1, hF.2.1, hF.2.2, hT1, hT2, hT3⟩
  · obtain ⟨a1, a2, a3, -⟩ := (C11_flags_zero_iff 6 _ _ _ _ _ _ _ (pre_input m) nrm r e1).1.1 g1
    obtain ⟨b1, b2, b3, -⟩ := (C11_flags_zero_iff 6 _ _ _ _ _ _ _ (pre_input m') nrm' r' e2).1.1 g2
    obtain ⟨x1, x2, -⟩ := s1.shape a1 a2 a3
    obtain ⟨y1, y2, -⟩ := s2.shape b1 b2 b3
    refine ⟨_, _, x1, x2, ?_⟩
    have hz : (⟨m'.mp / k ^ 2, m'.mc / k ^ 2⟩ : ℂ) = turnedSpin theta eps 2 ⟨m.mp, m.mc⟩ := by
      have : (⟨m'.mp / k ^ 2, m'.mc / k ^ 2⟩ : ℂ) = (((k ^ 2)⁻¹ : ℝ) : ℂ) * ⟨m'.mp, m'.mc⟩ := by
        apply Complex.ext <;> simp only [Complex.mul_re, Complex.mul_im, Complex.ofReal_re, Complex.ofReal_im] <;> ring
      rw [this, hs, ← mul_assoc, ← Complex.ofReal_mul, inv_mul_cancel₀ hk2.ne', Complex.ofReal_one, one_mul]
    have := turned_shape theta eps he m.mp m.mc _ _ m.mr hz
    rw [← this, y1, y2, hr]
    simp only [div_div]
    exact ⟨trivial, trivial⟩

/-- C110: `PrePSFMom.go` (and its subclasses) on the same images in other coordinates of the sky: axes turned by any angle, one
of them reversed or not, another unit of length, with the widths of the kernel and of the smoothing in that unit.  The same
exception is raised, or both measure: flux, its error, the signal to noise ratio and the flags of flux and size are the same, the
size and its error are in the new unit, and the shape turns, if neither is flagged. -/
theorem C110_turned {k theta eps : ℝ} (hk : 0 < k) (he : eps = 1 ∨ eps = -1) (cfg : PreCfg) (o o' : PreObs)
    (h : TurnedPre k theta eps o o') (noPsf : Bool) :
    TurnedGo k theta eps (preGo cfg (some o) noPsf) (preGo (cfgInLength k cfg) (some o') noPsf) := by
  have hm := C110_moments hk he cfg o o' h noPsf
  unfold preGo
  rcases h1 : preMoments cfg (some o) noPsf with e | ⟨_ | m, K⟩ <;>
    rcases h2 : preMoments (cfgInLength k cfg) (some o') noPsf with e' | ⟨_ | m', K'⟩ <;> rw [h1, h2] at hm
  · exact hm
  · exact hm.elim
  · exact hm.elim
  · exact hm.elim
  · exact trivial
  · exact hm.elim
  · exact hm.elim
  · exact hm.elim
  · obtain ⟨r, r', e1, e2, e3, e4⟩ := result_turned hk he hm.1 (some (.fin K.fk00)) (some (.fin K'.fk00))
    simp only [Except.bind, e1, e2, Except.map]
    exact ⟨e3, e4⟩

/-- C110: the axes exchanged or not, each reversed or not, and any unit of length: the measurement is flagged in both or in
neither, and then the errors of the shape are the same too. -/
theorem C110_axes {k theta eps : ℝ} (hk : 0 < k) (he : eps = 1 ∨ eps = -1) (ht : Real.sin theta * Real.cos theta = 0)
    (cfg : PreCfg) (o o' : PreObs) (h : TurnedPre k theta eps o o') (noPsf : Bool) (r r' : MomRes) (K K' : Kernels)
    (h1 : preGo cfg (some o) noPsf = .ok (some r, K)) (h2 : preGo (cfgInLength k cfg) (some o') noPsf = .ok (some r', K')) :
    (r'.flags = 0 ↔ r.flags = 0) ∧ (r.flags = 0 → r'.eErr = r.eErr) := by
  have hm := C110_moments hk he cfg o o' h noPsf
  have hk2 : 0 < k ^ 2 := by positivity
  unfold preGo at h1 h2
  obtain ⟨⟨x, K1⟩, p1, q1⟩ := exBind_ok h1
  obtain ⟨⟨x', K1'⟩, p2, q2⟩ := exBind_ok h2
  rcases x with _ | m
  · cases q1
  rcases x' with _ | m'
  · cases q2
  obtain ⟨w, e1, g1⟩ := exMap_ok q1
  obtain ⟨w', e2, g2⟩ := exMap_ok q2
  cases g1
  cases g2
  rw [p1, p2] at hm
  obtain ⟨⟨hf, hr, hs, hcov⟩, -, hlow⟩ := hm
  have hs2 : Real.sin (2 * theta) = 0 := by rw [Real.sin_two_mul, mul_assoc, ht, mul_zero]
  have hc2 : Real.cos (2 * theta) ^ 2 = 1 := by
    have := Real.sin_sq_add_cos_sq (2 * theta)
    rw [hs2] at this; linarith
  rw [spin_eq he, hs2] at hs
  have hp : m'.mp = k ^ 2 * Real.cos (2 * theta) * m.mp := by
    have := congrArg Complex.re hs
    simp only at this
    rw [this]; ring
  have hc : m'.mc = eps * (k ^ 2 * Real.cos (2 * theta)) * m.mc := by
    have := congrArg Complex.im hs
    simp only at this
    rw [this]; ring
  have he2 : eps ^ 2 = 1 := by rcases he with rfl | rfl <;> norm_num
  have he0 : eps ≠ 0 := by rcases he with rfl | rfl <;> norm_num
  have hentry : ∀ i ∈ Finset.Ico 2 6, ∀ j ∈ Finset.Ico 2 6,
      m'.cov i j = turnEntry k theta eps i i * turnEntry k theta eps j j * m.cov i j := by
    intro i hi j hj
    rw [hcov i hi j hj, sum_Ico26, sum_Ico26, sum_Ico26, sum_Ico26, sum_Ico26]
    rw [Finset.mem_Ico] at hi hj
    obtain ⟨i1, i2⟩ := hi
    obtain ⟨j1, j2⟩ := hj
    interval_cases i <;> interval_cases j <;> simp only [turnEntry, hs2] <;> ring
  generalize hg : Real.cos (2 * theta) = c at *
  have hc0 : c ≠ 0 := by rintro rfl; norm_num at hc2
  have t2 : turnEntry k theta eps 2 2 = k ^ 2 * c := by simp only [turnEntry, hg]
  have t3 : turnEntry k theta eps 3 3 = eps * (k ^ 2 * c) := by simp only [turnEntry, hg]
  have t4 : turnEntry k theta eps 4 4 = k ^ 2 := by simp only [turnEntry]
  have t5 : turnEntry k theta eps 5 5 = 1 := by simp only [turnEntry]
  have hpos : ∀ i < 6, (0 < m'.cov i i ↔ 0 < m.cov i i) := by
    intro i hi
    by_cases h2i : i < 2
    · rw [hlow i i (Or.inl h2i)]
    · have hmem : i ∈ Finset.Ico 2 6 := Finset.mem_Ico.2 ⟨by omega, hi⟩
      rw [hentry i hmem i hmem]
      refine mul_pos_iff_of_pos_left ?_
      have : turnEntry k theta eps i i ≠ 0 := by
        have : i = 2 ∨ i = 3 ∨ i = 4 ∨ i = 5 := by omega
        rcases this with rfl | rfl | rfl | rfl
        · rw [t2]; exact mul_ne_zero hk2.ne' hc0
        · rw [t3]; exact mul_ne_zero he0 (mul_ne_zero hk2.ne' hc0)
        · rw [t4]; exact hk2.ne'
        · rw [t5]; exact one_ne_zero
      exact mul_self_pos.2 this
  have hflags : r'.flags = 0 ↔ r.flags = 0 := by
    rw [(C11_flags_zero_iff 6 _ _ _ _ _ _ _ (pre_input m') _ r' e2).1, (C11_flags_zero_iff 6 _ _ _ _ _ _ _ (pre_input m) _ r e1).1,
      hf, hr, hp, hc, mul_pos_iff_of_pos_left hk2]
    have : (∀ i < 6, 0 < m'.cov i i) ↔ ∀ i < 6, 0 < m.cov i i :=
      forall_congr' fun i => imp_congr_right fun hi => hpos i hi
    rw [this]
    simp [hk.ne', hc0, he0]
  refine ⟨hflags, fun hfl => ?_⟩
  obtain ⟨a1, a2, a3, a4, a5⟩ := (C11_flags_zero_iff 6 _ _ _ _ _ _ _ (pre_input m) _ r e1).1.1 hfl
  obtain ⟨b1, b2, b3, b4, b5⟩ := (C11_flags_zero_iff 6 _ _ _ _ _ _ _ (pre_input m') _ r' e2).1.1 (hflags.2 hfl)
  obtain ⟨r1, e1', -, -, s1, -⟩ := C11_decision_table 6 _ _ _ _ _ _ _ (pre_input m) (some (.fin K1.fk00))
  obtain ⟨r1', e2', -, -, s2, -⟩ := C11_decision_table 6 _ _ _ _ _ _ _ (pre_input m') (some (.fin K1'.fk00))
  rw [e1] at e1'
  rw [e2] at e2'
  cases e1'
  cases e2'
  rw [(s1.good a1 a2 a3 a4 a5).2, (s2.good b1 b2 b3 b4 b5).2]
  have m2 : (2 : ℕ) ∈ Finset.Ico 2 6 := by simp
  have m3 : (3 : ℕ) ∈ Finset.Ico 2 6 := by simp
  have m4 : (4 : ℕ) ∈ Finset.Ico 2 6 := by simp
  have q1 : ratioQuad m'.mp m'.mr (m'.cov 2 2) (m'.cov 4 4) (m'.cov 2 4) = ratioQuad m.mp m.mr (m.cov 2 2) (m.cov 4 4) (m.cov 2 4) := by
    rw [hentry 2 m2 2 m2, hentry 4 m4 4 m4, hentry 2 m2 4 m4, hp, hr, t2, t4, ← sq, ← sq (k ^ 2),
      ratioQuad_scaled _ _ _ _ _ _ _ (mul_ne_zero hk2.ne' hc0) hk2.ne', mul_div_cancel_left₀ _ hk2.ne', hc2, one_mul]
  have q2 : ratioQuad m'.mc m'.mr (m'.cov 3 3) (m'.cov 4 4) (m'.cov 3 4) = ratioQuad m.mc m.mr (m.cov 3 3) (m.cov 4 4) (m.cov 3 4) := by
    rw [hentry 3 m3 3 m3, hentry 4 m4 4 m4, hentry 3 m3 4 m4, hc, hr, t3, t4, ← sq, ← sq (k ^ 2),
      ratioQuad_scaled _ _ _ _ _ _ _ (mul_ne_zero he0 (mul_ne_zero hk2.ne' hc0)) hk2.ne',
      show eps * (k ^ 2 * c) / k ^ 2 = eps * c by field_simp, mul_pow, he2, hc2, one_mul, one_mul]
  rw [q1, q2]

end

end Ngmix.Props
