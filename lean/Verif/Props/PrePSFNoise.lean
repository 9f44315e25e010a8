import Verif.Props.PrePSFRun
import Mathlib.Algebra.Field.GeomSum

/-! C74: the covariance of the moments is that of pixel noise. -/

namespace Ngmix.Props

open Ngmix Ngmix.Spec

theorem om_conj (n k : ℕ) : (starRingEnd ℂ) (om n k) = Complex.exp (2 * Real.pi * Complex.I * ((k : ℝ) / n : ℝ)) := by
  unfold om
  rw [← Complex.exp_conj]
  congr 1
  simp only [map_neg, map_mul, Complex.conj_ofReal, Complex.conj_I]
  have : (starRingEnd ℂ) (2 : ℂ) = 2 := Complex.conj_ofReal 2
  rw [this]
  push_cast; ring

theorem om_norm (n k : ℕ) : om n k * (starRingEnd ℂ) (om n k) = 1 := by
  rw [om_conj, om, ← Complex.exp_add]
  simp

/-- Orthogonality of the modes. -/
theorem om_orth (n k l : ℕ) (hk : k < n) (hl : l < n) :
    ∑ a ∈ Finset.range n, om n k ^ a * (starRingEnd ℂ) (om n l ^ a) = if k = l then (n : ℂ) else 0 := by
  have hn : 0 < n := by omega
  have hn0 : (n : ℂ) ≠ 0 := by exact_mod_cast hn.ne'
  have e : ∀ a, om n k ^ a * (starRingEnd ℂ) (om n l ^ a) = (om n k * (starRingEnd ℂ) (om n l)) ^ a := by
    intro a; rw [map_pow, mul_pow]
  simp only [e]
  split_ifs with h
  · subst h
    rw [om_norm]; simp
  · have hz1 : om n k * (starRingEnd ℂ) (om n l) ≠ 1 := by
      intro h1
      rw [om_conj, om, ← Complex.exp_add, Complex.exp_eq_one_iff] at h1
      obtain ⟨m, hm⟩ := h1
      have h2 : (2 * Real.pi * Complex.I : ℂ) ≠ 0 := by
        simp [Real.pi_ne_zero]
      have h3 : ((l : ℂ) - k) / n = m := by
        have : (2 * Real.pi * Complex.I : ℂ) * (((l : ℂ) - k) / n) = (2 * Real.pi * Complex.I) * m := by
          rw [mul_comm _ (m : ℂ), ← hm]; push_cast; ring
        exact mul_left_cancel₀ h2 this
      rw [div_eq_iff hn0] at h3
      have h4 : (l : ℤ) - k = m * n := by exact_mod_cast h3
      have h5 : m = 0 := by
        by_contra hne
        rcases lt_or_gt_of_ne hne with hm1 | hm1
        · have : m * n ≤ -1 * n := by nlinarith
          omega
        · have : 1 * (n : ℤ) ≤ m * n := by nlinarith
          omega
      rw [h5] at h4
      omega
    have hzn : (om n k * (starRingEnd ℂ) (om n l)) ^ n = 1 := by
      rw [mul_pow, ← map_pow, om_pow n k hn, om_pow n l hn, map_one, mul_one]
    rw [geom_sum_eq hz1, hzn, sub_self, zero_div]

/-- Parseval, for sums over some of the modes. -/
theorem parseval (n : ℕ) (M : Finset (ℕ × ℕ)) (hM : ∀ k ∈ M, k.1 < n ∧ k.2 < n) (a b : ℕ × ℕ → ℂ) :
    ∑ x ∈ Finset.range n ×ˢ Finset.range n, (∑ k ∈ M, a k * (om n k.1 ^ x.1 * om n k.2 ^ x.2)) *
      (starRingEnd ℂ) (∑ k ∈ M, b k * (om n k.1 ^ x.1 * om n k.2 ^ x.2)) = (n : ℂ) ^ 2 * ∑ k ∈ M, a k * (starRingEnd ℂ) (b k) := by
  have e : ∀ x ∈ Finset.range n ×ˢ Finset.range n, (∑ k ∈ M, a k * (om n k.1 ^ x.1 * om n k.2 ^ x.2)) *
      (starRingEnd ℂ) (∑ k ∈ M, b k * (om n k.1 ^ x.1 * om n k.2 ^ x.2)) =
      ∑ k ∈ M, ∑ l ∈ M, a k * (starRingEnd ℂ) (b l) *
        ((om n k.1 ^ x.1 * (starRingEnd ℂ) (om n l.1 ^ x.1)) * (om n k.2 ^ x.2 * (starRingEnd ℂ) (om n l.2 ^ x.2))) := by
    intro x _
    rw [map_sum, Finset.sum_mul_sum]
    refine Finset.sum_congr rfl fun k _ => Finset.sum_congr rfl fun l _ => ?_
    simp only [map_mul]
    ring
  rw [Finset.sum_congr rfl e, Finset.sum_comm, Finset.mul_sum]
  refine Finset.sum_congr rfl fun k hk => ?_
  rw [Finset.sum_comm]
  have e2 : ∀ l ∈ M, ∑ x ∈ Finset.range n ×ˢ Finset.range n, a k * (starRingEnd ℂ) (b l) *
        ((om n k.1 ^ x.1 * (starRingEnd ℂ) (om n l.1 ^ x.1)) * (om n k.2 ^ x.2 * (starRingEnd ℂ) (om n l.2 ^ x.2))) =
      if k = l then (n : ℂ) ^ 2 * (a k * (starRingEnd ℂ) (b l)) else 0 := by
    intro l hl
    rw [← Finset.mul_sum, Finset.sum_product]
    simp only
    have : ∑ x ∈ Finset.range n, ∑ y ∈ Finset.range n,
        ((om n k.1 ^ x * (starRingEnd ℂ) (om n l.1 ^ x)) * (om n k.2 ^ y * (starRingEnd ℂ) (om n l.2 ^ y))) =
        (∑ x ∈ Finset.range n, om n k.1 ^ x * (starRingEnd ℂ) (om n l.1 ^ x)) *
          ∑ y ∈ Finset.range n, om n k.2 ^ y * (starRingEnd ℂ) (om n l.2 ^ y) := by
      rw [Finset.sum_mul_sum]
    rw [this, om_orth n _ _ (hM k hk).1 (hM l hl).1, om_orth n _ _ (hM k hk).2 (hM l hl).2]
    by_cases hkl : k = l
    · subst hkl
      rw [if_pos rfl, if_pos rfl, if_pos rfl]; ring
    · rw [if_neg hkl]
      by_cases h1 : k.1 = l.1
      · rw [if_neg (fun h2 => hkl (Prod.ext h1 h2)), mul_zero, mul_zero]
      · rw [if_neg h1, zero_mul, mul_zero]
  rw [Finset.sum_congr rfl e2, Finset.sum_ite_eq, if_pos hk]

/-- The opposite frequency. -/
def opp (n k : ℕ) : ℕ := (n - k) % n

theorem opp_lt {n k : ℕ} (hn : 0 < n) : opp n k < n := Nat.mod_lt _ hn

theorem opp_opp {n k : ℕ} (hk : k < n) : opp n (opp n k) = k := by
  unfold opp
  rcases Nat.eq_zero_or_pos k with rfl | h0
  · simp
  · rw [Nat.mod_eq_of_lt (show n - k < n by omega), show n - (n - k) = k by omega, Nat.mod_eq_of_lt hk]

theorem om_opp {n k : ℕ} (hk : k < n) : om n (opp n k) = (starRingEnd ℂ) (om n k) := by
  have hn : 0 < n := by omega
  have hn0 : (n : ℂ) ≠ 0 := by exact_mod_cast hn.ne'
  unfold opp
  rcases Nat.eq_zero_or_pos k with rfl | h0
  · rw [om_conj]; unfold om; simp
  · rw [Nat.mod_eq_of_lt (show n - k < n by omega), om_conj, om]
    rw [show -(2 * (Real.pi : ℂ) * Complex.I * ((((n - k : ℕ) : ℝ) / n : ℝ) : ℂ)) =
      2 * Real.pi * Complex.I * ((k : ℝ) / n : ℝ) + ((-1 : ℤ) : ℂ) * (2 * Real.pi * Complex.I) by
        rw [Nat.cast_sub hk.le]; push_cast; field_simp; ring, Complex.exp_add, Complex.exp_int_mul_two_pi_mul_I, mul_one]

/-- Frequencies are odd, away from the highest frequency of an even array. -/
theorem freq_opp {n k : ℕ} (hk : k < n) (hny : 2 * k ≠ n) : fftfreq n (opp n k) = -fftfreq n k := by
  have hn : 0 < n := by omega
  have hn0 : (n : ℝ) ≠ 0 := by exact_mod_cast hn.ne'
  unfold opp fftfreq
  rcases Nat.eq_zero_or_pos k with rfl | h0
  · rw [Nat.sub_zero, Nat.mod_self, if_pos (show 0 < (n + 1) / 2 by omega)]; simp
  · rw [Nat.mod_eq_of_lt (show n - k < n by omega), Nat.cast_sub hk.le]
    by_cases h : k < (n + 1) / 2
    · rw [if_neg (by omega), if_pos h]; ring
    · rw [if_pos (by omega), if_neg h]; ring

theorem dft2_opp (n : ℕ) (im : ℕ → ℕ → ℝ) (kr kc : ℕ) (hr : kr < n) (hc : kc < n) :
    dft2 n im (opp n kr) (opp n kc) = (starRingEnd ℂ) (dft2 n im kr kc) := by
  rw [dft2_om, dft2_om, om_opp hr, om_opp hc, map_sum]
  refine Finset.sum_congr rfl fun a _ => ?_
  rw [map_sum]
  refine Finset.sum_congr rfl fun b _ => ?_
  simp only [map_mul, map_pow, Complex.conj_ofReal]

theorem psfUsed_conj (z : ℂ) (A : ℝ) : psfUsed ((starRingEnd ℂ) z) A = (starRingEnd ℂ) (psfUsed z A) := by
  unfold psfUsed
  simp only [Complex.norm_conj]
  split_ifs
  · simp only [map_mul, map_div₀, Complex.conj_ofReal]
  · simp only [Complex.conj_ofReal]
  · rfl

theorem cenPhase_opp {n : ℕ} (dr dc : ℝ) {kr kc : ℕ} (hr : kr < n) (hc : kc < n) (h1 : 2 * kr ≠ n) (h2 : 2 * kc ≠ n) :
    cenPhase n dr dc (opp n kr) (opp n kc) = (starRingEnd ℂ) (cenPhase n dr dc kr kc) := by
  rw [cenPhase_exp, cenPhase_exp, freq_opp hr h1, freq_opp hc h2, ← Complex.exp_conj]
  congr 1
  simp only [map_mul, Complex.conj_ofReal, Complex.conj_I]
  push_cast; ring

theorem cenPhase_unit (n : ℕ) (dr dc : ℝ) (kr kc : ℕ) :
    cenPhase n dr dc kr kc * (starRingEnd ℂ) (cenPhase n dr dc kr kc) = 1 := by
  rw [cenPhase_exp, ← Complex.exp_conj, ← Complex.exp_add]
  simp only [map_mul, Complex.conj_ofReal, Complex.conj_I]
  simp

/-- The kernels take equal values at opposite frequencies. -/
structure EvenKernels (n : ℕ) (K : Kernels) : Prop where
  lt : ∀ k ∈ modes n K.msk, (opp n k.1, opp n k.2) ∈ modes n K.msk
  kern : ∀ i, ∀ k ∈ modes n K.msk, K.kern i (opp n k.1) (opp n k.2) = K.kern i k.1 k.2

theorem mem_modes {n : ℕ} {msk : ℕ → ℕ → Prop} {k : ℕ × ℕ} : k ∈ modes n msk ↔ (k.1 < n ∧ k.2 < n) ∧ msk k.1 k.2 := by
  unfold modes
  classical
  rw [Finset.mem_filter, Finset.mem_product, Finset.mem_range, Finset.mem_range]

/-- The kernels of a measurement are even when no mode at the highest frequency of an even array is used. -/
theorem kernels_even (cfg : PreCfg) (n : ℕ) (hn : 0 < n) (J : Jacobian) (K : Kernels) (h : preKernels cfg n J = .ok K)
    (hny : ∀ k ∈ modes n K.msk, 2 * k.1 ≠ n ∧ 2 * k.2 ≠ n) : EvenKernels n K := by
  have hU : ∀ k ∈ modes n K.msk, freqU J n (opp n k.1) (opp n k.2) = -freqU J n k.1 k.2 ∧
      freqV J n (opp n k.1) (opp n k.2) = -freqV J n k.1 k.2 := by
    intro k hk
    have hl := (mem_modes.1 hk).1
    unfold freqU freqV
    simp only [freq_opp hl.1 (hny k hk).1, freq_opp hl.2 (hny k hk).2, show (2.0 : ℝ) = 2 by norm_num]
    constructor <;> ring
  have hS : ∀ k ∈ modes n K.msk, freqSq J n (opp n k.1) (opp n k.2) = freqSq J n k.1 k.2 := by
    intro k hk
    unfold freqSq
    rw [(hU k hk).1, (hU k hk).2]; ring
  have fin : (∀ k ∈ modes n K.msk, K.msk (opp n k.1) (opp n k.2)) →
      (∀ k ∈ modes n K.msk, (opp n k.1, opp n k.2) ∈ modes n K.msk) := fun hh k hk =>
    mem_modes.2 ⟨⟨opp_lt hn, opp_lt hn⟩, hh k hk⟩
  unfold preKernels at h
  split_ifs at h with hk
  · unfold ksigmaKernels at h
    simp only at h
    split_ifs at h with h1 h2 h3
    cases h
    refine ⟨fin ?_, ?_⟩
    · intro k hk
      have := (mem_modes.1 hk).2
      simp only at this ⊢
      rw [hS k hk]; exact this
    · intro i k hk
      unfold Kernels.kern
      match i with
      | 0 => simp only; rw [hS k hk]
      | 1 => simp only; rw [hS k hk]
      | 2 => simp only; rw [hS k hk, (hU k hk).1, (hU k hk).2, neg_sq, neg_sq]
      | 3 => simp only; rw [hS k hk, (hU k hk).1, (hU k hk).2]; simp only [mul_neg, neg_mul, neg_neg]
      | 4 => simp only; rw [hS k hk]
      | (_ + 5) => simp only; rw [hS k hk]
  · unfold gaussKernels at h
    simp only at h
    split_ifs at h with h1 h3
    cases h
    refine ⟨fin ?_, ?_⟩
    · intro k hk
      have := (mem_modes.1 hk).2
      simp only at this ⊢
      rw [hS k hk]; exact this
    · intro i k hk
      unfold Kernels.kern
      match i with
      | 0 => simp only; rw [hS k hk]
      | 1 => simp only; rw [hS k hk]
      | 2 => simp only; rw [hS k hk, (hU k hk).1, (hU k hk).2, neg_sq, neg_sq]
      | 3 => simp only; rw [hS k hk, (hU k hk).1, (hU k hk).2]; simp only [mul_neg, neg_mul, neg_neg]
      | 4 => simp only; rw [hS k hk]
      | (_ + 5) => simp only; rw [hS k hk]

/-- `G` is the function the pixels are multiplied with: the moment is the sum of the image times `G`, whatever the image. -/
def PixelWeight (n : ℕ) (kpsf : ℕ → ℕ → ℂ) (K : Kernels) (dr dc : ℝ) (i : ℕ) (G : ℕ → ℕ → ℝ) : Prop :=
  ∀ (im : ℕ → ℕ → ℝ) (tv pad : ℝ) (m : KMoments), measureMoments n (dft2 n im) kpsf tv pad K dr dc = some m →
    m.at i = ∑ x ∈ Finset.range n ×ˢ Finset.range n, im x.1 x.2 * G x.1 x.2

/-- C74, for one measurement. -/
theorem noise_core (n : ℕ) (hn : 0 < n) (kpsf : ℕ → ℕ → ℂ) (K : Kernels) (hK : EvenKernels n K)
    (hny : ∀ k ∈ modes n K.msk, 2 * k.1 ≠ n ∧ 2 * k.2 ≠ n)
    (hpsf : ∀ k ∈ modes n K.msk, kpsf (opp n k.1) (opp n k.2) = (starRingEnd ℂ) (kpsf k.1 k.2)) (dr dc : ℝ) :
    ∃ G : ℕ → ℕ → ℕ → ℝ, (∀ i, PixelWeight n kpsf K dr dc i (G i)) ∧
      ∀ (kim : ℕ → ℕ → ℂ) (tv pad : ℝ) (m : KMoments), measureMoments n kim kpsf tv pad K dr dc = some m →
        ∀ i j, 2 ≤ i → i < 6 → 2 ≤ j → j < 6 →
          m.cov i j = tv * pad ^ 2 / n ^ 2 * ∑ x ∈ Finset.range n ×ˢ Finset.range n, G i x.1 x.2 * G j x.1 x.2 := by
  have hn0 : (n : ℝ) ≠ 0 := by exact_mod_cast hn.ne'
  obtain ⟨A, hA⟩ : ∃ A : ℕ → ℕ × ℕ → ℂ, ∀ i k, A i k =
      cenPhase n dr dc k.1 k.2 / psfUsed (kpsf k.1 k.2) ‖kpsf 0 0‖ * (K.kern i k.1 k.2 : ℂ) := ⟨_, fun _ _ => rfl⟩
  obtain ⟨S, hS⟩ : ∃ S : ℕ → ℕ × ℕ → ℂ, ∀ i x, S i x =
      ∑ k ∈ modes n K.msk, A i k * (om n k.1 ^ x.1 * om n k.2 ^ x.2) := ⟨_, fun _ _ => rfl⟩
  have hAconj : ∀ i, ∀ k ∈ modes n K.msk, A i (opp n k.1, opp n k.2) = (starRingEnd ℂ) (A i k) := by
    intro i k hk
    have hl := (mem_modes.1 hk).1
    rw [hA, hA]
    simp only
    rw [cenPhase_opp dr dc hl.1 hl.2 (hny k hk).1 (hny k hk).2, hpsf k hk, psfUsed_conj, hK.kern i k hk]
    simp only [map_mul, map_div₀, Complex.conj_ofReal]
  have hreal : ∀ i x, ((S i x).re : ℂ) = S i x := by
    intro i x
    refine Complex.conj_eq_iff_re.1 ?_
    rw [hS, map_sum]
    refine Finset.sum_nbij' (fun k => (opp n k.1, opp n k.2)) (fun k => (opp n k.1, opp n k.2)) hK.lt hK.lt ?_ ?_ ?_
    · intro k hk
      have hl := (mem_modes.1 hk).1
      exact Prod.ext (opp_opp hl.1) (opp_opp hl.2)
    · intro k hk
      have hl := (mem_modes.1 hk).1
      exact Prod.ext (opp_opp hl.1) (opp_opp hl.2)
    · intro k hk
      have hl := (mem_modes.1 hk).1
      rw [hAconj i k hk]
      simp only
      rw [om_opp hl.1, om_opp hl.2]
      simp only [map_mul, map_pow]
  refine ⟨fun i r c => (S i (r, c)).re / n ^ 2, ?_, ?_⟩
  · intro i im tv pad m hm
    rw [(measure_some hm).2.1 i]
    have e : ∀ k ∈ modes n K.msk, (dft2 n im k.1 k.2 / psfUsed (kpsf k.1 k.2) ‖kpsf 0 0‖ * cenPhase n dr dc k.1 k.2 *
        (K.kern i k.1 k.2 : ℂ)).re = ∑ x ∈ Finset.range n ×ˢ Finset.range n,
          im x.1 x.2 * (A i k * (om n k.1 ^ x.1 * om n k.2 ^ x.2)).re := by
      intro k _
      rw [show dft2 n im k.1 k.2 / psfUsed (kpsf k.1 k.2) ‖kpsf 0 0‖ * cenPhase n dr dc k.1 k.2 * (K.kern i k.1 k.2 : ℂ) =
        dft2 n im k.1 k.2 * A i k by rw [hA]; ring, dft2_om, ← Finset.sum_product', Finset.sum_mul, Complex.re_sum]
      refine Finset.sum_congr rfl fun x _ => ?_
      rw [← Complex.re_ofReal_mul]
      congr 1
      ring
    rw [Finset.sum_congr rfl e, Finset.sum_comm, Finset.sum_mul]
    refine Finset.sum_congr rfl fun x _ => ?_
    rw [← Finset.mul_sum, ← Complex.re_sum, ← hS]
    field_simp
  · intro kim tv pad m hm i j hi hi6 hj hj6
    rw [(measure_some hm).2.2 i j, if_pos ⟨hi, hi6, hj, hj6⟩]
    have hp := parseval n (modes n K.msk) (fun k hk => (mem_modes.1 hk).1) (A i) (A j)
    simp only [← hS] at hp
    have hp' : ∑ x ∈ Finset.range n ×ˢ Finset.range n, (S i x).re * (S j x).re =
        (n : ℝ) ^ 2 * ∑ k ∈ modes n K.msk, (A i k * (starRingEnd ℂ) (A j k)).re := by
      have h1 := congrArg Complex.re hp
      rw [Complex.re_sum] at h1
      rw [show ((n : ℂ) ^ 2) = (((n : ℝ) ^ 2 : ℝ) : ℂ) by push_cast; rfl, Complex.re_ofReal_mul, Complex.re_sum] at h1
      rw [← h1]
      refine Finset.sum_congr rfl fun x _ => ?_
      rw [← hreal i x, ← hreal j x, Complex.conj_ofReal, ← Complex.ofReal_mul, Complex.ofReal_re, Complex.ofReal_re,
        Complex.ofReal_re]
    have hsum : ∑ k ∈ modes n K.msk, (((K.kern i k.1 k.2 : ℂ) * (1 / psfUsed (kpsf k.1 k.2) ‖kpsf 0 0‖)) *
          (starRingEnd ℂ) ((K.kern j k.1 k.2 : ℂ) * (1 / psfUsed (kpsf k.1 k.2) ‖kpsf 0 0‖))).re =
        ∑ k ∈ modes n K.msk, (A i k * (starRingEnd ℂ) (A j k)).re := by
      refine Finset.sum_congr rfl fun k _ => ?_
      congr 1
      rw [hA, hA]
      have hc := cenPhase_unit n dr dc k.1 k.2
      simp only [map_mul, map_div₀, Complex.conj_ofReal, map_one]
      linear_combination (-(K.kern i k.1 k.2 : ℂ) * (K.kern j k.1 k.2 : ℂ) / psfUsed (kpsf k.1 k.2) ‖kpsf 0 0‖ /
        (starRingEnd ℂ) (psfUsed (kpsf k.1 k.2) ‖kpsf 0 0‖)) * hc
    rw [hsum]
    have : ∑ x ∈ Finset.range n ×ˢ Finset.range n, (S i (x.1, x.2)).re / (n : ℝ) ^ 2 * ((S j (x.1, x.2)).re / (n : ℝ) ^ 2) =
        (∑ x ∈ Finset.range n ×ˢ Finset.range n, (S i x).re * (S j x).re) / (n : ℝ) ^ 4 := by
      rw [Finset.sum_div]
      refine Finset.sum_congr rfl fun x _ => ?_
      simp only [Prod.mk.eta]
      field_simp
    rw [this, hp']
    field_simp

theorem totVar_eq (w : Image) : totVar w = totalVariance w := by
  unfold totVar totalVariance
  rw [Finset.sum_filter]
  refine Finset.sum_congr rfl fun x _ => ?_
  by_cases h : 0 < w.get x.1 x.2
  · rw [if_pos h, if_pos h]; norm_num
  · rw [if_neg h, if_neg h]

/-- C74.  The covariance a measurement reports is that of independent pixel noise.  If the kernel uses no mode at the highest
frequency of an even array, there are functions on the pixels with which the moments of every image are sums over the
pixels, and the covariance of two moments is the sum of the products of their functions times the total variance of the
image over its number of pixels: what independent noise, with the average variance in every pixel of the padded array, has. -/
theorem C74_noise (cfg : PreCfg) (o : PreObs) (psf : Image) (Jp : Jacobian) (hpsf : o.psf = some (psf, Jp))
    (m : KMoments) (K : Kernels) (h : preMoments cfg (some o) false = .ok (some m, K))
    (pim ppsf : Image) (b a b' a' : ℤ)
    (hp : zeroPadImage (apodize cfg.apRad o.image) (targetDim cfg o o.psf) = .ok (pim, b, a))
    (hp' : zeroPadImage psf (targetDim cfg o o.psf) = .ok (ppsf, b', a'))
    (hny : ∀ k ∈ modes pim.nrow K.msk, 2 * k.1 ≠ pim.nrow ∧ 2 * k.2 ≠ pim.nrow) :
    ∃ G : ℕ → ℕ → ℕ → ℝ,
      (∀ i, PixelWeight pim.nrow (dft2 pim.nrow ppsf.get) K ((o.jac.row0 + b) - (Jp.row0 + b'))
        ((o.jac.col0 + b) - (Jp.col0 + b')) i (G i)) ∧
      (∀ i, m.at i = ∑ x ∈ Finset.range pim.nrow ×ˢ Finset.range pim.nrow, pim.get x.1 x.2 * G i x.1 x.2) ∧
      ∀ i j, 2 ≤ i → i < 6 → 2 ≤ j → j < 6 →
        m.cov i j = ∑ x ∈ Finset.range pim.nrow ×ˢ Finset.range pim.nrow,
          (totalVariance o.weight / (o.image.nrow : ℝ) ^ 2) * (G i x.1 x.2 * G j x.1 x.2) := by
  obtain ⟨psf0, pim0, b0, a0, kpsf, h1, h0, h2, h3, h4, h5, hm⟩ := pre_ok h
  have := check_psf hpsf h1
  subst this
  rw [← hpsf, hp] at h2
  cases h2
  have hpad := pad_rows hp
  have hpad' := pad_rows hp'
  have hn : 0 < pim.nrow := by
    have e1 := hpad.1.nrow
    have e2 := hpad.2
    rw [(apodize_nrow cfg.apRad o.image).1] at e2
    omega
  have hnn : ppsf.nrow = pim.nrow := by
    have e1 := hpad.1.nrow
    have e2 := hpad'.1.nrow
    omega
  have hT : ((targetDim cfg o (some (psf, Jp)) : ℤ) : ℝ) = pim.nrow := by
    rw [← hpsf, ← hpad.1.nrow]; push_cast; rfl
  unfold psfFft at h3
  simp only [padAndFft] at h3
  rw [(C59_apodize 0 psf).1 le_rfl, ← hpsf, hp'] at h3
  simp only [Except.map, Except.ok.injEq] at h3
  subst h3
  simp only at hm
  rw [hnn, hT] at hm
  have hlt : ∀ k ∈ modes pim.nrow K.msk, k.1 < pim.nrow ∧ k.2 < pim.nrow := fun k hk => (mem_modes.1 hk).1
  obtain ⟨G, hG1, hG2⟩ := noise_core pim.nrow hn (dft2 pim.nrow ppsf.get) K (kernels_even cfg pim.nrow hn o.jac K h4 hny) hny
    (fun k hk => dft2_opp pim.nrow ppsf.get k.1 k.2 (hlt k hk).1 (hlt k hk).2) ((o.jac.row0 + b) - (Jp.row0 + b'))
    ((o.jac.col0 + b) - (Jp.col0 + b'))
  refine ⟨G, hG1, fun i => hG1 i pim.get _ _ m hm.symm, fun i j hi hi6 hj hj6 => ?_⟩
  rw [hG2 _ _ _ m hm.symm i j hi hi6 hj hj6, ← Finset.mul_sum, totVar_eq]
  have hn0 : (pim.nrow : ℝ) ≠ 0 := by exact_mod_cast hn.ne'
  have hi0 : (o.image.nrow : ℝ) ≠ 0 := by exact_mod_cast h0
  congr 1
  field_simp

/-- The case of `PreExample` uses no mode at the highest frequency. -/
example (K : Kernels) (h : ksigmaKernels 4 PreExample.size (PreExample.J 1.5 1.5) 0 = .ok K) :
    ∀ k ∈ modes 4 K.msk, 2 * k.1 ≠ 4 ∧ 2 * k.2 ≠ 4 := by
  intro k hk
  have : k ∈ modes 4 (ksigmaModes (PreExample.J 1.5 1.5) 4 PreExample.size) := by
    rw [mem_modes] at hk ⊢
    exact ⟨hk.1, ((C72_ksigma _ _ _ _ K h).2.1 k.1 k.2).1 hk.2⟩
  rw [PreExample.modes_eq] at this
  simp only [Finset.mem_product, Finset.mem_insert, Finset.mem_singleton] at this
  omega

end Ngmix.Props
