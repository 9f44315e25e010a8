import Verif.Props.PrePSFPad
import Verif.Props.FastExp
import Verif.Proof.ExceptLemmas
import Mathlib.Tactic.Linarith
import Mathlib.Tactic.FieldSimp
import Mathlib.Tactic.LinearCombination
import Mathlib.Tactic.Positivity
import Mathlib.Analysis.SpecialFunctions.Trigonometric.Bounds
import Mathlib.Analysis.SpecialFunctions.ExpDeriv
import Mathlib.Analysis.Real.Pi.Bounds

/-! C60, C61, C71: deconvolution, moments and their covariance. -/

namespace Ngmix.Props

open Ngmix Ngmix.Spec

/-! ### The psf amplitude used -/

/-- C60.  The psf amplitude divided by has modulus the larger of the psf's own and 1e-5 of the psf flux; it keeps its phase;
it is the psf's own above the floor and the floor itself where the psf has none. -/
theorem C60_floor (z : ℂ) (maxAmp : ℝ) (h : 0 ≤ maxAmp) :
    ‖psfUsed z maxAmp‖ = max ‖z‖ (1e-5 * maxAmp) ∧
    (z ≠ 0 → ∃ s : ℝ, 0 ≤ s ∧ psfUsed z maxAmp = (s : ℂ) * z) ∧
    (1e-5 * maxAmp < ‖z‖ → psfUsed z maxAmp = z) ∧
    (z = 0 → psfUsed z maxAmp = ((1e-5 * maxAmp : ℝ) : ℂ)) := by
  have hm : 0 ≤ 1e-5 * maxAmp := by positivity
  unfold psfUsed
  simp only
  generalize 1e-5 * maxAmp = a at *
  by_cases hz : z = 0
  · subst hz
    rw [if_neg (by simp), if_pos (by simpa using hm)]
    refine ⟨?_, fun h => absurd rfl h, fun h => ?_, fun _ => rfl⟩
    · rw [norm_zero, max_eq_right hm, Complex.norm_of_nonneg hm]
    · rw [norm_zero] at h; exact absurd h (not_lt.2 hm)
  · have hn : ‖z‖ ≠ 0 := norm_ne_zero_iff.2 hz
    have hp : 0 < ‖z‖ := norm_pos_iff.2 hz
    by_cases hle : ‖z‖ ≤ a
    · rw [if_pos ⟨hle, hn⟩]
      refine ⟨?_, fun _ => ⟨a / ‖z‖, by positivity, ?_⟩, fun h => absurd hle (not_le.2 h), fun h => absurd h hz⟩
      · rw [norm_mul, norm_div, Complex.norm_real, Complex.norm_of_nonneg hm, norm_norm, div_self hn, one_mul,
          max_eq_right hle]
      · rw [Complex.ofReal_div]
        have : (‖z‖ : ℂ) ≠ 0 := by exact_mod_cast hn
        field_simp
    · rw [if_neg (fun h => hle h.1), if_neg (fun h => hle h.1)]
      exact ⟨(max_eq_left (not_le.1 hle).le).symm, fun _ => ⟨1, by norm_num, by simp⟩, fun _ => rfl, fun h => absurd h hz⟩

/-- C60.  The mask returned marks only modes where the psf is exactly zero: a mode that was raised to the floor from a nonzero
amplitude is not marked (against the comment of the function). -/
theorem C60_mask (z : ℂ) (maxAmp : ℝ) (h : 0 ≤ maxAmp) : truncMask z maxAmp ↔ z = 0 := by
  unfold truncMask
  constructor
  · exact fun h => norm_eq_zero.1 h.2
  · rintro rfl
    rw [norm_zero]
    exact ⟨by positivity, rfl⟩

theorem psfUsed_eq_zero (z : ℂ) (maxAmp : ℝ) (h : 0 ≤ maxAmp) : psfUsed z maxAmp = 0 ↔ z = 0 ∧ maxAmp = 0 := by
  rw [← norm_eq_zero, (C60_floor z maxAmp h).1]
  constructor
  · intro hm
    have h1 := le_max_left ‖z‖ (1e-5 * maxAmp)
    have h2 := le_max_right ‖z‖ (1e-5 * maxAmp)
    rw [hm] at h1 h2
    exact ⟨norm_le_zero_iff.1 h1, by linarith⟩
  · rintro ⟨rfl, rfl⟩; simp

/-! ### Discrete Fourier transforms -/

/-- The root of unity of a frequency. -/
noncomputable def om (n k : ℕ) : ℂ := Complex.exp (-(2 * Real.pi * Complex.I * ((k : ℝ) / n : ℝ)))

theorem om_pow (n k : ℕ) (hn : 0 < n) : om n k ^ n = 1 := by
  unfold om
  have : (n : ℂ) ≠ 0 := by exact_mod_cast hn.ne'
  rw [← Complex.exp_nat_mul, show (n : ℂ) * -(2 * Real.pi * Complex.I * ((k : ℝ) / n : ℝ)) =
    ((-(k : ℤ) : ℤ) : ℂ) * (2 * Real.pi * Complex.I) by push_cast; field_simp]
  exact Complex.exp_int_mul_two_pi_mul_I _

theorem exp_eq_om (n kr kc a b : ℕ) :
    Complex.exp (-(2 * Real.pi * Complex.I * (((kr : ℝ) * a + (kc : ℝ) * b) / n : ℝ))) = om n kr ^ a * om n kc ^ b := by
  unfold om
  rw [← Complex.exp_nat_mul, ← Complex.exp_nat_mul, ← Complex.exp_add]
  congr 1
  push_cast; ring

theorem dft2_om (n : ℕ) (im : ℕ → ℕ → ℝ) (kr kc : ℕ) :
    dft2 n im kr kc = ∑ a ∈ Finset.range n, ∑ b ∈ Finset.range n, (im a b : ℂ) * (om n kr ^ a * om n kc ^ b) := by
  unfold dft2
  rw [Finset.sum_product]
  refine Finset.sum_congr rfl fun a _ => Finset.sum_congr rfl fun b _ => ?_
  simp only
  rw [exp_eq_om]

theorem mod_shift {n y z : ℕ} (hy : y < n) (hz : z < n) : ((z + y) % n + n - y) % n = z := by
  by_cases h : z + y < n
  · rw [Nat.mod_eq_of_lt h, show z + y + n - y = z + n by omega, Nat.add_mod_right, Nat.mod_eq_of_lt hz]
  · rw [Nat.mod_eq_sub_mod (show n ≤ z + y by omega), Nat.mod_eq_of_lt (show z + y - n < n by omega),
      show z + y - n + n - y = z by omega, Nat.mod_eq_of_lt hz]

theorem mod_shift' {n y x : ℕ} (hy : y < n) (hx : x < n) : ((x + n - y) % n + y) % n = x := by
  by_cases h : x < y
  · rw [Nat.mod_eq_of_lt (show x + n - y < n by omega), show x + n - y + y = x + n by omega, Nat.add_mod_right,
      Nat.mod_eq_of_lt hx]
  · rw [Nat.mod_eq_sub_mod (show n ≤ x + n - y by omega), Nat.mod_eq_of_lt (show x + n - y - n < n by omega),
      show x + n - y - n + y = x by omega, Nat.mod_eq_of_lt hx]

theorem sum_shift {n y : ℕ} (hy : y < n) (w : ℂ) (hw : w ^ n = 1) (g : ℕ → ℂ) :
    ∑ x ∈ Finset.range n, g ((x + n - y) % n) * w ^ x = w ^ y * ∑ z ∈ Finset.range n, g z * w ^ z := by
  have hn : 0 < n := by omega
  rw [Finset.mul_sum]
  refine Finset.sum_nbij' (fun x => (x + n - y) % n) (fun z => (z + y) % n) ?_ ?_ ?_ ?_ ?_
  · intro x _; exact Finset.mem_range.2 (Nat.mod_lt _ hn)
  · intro z _; exact Finset.mem_range.2 (Nat.mod_lt _ hn)
  · intro x hx; exact mod_shift' hy (Finset.mem_range.1 hx)
  · intro z hz; exact mod_shift hy (Finset.mem_range.1 hz)
  · intro x hx
    have h1 : w ^ x = w ^ ((x + n - y) % n + y) := by
      conv_lhs => rw [← mod_shift' hy (Finset.mem_range.1 hx)]
      exact (pow_eq_pow_mod _ hw).symm
    rw [h1, pow_add]; ring

/-- The convolution theorem. -/
theorem dft2_conv (n : ℕ) (obj psf im : ℕ → ℕ → ℝ) (h : CircConv n obj psf im) (kr kc : ℕ) :
    dft2 n im kr kc = dft2 n obj kr kc * dft2 n psf kr kc := by
  rcases Nat.eq_zero_or_pos n with rfl | hn
  · simp [dft2]
  rw [dft2_om, dft2_om, dft2_om]
  have e1 : ∀ a ∈ Finset.range n, ∀ b ∈ Finset.range n, (im a b : ℂ) * (om n kr ^ a * om n kc ^ b) =
      ∑ p ∈ Finset.range n, ∑ q ∈ Finset.range n, (obj p q : ℂ) *
        ((psf ((a + n - p) % n) ((b + n - q) % n) : ℂ) * (om n kr ^ a * om n kc ^ b)) := by
    intro a ha b hb
    rw [h a (Finset.mem_range.1 ha) b (Finset.mem_range.1 hb), Finset.sum_product, Complex.ofReal_sum, Finset.sum_mul]
    refine Finset.sum_congr rfl fun p _ => ?_
    rw [Complex.ofReal_sum, Finset.sum_mul]
    refine Finset.sum_congr rfl fun q _ => ?_
    push_cast; ring
  have e2 : ∑ a ∈ Finset.range n, ∑ b ∈ Finset.range n, (im a b : ℂ) * (om n kr ^ a * om n kc ^ b) =
      ∑ p ∈ Finset.range n, ∑ q ∈ Finset.range n, (obj p q : ℂ) * ∑ a ∈ Finset.range n, ∑ b ∈ Finset.range n,
        ((psf ((a + n - p) % n) ((b + n - q) % n) : ℂ) * (om n kr ^ a * om n kc ^ b)) := by
    rw [Finset.sum_congr rfl fun a ha => Finset.sum_congr rfl fun b hb => e1 a ha b hb]
    rw [Finset.sum_congr rfl fun a _ => Finset.sum_comm]
    rw [Finset.sum_comm]
    refine Finset.sum_congr rfl fun p _ => ?_
    rw [Finset.sum_congr rfl fun a _ => Finset.sum_comm]
    rw [Finset.sum_comm]
    refine Finset.sum_congr rfl fun q _ => ?_
    rw [Finset.mul_sum]
    exact Finset.sum_congr rfl fun a _ => (Finset.mul_sum _ _ _).symm
  rw [e2, Finset.sum_mul]
  refine Finset.sum_congr rfl fun p hp => ?_
  rw [Finset.sum_mul]
  refine Finset.sum_congr rfl fun q hq => ?_
  rw [mul_assoc, mul_assoc]
  congr 1
  have hcol : ∀ z : ℕ, ∑ b ∈ Finset.range n, (psf z ((b + n - q) % n) : ℂ) * om n kc ^ b =
      om n kc ^ q * ∑ b ∈ Finset.range n, (psf z b : ℂ) * om n kc ^ b := fun z =>
    sum_shift (Finset.mem_range.1 hq) (om n kc) (om_pow n kc hn) fun b => (psf z b : ℂ)
  have hrow := sum_shift (Finset.mem_range.1 hp) (om n kr) (om_pow n kr hn)
    fun a => ∑ b ∈ Finset.range n, (psf a b : ℂ) * om n kc ^ b
  calc _ = ∑ a ∈ Finset.range n, (∑ b ∈ Finset.range n, (psf ((a + n - p) % n) ((b + n - q) % n) : ℂ) * om n kc ^ b) *
          om n kr ^ a := by
        refine Finset.sum_congr rfl fun a _ => ?_
        rw [Finset.sum_mul]
        exact Finset.sum_congr rfl fun b _ => by ring
    _ = om n kc ^ q * ∑ a ∈ Finset.range n, (∑ b ∈ Finset.range n, (psf ((a + n - p) % n) b : ℂ) * om n kc ^ b) *
          om n kr ^ a := by
        rw [Finset.mul_sum]
        refine Finset.sum_congr rfl fun a _ => ?_
        rw [hcol]; ring
    _ = _ := by
        rw [hrow, ← mul_assoc, mul_comm (om n kc ^ q)]
        rw [mul_assoc]
        congr 2
        refine Finset.sum_congr rfl fun a _ => ?_
        rw [Finset.sum_mul]
        exact Finset.sum_congr rfl fun b _ => by ring

theorem fftfreq_eq (n k : ℕ) (hn : 0 < n) : ∃ m : ℕ, (k : ℝ) / n = fftfreq n k + m := by
  unfold fftfreq
  have : (n : ℝ) ≠ 0 := by exact_mod_cast hn.ne'
  split_ifs
  · exact ⟨0, by simp⟩
  · exact ⟨1, by field_simp; push_cast; ring⟩

theorem om_pow_freq (n k a : ℕ) (hn : 0 < n) :
    om n k ^ a = Complex.exp (((-(2 * Real.pi * (fftfreq n k * a)) : ℝ) : ℂ) * Complex.I) := by
  obtain ⟨m, hm⟩ := fftfreq_eq n k hn
  unfold om
  rw [← Complex.exp_nat_mul, hm, show (a : ℂ) * -(2 * Real.pi * Complex.I * ((fftfreq n k + m : ℝ) : ℂ)) =
    ((-(2 * Real.pi * (fftfreq n k * a)) : ℝ) : ℂ) * Complex.I + ((-((a * m : ℕ) : ℤ) : ℤ) : ℂ) * (2 * Real.pi * Complex.I) by
      push_cast; ring, Complex.exp_add, Complex.exp_int_mul_two_pi_mul_I, mul_one]

theorem cenPhase_exp (n : ℕ) (row col : ℝ) (kr kc : ℕ) :
    cenPhase n row col kr kc =
      Complex.exp (((2 * Real.pi * (fftfreq n kr * row + fftfreq n kc * col) : ℝ) : ℂ) * Complex.I) := by
  unfold cenPhase
  simp only
  rw [show (2.0 : ℝ) = 2 by norm_num, mul_comm Complex.I, mul_comm Complex.I, Complex.ofReal_cos, Complex.ofReal_sin, Complex.ofReal_cos, Complex.ofReal_sin,
    ← Complex.exp_mul_I, ← Complex.exp_mul_I, ← Complex.exp_add]
  congr 1
  push_cast; ring

theorem cenPhase_zero (n kr kc : ℕ) : cenPhase n 0 0 kr kc = 1 := by
  rw [cenPhase_exp]; simp

/-- One term of a moment. -/
theorem term_re (n : ℕ) (hn : 0 < n) (obj : ℕ → ℕ → ℝ) (kr kc : ℕ) (row col w : ℝ) :
    (dft2 n obj kr kc * cenPhase n row col kr kc * (w : ℂ)).re =
      ∑ x ∈ Finset.range n ×ˢ Finset.range n,
        obj x.1 x.2 * (w * Real.cos (2 * Real.pi * (fftfreq n kr * (x.1 - row) + fftfreq n kc * (x.2 - col)))) := by
  rw [dft2_om, ← Finset.sum_product', Finset.sum_mul, Finset.sum_mul, Complex.re_sum]
  refine Finset.sum_congr rfl fun x _ => ?_
  rw [om_pow_freq n kr x.1 hn, om_pow_freq n kc x.2 hn, cenPhase_exp, ← Complex.exp_add, mul_assoc (obj x.1 x.2 : ℂ),
    ← Complex.exp_add, mul_assoc, Complex.re_ofReal_mul, Complex.re_mul_ofReal, ← add_mul, ← add_mul, ← Complex.ofReal_add,
    ← Complex.ofReal_add, Complex.exp_ofReal_mul_I_re, mul_comm w, ← Real.cos_neg]
  congr 3
  ring

/-! ### Moments -/

/-- The four moments of a result, by their place in the moment vector. -/
def _root_.Ngmix.KMoments.at (m : KMoments) (i : ℕ) : ℝ :=
  match i with
  | 2 => m.mp
  | 3 => m.mc
  | 4 => m.mr
  | _ => m.mf

/-- What a measurement returns, when it returns numbers. -/
theorem measure_some {n : ℕ} {kim kpsf : ℕ → ℕ → ℂ} {tv pad : ℝ} {K : Kernels} {dr dc : ℝ} {m : KMoments}
    (h : measureMoments n kim kpsf tv pad K dr dc = some m) :
    (∀ k ∈ modes n K.msk, psfUsed (kpsf k.1 k.2) ‖kpsf 0 0‖ ≠ 0) ∧
    (∀ i, m.at i = (∑ k ∈ modes n K.msk, (kim k.1 k.2 / psfUsed (kpsf k.1 k.2) ‖kpsf 0 0‖ * cenPhase n dr dc k.1 k.2 *
      (K.kern i k.1 k.2 : ℂ)).re) * (1 / n * (1 / n))) ∧
    (∀ i j, m.cov i j = if 2 ≤ i ∧ i < 6 ∧ 2 ≤ j ∧ j < 6 then
        (∑ k ∈ modes n K.msk, (((K.kern i k.1 k.2 : ℂ) * (1 / psfUsed (kpsf k.1 k.2) ‖kpsf 0 0‖)) *
          (starRingEnd ℂ) ((K.kern j k.1 k.2 : ℂ) * (1 / psfUsed (kpsf k.1 k.2) ‖kpsf 0 0‖))).re) *
          (tv * pad ^ 2 * (1 / n * (1 / n) * (1 / n * (1 / n))))
      else if i = j ∧ i < 2 then 1 else 0) := by
  unfold measureMoments at h
  simp only at h
  by_cases hz : ∃ k ∈ modes n K.msk, psfUsed (kpsf k.1 k.2) ‖kpsf 0 0‖ = 0
  · rw [if_pos hz] at h; cases h
  rw [if_neg hz, Option.some.injEq] at h
  have hph : ∀ x : ℂ, ∀ r c : ℕ, (if dr ≠ 0 ∨ dc ≠ 0 then x * cenPhase n dr dc r c else x) = x * cenPhase n dr dc r c := by
    intro x r c
    by_cases hd : dr ≠ 0 ∨ dc ≠ 0
    · rw [if_pos hd]
    · rw [if_neg hd]
      push Not at hd
      rw [hd.1, hd.2, cenPhase_zero, mul_one]
  simp only [hph] at h
  push Not at hz
  subst h
  refine ⟨hz, ?_, ?_⟩
  · intro i
    match i with
    | 0 => rfl
    | 1 => rfl
    | 2 => rfl
    | 3 => rfl
    | 4 => rfl
    | (_ + 5) => rfl
  · intro i j
    simp only
    congr 2
    refine Finset.sum_congr rfl fun k _ => ?_
    rcases le_total i j with hij | hij
    · rw [min_eq_left hij, max_eq_right hij]
    · rw [min_eq_right hij, max_eq_left hij, ← Complex.conj_re, map_mul, Complex.conj_conj, mul_comm]

/-- The moments of an object from its transform. -/
theorem moment_weighted (n : ℕ) (hn : 0 < n) (obj : ℕ → ℕ → ℝ) (M : Finset (ℕ × ℕ)) (kern : ℕ → ℕ → ℝ) (dr dc : ℝ) :
    (∑ k ∈ M, (dft2 n obj k.1 k.2 * cenPhase n dr dc k.1 k.2 * (kern k.1 k.2 : ℂ)).re) * (1 / n * (1 / n)) =
      weightedSum n obj (realWeight n M kern) dr dc := by
  unfold weightedSum realWeight
  have hn' : (n : ℝ) ≠ 0 := by exact_mod_cast hn.ne'
  rw [Finset.sum_congr rfl fun k _ => term_re n hn obj k.1 k.2 dr dc (kern k.1 k.2), Finset.sum_comm, Finset.sum_mul]
  refine Finset.sum_congr rfl fun x _ => ?_
  rw [← Finset.mul_sum]
  generalize ∑ i ∈ M, kern i.1 i.2 * Real.cos (2 * Real.pi * (fftfreq n i.1 * (x.1 - dr) + fftfreq n i.2 * (x.2 - dc))) = S
  field_simp

/-- The moments when the psf is above the floor in every mode. -/
theorem measured_core (n : ℕ) (hn : 0 < n) (obj : ℕ → ℕ → ℝ) (kim kpsf : ℕ → ℕ → ℂ) (K : Kernels)
    (ht : NotTruncated (modes n K.msk) kpsf) (tv pad dr dc : ℝ) :
    ∃ m, measureMoments n kim kpsf tv pad K dr dc = some m ∧
      ((∀ k ∈ modes n K.msk, kim k.1 k.2 = dft2 n obj k.1 k.2 * kpsf k.1 k.2) →
      m.mf = weightedSum n obj (realWeight n (modes n K.msk) K.fkf) dr dc ∧
      m.mr = weightedSum n obj (realWeight n (modes n K.msk) K.fkr) dr dc ∧
      m.mp = weightedSum n obj (realWeight n (modes n K.msk) K.fkp) dr dc ∧
      m.mc = weightedSum n obj (realWeight n (modes n K.msk) K.fkc) dr dc) := by
  have hu : ∀ k ∈ modes n K.msk, psfUsed (kpsf k.1 k.2) ‖kpsf 0 0‖ = kpsf k.1 k.2 := fun k hk =>
    (C60_floor _ _ (norm_nonneg _)).2.2.1 (ht k hk)
  have hne : ∀ k ∈ modes n K.msk, kpsf k.1 k.2 ≠ 0 := fun k hk h0 => by
    have := ht k hk
    rw [h0, norm_zero] at this
    exact absurd this (not_lt.2 (by positivity))
  have hs : ∃ m, measureMoments n kim kpsf tv pad K dr dc = some m := by
    unfold measureMoments
    simp only
    rw [if_neg]
    · exact ⟨_, rfl⟩
    · rintro ⟨k, hk, h0⟩
      exact hne k hk (by rw [← hu k hk, h0])
  obtain ⟨m, hm⟩ := hs
  refine ⟨m, hm, fun h => ?_⟩
  have hat : ∀ i, m.at i = weightedSum n obj (realWeight n (modes n K.msk) (K.kern i)) dr dc := by
    intro i
    rw [(measure_some hm).2.1 i, ← moment_weighted n hn]
    congr 1
    refine Finset.sum_congr rfl fun k hk => ?_
    rw [hu k hk, h k hk, mul_div_assoc, div_self (hne k hk), mul_one]
  exact ⟨hat 5, hat 4, hat 2, hat 3⟩

/-- C71.  If the image is the circular convolution of an object with the psf, and the psf is above the floor in every mode the
kernel uses, the four moments are exactly the sums of the object's own pixels, before the psf, with the real-space weight
functions of the kernels centred at the difference of the two centres. -/
theorem C71_measured (n : ℕ) (hn : 0 < n) (obj psf im : ℕ → ℕ → ℝ) (h : CircConv n obj psf im) (K : Kernels)
    (ht : NotTruncated (modes n K.msk) (dft2 n psf)) (tv pad dr dc : ℝ) :
    ∃ m, measureMoments n (dft2 n im) (dft2 n psf) tv pad K dr dc = some m ∧
      m.mf = weightedSum n obj (realWeight n (modes n K.msk) K.fkf) dr dc ∧
      m.mr = weightedSum n obj (realWeight n (modes n K.msk) K.fkr) dr dc ∧
      m.mp = weightedSum n obj (realWeight n (modes n K.msk) K.fkp) dr dc ∧
      m.mc = weightedSum n obj (realWeight n (modes n K.msk) K.fkc) dr dc := by
  obtain ⟨m, hm, h1⟩ := measured_core n hn obj (dft2 n im) (dft2 n psf) K ht tv pad dr dc
  exact ⟨m, hm, h1 fun k _ => dft2_conv n obj psf im h k.1 k.2⟩

/-- C71.  The psf drops out: two images of one object through two psfs, neither truncated, give the same moments. -/
theorem C71_psf_independent (n : ℕ) (hn : 0 < n) (obj psf im psf' im' : ℕ → ℕ → ℝ) (h : CircConv n obj psf im)
    (h' : CircConv n obj psf' im') (K : Kernels) (ht : NotTruncated (modes n K.msk) (dft2 n psf))
    (ht' : NotTruncated (modes n K.msk) (dft2 n psf')) (tv pad tv' pad' dr dc : ℝ) :
    ∃ m m', measureMoments n (dft2 n im) (dft2 n psf) tv pad K dr dc = some m ∧
      measureMoments n (dft2 n im') (dft2 n psf') tv' pad' K dr dc = some m' ∧
      m.mf = m'.mf ∧ m.mr = m'.mr ∧ m.mp = m'.mp ∧ m.mc = m'.mc := by
  obtain ⟨m, hm, h1, h2, h3, h4⟩ := C71_measured n hn obj psf im h K ht tv pad dr dc
  obtain ⟨m', hm', h1', h2', h3', h4'⟩ := C71_measured n hn obj psf' im' h' K ht' tv' pad' dr dc
  exact ⟨m, m', hm, hm', h1.trans h1'.symm, h2.trans h2'.symm, h3.trans h3'.symm, h4.trans h4'.symm⟩

/-- C71.  The weight functions are even. -/
theorem C71_even (n : ℕ) (M : Finset (ℕ × ℕ)) (kern : ℕ → ℕ → ℝ) (dr dc : ℝ) :
    realWeight n M kern (-dr) (-dc) = realWeight n M kern dr dc := by
  unfold realWeight
  congr 1
  refine Finset.sum_congr rfl fun k _ => ?_
  rw [← Real.cos_neg]
  congr 2
  ring

/-- C60.  The measurement returns numbers that are not finite exactly when the psf has zero total flux and no amplitude in
some mode of the kernel. -/
theorem C60_nonfinite (n : ℕ) (kim kpsf : ℕ → ℕ → ℂ) (tv pad : ℝ) (K : Kernels) (dr dc : ℝ) :
    measureMoments n kim kpsf tv pad K dr dc = none ↔ kpsf 0 0 = 0 ∧ ∃ k ∈ modes n K.msk, kpsf k.1 k.2 = 0 := by
  unfold measureMoments
  simp only
  have hiff : (∃ k ∈ modes n K.msk, psfUsed (kpsf k.1 k.2) ‖kpsf 0 0‖ = 0) ↔
      kpsf 0 0 = 0 ∧ ∃ k ∈ modes n K.msk, kpsf k.1 k.2 = 0 := by
    constructor
    · rintro ⟨k, hk, h0⟩
      have := (psfUsed_eq_zero _ _ (norm_nonneg _)).1 h0
      exact ⟨norm_eq_zero.1 this.2, k, hk, this.1⟩
    · rintro ⟨h0, k, hk, h1⟩
      exact ⟨k, hk, (psfUsed_eq_zero _ _ (norm_nonneg _)).2 ⟨h1, by rw [h0, norm_zero]⟩⟩
  by_cases hz : ∃ k ∈ modes n K.msk, psfUsed (kpsf k.1 k.2) ‖kpsf 0 0‖ = 0
  · rw [if_pos hz]; exact ⟨fun _ => hiff.1 hz, fun _ => rfl⟩
  · rw [if_neg hz]
    exact ⟨fun h => (by cases h), fun h => absurd (hiff.2 h) hz⟩

theorem dft2_zero (n : ℕ) (im : ℕ → ℕ → ℝ) :
    dft2 n im 0 0 = ((∑ x ∈ Finset.range n ×ˢ Finset.range n, im x.1 x.2 : ℝ) : ℂ) := by
  unfold dft2
  rw [Complex.ofReal_sum]
  refine Finset.sum_congr rfl fun x _ => ?_
  simp

/-! ### Covariance -/

theorem totVar_nonneg (w : Image) : 0 ≤ totVar w := by
  unfold totVar
  refine Finset.sum_nonneg fun x hx => ?_
  have := (Finset.mem_filter.1 hx).2
  have : 0 < w.get x.1 x.2 := this
  positivity

/-- C61.  The covariance is symmetric and positive semidefinite, for every image, psf, weight map and kernel. -/
theorem C61_covariance (n : ℕ) (kim kpsf : ℕ → ℕ → ℂ) (w : Image) (pad : ℝ) (K : Kernels) (dr dc : ℝ) (m : KMoments)
    (h : measureMoments n kim kpsf (totVar w) pad K dr dc = some m) :
    (∀ i j, m.cov i j = m.cov j i) ∧
    (∀ v : ℕ → ℝ, 0 ≤ ∑ i ∈ Finset.range 6, ∑ j ∈ Finset.range 6, v i * v j * m.cov i j) := by
  obtain ⟨-, -, hc⟩ := measure_some h
  have htv : 0 ≤ totVar w * pad ^ 2 * (1 / n * (1 / n) * (1 / n * (1 / n))) :=
    mul_nonneg (mul_nonneg (totVar_nonneg w) (sq_nonneg _)) (by positivity)
  generalize totVar w * pad ^ 2 * (1 / n * (1 / n) * (1 / n * (1 / n))) = tv at *
  constructor
  · intro i j
    rw [hc i j, hc j i]
    by_cases hij : 2 ≤ i ∧ i < 6 ∧ 2 ≤ j ∧ j < 6
    · rw [if_pos hij, if_pos (show 2 ≤ j ∧ j < 6 ∧ 2 ≤ i ∧ i < 6 by omega)]
      congr 1
      refine Finset.sum_congr rfl fun k _ => ?_
      rw [← Complex.conj_re, map_mul, Complex.conj_conj, mul_comm]
    · rw [if_neg hij, if_neg (show ¬ (2 ≤ j ∧ j < 6 ∧ 2 ≤ i ∧ i < 6) by omega)]
      by_cases h2 : i = j ∧ i < 2
      · rw [if_pos h2, if_pos (show j = i ∧ j < 2 by omega)]
      · rw [if_neg h2, if_neg (show ¬ (j = i ∧ j < 2) by omega)]
  · intro v
    generalize hg : (fun (i : ℕ) (k : ℕ × ℕ) => (K.kern i k.1 k.2 : ℂ) * (1 / psfUsed (kpsf k.1 k.2) ‖kpsf 0 0‖)) = g at *
    obtain ⟨R, hR⟩ : ∃ R : ℕ → ℕ → ℝ, ∀ i j, ∑ k ∈ modes n K.msk, (g i k * (starRingEnd ℂ) (g j k)).re = R i j :=
      ⟨_, fun _ _ => rfl⟩
    have hc' : ∀ i j, m.cov i j = if 2 ≤ i ∧ i < 6 ∧ 2 ≤ j ∧ j < 6 then R i j * tv else if i = j ∧ i < 2 then 1 else 0 := by
      intro i j
      rw [hc i j, ← hR, ← hg]
    have key : ∑ i ∈ Finset.range 6, ∑ j ∈ Finset.range 6, v i * v j * m.cov i j =
        v 0 ^ 2 + v 1 ^ 2 + (∑ k ∈ modes n K.msk, Complex.normSq (v 2 * g 2 k + v 3 * g 3 k + v 4 * g 4 k + v 5 * g 5 k)) * tv := by
      simp only [Finset.sum_range_succ, Finset.sum_range_zero, hc']
      norm_num
      have e : ∀ k, Complex.normSq (v 2 * g 2 k + v 3 * g 3 k + v 4 * g 4 k + v 5 * g 5 k) =
          v 2 * v 2 * (g 2 k * (starRingEnd ℂ) (g 2 k)).re + v 2 * v 3 * (g 2 k * (starRingEnd ℂ) (g 3 k)).re + v 2 * v 4 * (g 2 k * (starRingEnd ℂ) (g 4 k)).re + v 2 * v 5 * (g 2 k * (starRingEnd ℂ) (g 5 k)).re + v 3 * v 2 * (g 3 k * (starRingEnd ℂ) (g 2 k)).re + v 3 * v 3 * (g 3 k * (starRingEnd ℂ) (g 3 k)).re + v 3 * v 4 * (g 3 k * (starRingEnd ℂ) (g 4 k)).re + v 3 * v 5 * (g 3 k * (starRingEnd ℂ) (g 5 k)).re + v 4 * v 2 * (g 4 k * (starRingEnd ℂ) (g 2 k)).re + v 4 * v 3 * (g 4 k * (starRingEnd ℂ) (g 3 k)).re + v 4 * v 4 * (g 4 k * (starRingEnd ℂ) (g 4 k)).re + v 4 * v 5 * (g 4 k * (starRingEnd ℂ) (g 5 k)).re + v 5 * v 2 * (g 5 k * (starRingEnd ℂ) (g 2 k)).re + v 5 * v 3 * (g 5 k * (starRingEnd ℂ) (g 3 k)).re + v 5 * v 4 * (g 5 k * (starRingEnd ℂ) (g 4 k)).re + v 5 * v 5 * (g 5 k * (starRingEnd ℂ) (g 5 k)).re := by
        intro k
        simp only [Complex.normSq_apply, Complex.mul_re, Complex.add_re, Complex.add_im, Complex.mul_im,
          Complex.ofReal_re, Complex.ofReal_im, Complex.conj_re, Complex.conj_im]
        ring
      rw [Finset.sum_congr rfl fun k _ => e k]
      simp only [Finset.sum_add_distrib, ← Finset.mul_sum, hR]
      ring
    rw [key]
    have : 0 ≤ ∑ k ∈ modes n K.msk, Complex.normSq (v 2 * g 2 k + v 3 * g 3 k + v 4 * g 4 k + v 5 * g 5 k) :=
      Finset.sum_nonneg fun k _ => Complex.normSq_nonneg _
    positivity

end Ngmix.Props
