import Verif.Spec.PrePSF
import Mathlib.Tactic.Linarith
import Mathlib.Tactic.FieldSimp
import Mathlib.Tactic.LinearCombination
import Mathlib.Tactic.Positivity
import Mathlib.Analysis.Calculus.Deriv.MeanValue
import Mathlib.Algebra.Order.Floor.Semiring

/-! C59: padding and apodization. -/

namespace Ngmix.Props

open Ngmix Ngmix.Spec

/-! ### Padding -/

/-- The shape and contents of a padded image. -/
structure Padded (im pim : Image) (target before after : ℤ) : Prop where
  nrow : (pim.nrow : ℤ) = target
  ncol : (pim.ncol : ℤ) = target + im.ncol - im.nrow
  balance : before + after = target - im.nrow
  nonneg : 0 ≤ before
  odd : after = before ∨ after = before + 1
  inside : ∀ r < im.nrow, ∀ c < im.ncol, pim.get (r + before.toNat) (c + before.toNat) = im.get r c
  outside : ∀ r c, (∀ r' < im.nrow, ∀ c' < im.ncol, (r, c) ≠ (r' + before.toNat, c' + before.toNat)) → pim.get r c = 0

/-- C59.  Padding fails with `ValueError` exactly when the target is smaller than the image, and otherwise puts the image,
unchanged, in the middle of zeros, the odd pixel after it. -/
theorem C59_pad (im : Image) (target : ℤ) :
    (target < im.nrow → zeroPadImage im target = .error .value) ∧
    (im.nrow ≤ target → ∃ pim before after, zeroPadImage im target = .ok (pim, before, after) ∧
      Padded im pim target before after) := by
  unfold zeroPadImage
  simp only
  constructor
  · intro h
    rw [if_pos]
    left; omega
  · intro h
    have ha : ∃ a, a = (if (target - im.nrow) % 2 = 0 then (target - im.nrow) / 2 else (target - im.nrow) / 2 + 1) ∧
        0 ≤ a ∧ a + (target - im.nrow) / 2 = target - im.nrow ∧
        (a = (target - im.nrow) / 2 ∨ a = (target - im.nrow) / 2 + 1) := by
      refine ⟨_, rfl, ?_⟩
      split_ifs <;> omega
    obtain ⟨a, hae, ha0, has, hao⟩ := ha
    rw [← hae, if_neg (by omega)]
    generalize hb : (target - (im.nrow : ℤ)) / 2 = b at *
    refine ⟨_, _, _, rfl, ⟨?_, ?_, by omega, by omega, hao, ?_, ?_⟩⟩
    · simp only; omega
    · simp only; omega
    · intro r hr c hc
      simp only
      rw [if_pos (by omega)]
      congr 1 <;> omega
    · intro r c hrc
      simp only
      rw [if_neg]
      rintro ⟨⟨h1, h2⟩, h3, h4⟩
      exact hrc (r - b.toNat) (by omega) (c - b.toNat) (by omega) (by rw [Prod.mk.injEq]; omega)

/-- C59.  Padding keeps the sum of the pixels. -/
theorem C59_pad_total (im pim : Image) (target before after : ℤ) (h : Padded im pim target before after) :
    total pim = total im := by
  unfold total
  have hsub : (Finset.range im.nrow ×ˢ Finset.range im.ncol).image
      (fun x : ℕ × ℕ => (x.1 + before.toNat, x.2 + before.toNat)) ⊆ Finset.range pim.nrow ×ˢ Finset.range pim.ncol := by
    intro x hx
    simp only [Finset.mem_image, Finset.mem_product, Finset.mem_range] at hx ⊢
    obtain ⟨y, ⟨hy1, hy2⟩, rfl⟩ := hx
    have h1 := h.nrow; have h2 := h.ncol; have h3 := h.balance; have h4 := h.nonneg; have h5 := h.odd
    constructor <;> (show _ + _ < _; omega)
  rw [← Finset.sum_subset hsub]
  · rw [Finset.sum_image]
    · refine Finset.sum_congr rfl fun x hx => ?_
      simp only [Finset.mem_product, Finset.mem_range] at hx
      exact h.inside x.1 hx.1 x.2 hx.2
    · intro a _ b _ hab
      simp only [Prod.mk.injEq] at hab
      exact Prod.ext (by omega) (by omega)
  · intro x _ hx
    refine h.outside x.1 x.2 fun r' hr' c' hc' he => hx ?_
    simp only [Finset.mem_image, Finset.mem_product, Finset.mem_range]
    exact ⟨(r', c'), ⟨hr', hc'⟩, he.symm⟩

/-! ### The apodization profile -/

/-- The profile in its own units, on the middle piece. -/
noncomputable def triweight (y : ℝ) : ℝ :=
  -5 * y ^ 7 / 69984 + 7 * y ^ 5 / 2592 - 35 * y ^ 3 / 864 + 35 * y / 96 + 1 / 2

theorem triweight_deriv (y : ℝ) : HasDerivAt triweight (35 / 96 * (1 - y ^ 2 / 9) ^ 3) y := by
  unfold triweight
  have h7 := ((hasDerivAt_pow 7 y).const_mul (-5)).div_const 69984
  have h5 := ((hasDerivAt_pow 5 y).const_mul 7).div_const 2592
  have h3 := ((hasDerivAt_pow 3 y).const_mul 35).div_const 864
  have h1 := ((hasDerivAt_id y).const_mul 35).div_const 96
  have := (((h7.add h5).sub h3).add h1).add_const (1 / 2 : ℝ)
  refine (this.congr_deriv ?_)
  norm_num
  ring

theorem triweight_mono : MonotoneOn triweight (Set.Icc (-3) 3) := by
  refine monotoneOn_of_deriv_nonneg (convex_Icc _ _) ?_ ?_ ?_
  · exact fun y _ => (triweight_deriv y).continuousAt.continuousWithinAt
  · exact fun y _ => (triweight_deriv y).differentiableAt.differentiableWithinAt
  · intro y hy
    rw [interior_Icc] at hy
    rw [(triweight_deriv y).deriv]
    have : 0 ≤ 1 - y ^ 2 / 9 := by nlinarith [hy.1, hy.2]
    positivity

theorem triweight_ends : triweight (-3) = 0 ∧ triweight 3 = 1 := by
  unfold triweight; constructor <;> norm_num

theorem apKern_eq (x m h : ℝ) : apKern x m h =
    if (x - m) / h + 3 < -3 then 0 else if (x - m) / h + 3 > 3 then 1 else triweight ((x - m) / h + 3) := rfl

theorem apKern_range (x m h : ℝ) : 0 ≤ apKern x m h ∧ apKern x m h ≤ 1 := by
  rw [apKern_eq]
  split_ifs with h1 h2
  · norm_num
  · norm_num
  · push Not at h1 h2
    rw [← triweight_ends.1, ← triweight_ends.2]
    exact ⟨triweight_mono ⟨le_refl _, by norm_num⟩ ⟨h1, h2⟩ h1, triweight_mono ⟨h1, h2⟩ ⟨by norm_num, le_refl _⟩ h2⟩

/-- C59.  The apodization profile lies between zero and one, rises, is zero from `6h` before `m` on outwards, one from `m`
on inwards, and is point symmetric about the middle of the rise. -/
theorem C59_profile (m h : ℝ) (hh : 0 < h) :
    (∀ x, 0 ≤ apKern x m h ∧ apKern x m h ≤ 1) ∧ Monotone (fun x => apKern x m h) ∧
    (∀ x, x ≤ m - 6 * h → apKern x m h = 0) ∧ (∀ x, m ≤ x → apKern x m h = 1) ∧
    (∀ t, apKern (m - 3 * h + t) m h + apKern (m - 3 * h - t) m h = 1) := by
  have hy : ∀ x, ∀ b : ℝ, (x - m) / h + 3 ≤ b ↔ x ≤ m + (b - 3) * h := by
    intro x b
    rw [← sub_nonneg, ← sub_nonneg (b := x), show b - ((x - m) / h + 3) = (m + (b - 3) * h - x) / h by field_simp; ring]
    constructor
    · intro h0
      by_contra hc
      exact absurd h0 (not_le.2 (div_neg_of_neg_of_pos (not_le.1 hc) hh))
    · intro h0; positivity
  refine ⟨fun x => apKern_range x m h, ?_, ?_, ?_, ?_⟩
  · intro a b hab
    simp only [apKern_eq]
    have hle : (a - m) / h + 3 ≤ (b - m) / h + 3 := by
      have : (a - m) / h ≤ (b - m) / h := by gcongr
      linarith
    generalize (a - m) / h + 3 = y at *
    generalize (b - m) / h + 3 = z at *
    by_cases h1 : y < -3
    · rw [if_pos h1]
      split_ifs with h2 h3
      · norm_num
      · norm_num
      · rw [← triweight_ends.1]
        exact triweight_mono ⟨le_refl _, by norm_num⟩ ⟨not_lt.1 h2, not_lt.1 h3⟩ (not_lt.1 h2)
    · rw [if_neg h1, if_neg (show ¬ z < -3 by linarith [not_lt.1 h1])]
      by_cases h4 : z > 3
      · rw [if_pos h4]
        split_ifs with h5
        · exact le_refl _
        · rw [← triweight_ends.2]
          exact triweight_mono ⟨not_lt.1 h1, not_lt.1 h5⟩ ⟨by norm_num, le_refl _⟩ (not_lt.1 h5)
      · rw [if_neg h4, if_neg (show ¬ y > 3 by linarith [not_lt.1 h4])]
        exact triweight_mono ⟨not_lt.1 h1, by linarith [not_lt.1 h4]⟩ ⟨by linarith [not_lt.1 h1], not_lt.1 h4⟩ hle
  · intro x hx
    have := (hy x (-3)).2 (by linarith)
    rw [apKern_eq]
    split_ifs with h1 h2
    · rfl
    · linarith
    · rw [le_antisymm this (not_lt.1 h1)]; exact triweight_ends.1
  · intro x hx
    have : 3 ≤ (x - m) / h + 3 := by
      have : 0 ≤ (x - m) / h := div_nonneg (by linarith) hh.le
      linarith
    rw [apKern_eq, if_neg (by linarith)]
    split_ifs with h2
    · rfl
    · rw [le_antisymm (not_lt.1 h2) this]; exact triweight_ends.2
  · intro t
    have e1 : (m - 3 * h + t - m) / h + 3 = t / h := by field_simp; ring
    have e2 : (m - 3 * h - t - m) / h + 3 = -(t / h) := by field_simp; ring
    rw [apKern_eq, apKern_eq, e1, e2]
    generalize t / h = s
    split_ifs <;> first | (exfalso; linarith) | norm_num | skip
    unfold triweight; ring

/-! ### The mask -/

theorem rowLoop (apRad : ℝ) (ny : ℕ) (m : ℕ → ℕ → ℝ) (r c : ℕ) : ∀ j ≤ ny, r < ny →
    (List.range j).foldl (apRowStep apRad ny) m r c =
      m r c * (if r < j then apKern r (apRange apRad) apRad else 1) *
        (if ny - 1 - r < j then apKern (ny - 1 - r : ℕ) (apRange apRad) apRad else 1) := by
  intro j
  induction j with
  | zero => intro _ _; simp
  | succ j ih =>
      intro hj hr
      rw [List.range_succ, List.foldl_append, List.foldl_cons, List.foldl_nil]
      have hih := ih (by omega) hr
      generalize (List.range j).foldl (apRowStep apRad ny) m = g at hih ⊢
      unfold apRowStep
      simp only
      rw [hih]
      have hlt : ∀ a : ℕ, a < j + 1 ↔ a < j ∨ a = j := by omega
      have k1 : (if r < j + 1 then apKern r (apRange apRad) apRad else 1) =
          (if r < j then apKern r (apRange apRad) apRad else 1) * (if r = j then apKern j (apRange apRad) apRad else 1) := by
        by_cases h1 : r = j
        · subst h1; simp
        · by_cases h2 : r < j
          · rw [if_pos (by omega), if_pos h2, if_neg h1, mul_one]
          · rw [if_neg (by omega), if_neg h2, if_neg h1, mul_one]
      have k2 : (if ny - 1 - r < j + 1 then apKern (ny - 1 - r : ℕ) (apRange apRad) apRad else 1) =
          (if ny - 1 - r < j then apKern (ny - 1 - r : ℕ) (apRange apRad) apRad else 1) *
            (if r = ny - 1 - j then apKern j (apRange apRad) apRad else 1) := by
        by_cases h1 : r = ny - 1 - j
        · have : ny - 1 - r = j := by omega
          rw [this, if_pos (by omega), if_neg (by omega), if_pos h1, one_mul]
        · by_cases h2 : ny - 1 - r < j
          · rw [if_pos (by omega), if_pos h2, if_neg h1, mul_one]
          · rw [if_neg (by omega), if_neg h2, if_neg h1, mul_one]
      rw [k1, k2]
      split_ifs <;> ring

theorem colLoop (apRad : ℝ) (nx : ℕ) (m : ℕ → ℕ → ℝ) (r c : ℕ) : ∀ j ≤ nx, c < nx →
    (List.range j).foldl (apColStep apRad nx) m r c =
      m r c * (if c < j then apKern c (apRange apRad) apRad else 1) *
        (if nx - 1 - c < j then apKern (nx - 1 - c : ℕ) (apRange apRad) apRad else 1) := by
  intro j
  induction j with
  | zero => intro _ _; simp
  | succ j ih =>
      intro hj hr
      rw [List.range_succ, List.foldl_append, List.foldl_cons, List.foldl_nil]
      have hih := ih (by omega) hr
      generalize (List.range j).foldl (apColStep apRad nx) m = g at hih ⊢
      unfold apColStep
      simp only
      rw [hih]
      have k1 : (if c < j + 1 then apKern c (apRange apRad) apRad else 1) =
          (if c < j then apKern c (apRange apRad) apRad else 1) * (if c = j then apKern j (apRange apRad) apRad else 1) := by
        by_cases h1 : c = j
        · subst h1; simp
        · by_cases h2 : c < j
          · rw [if_pos (by omega), if_pos h2, if_neg h1, mul_one]
          · rw [if_neg (by omega), if_neg h2, if_neg h1, mul_one]
      have k2 : (if nx - 1 - c < j + 1 then apKern (nx - 1 - c : ℕ) (apRange apRad) apRad else 1) =
          (if nx - 1 - c < j then apKern (nx - 1 - c : ℕ) (apRange apRad) apRad else 1) *
            (if c = nx - 1 - j then apKern j (apRange apRad) apRad else 1) := by
        by_cases h1 : c = nx - 1 - j
        · have : nx - 1 - c = j := by omega
          rw [this, if_pos (by omega), if_neg (by omega), if_pos h1, one_mul]
        · by_cases h2 : nx - 1 - c < j
          · rw [if_pos (by omega), if_pos h2, if_neg h1, mul_one]
          · rw [if_neg (by omega), if_neg h2, if_neg h1, mul_one]
      rw [k1, k2]
      split_ifs <;> ring

theorem apKern_beyond (apRad : ℝ) (h : 0 < apRad) (n r : ℕ) (hr : r < n) :
    (if r < min (apRange apRad + 1) n then apKern r (apRange apRad) apRad else 1) = apKern r (apRange apRad) apRad := by
  split_ifs with h1
  · rfl
  · rw [(C59_profile (apRange apRad) apRad h).2.2.2.1 r (by
      have : apRange apRad + 1 ≤ r := by
        by_contra hc
        exact h1 (lt_min (not_le.1 hc) hr)
      exact_mod_cast (by omega : apRange apRad ≤ r))]

/-- C59.  The apodization mask is, at every pixel, the product of the profile at its distances from the four edges; it lies
between zero and one, is unchanged by turning the image over in either direction, and is one at every pixel at least
`int(6 ap_rad + 1/2)` from every edge. -/
theorem C59_mask (apRad : ℝ) (h : 0 < apRad) (ny nx r c : ℕ) (hr : r < ny) (hc : c < nx) :
    apMask apRad ny nx r c = apKern r (apRange apRad) apRad * apKern (ny - 1 - r : ℕ) (apRange apRad) apRad *
      (apKern c (apRange apRad) apRad * apKern (nx - 1 - c : ℕ) (apRange apRad) apRad) ∧
    0 ≤ apMask apRad ny nx r c ∧ apMask apRad ny nx r c ≤ 1 ∧
    apMask apRad ny nx (ny - 1 - r) c = apMask apRad ny nx r c ∧
    apMask apRad ny nx r (nx - 1 - c) = apMask apRad ny nx r c ∧
    (apRange apRad ≤ r → apRange apRad ≤ ny - 1 - r → apRange apRad ≤ c → apRange apRad ≤ nx - 1 - c →
      apMask apRad ny nx r c = 1) := by
  have key : ∀ r c, r < ny → c < nx → apMask apRad ny nx r c =
      apKern r (apRange apRad) apRad * apKern (ny - 1 - r : ℕ) (apRange apRad) apRad *
        (apKern c (apRange apRad) apRad * apKern (nx - 1 - c : ℕ) (apRange apRad) apRad) := by
    intro r c hr hc
    unfold apMask
    rw [colLoop apRad nx _ r c _ (min_le_right _ _) hc, rowLoop apRad ny _ r c _ (min_le_right _ _) hr,
      apKern_beyond apRad h ny r hr, apKern_beyond apRad h ny _ (by omega), apKern_beyond apRad h nx c hc,
      apKern_beyond apRad h nx _ (by omega)]
    ring
  have R := fun x => apKern_range x (apRange apRad) apRad
  refine ⟨key r c hr hc, ?_, ?_, ?_, ?_, ?_⟩
  · rw [key r c hr hc]
    exact mul_nonneg (mul_nonneg (R _).1 (R _).1) (mul_nonneg (R _).1 (R _).1)
  · rw [key r c hr hc]
    have h1 := mul_le_one₀ (R r).2 (R (ny - 1 - r : ℕ)).1 (R (ny - 1 - r : ℕ)).2
    have h2 := mul_le_one₀ (R c).2 (R (nx - 1 - c : ℕ)).1 (R (nx - 1 - c : ℕ)).2
    exact mul_le_one₀ h1 (mul_nonneg (R _).1 (R _).1) h2
  · rw [key _ c (by omega) hc, key r c hr hc, show ny - 1 - (ny - 1 - r) = r by omega]
    ring
  · rw [key r _ hr (by omega), key r c hr hc, show nx - 1 - (nx - 1 - c) = c by omega]
    ring
  · intro h1 h2 h3 h4
    have O : ∀ a : ℕ, apRange apRad ≤ a → apKern a (apRange apRad) apRad = 1 := fun a ha =>
      (C59_profile (apRange apRad) apRad h).2.2.2.1 a (by exact_mod_cast ha)
    rw [key r c hr hc, O r h1, O _ h2, O c h3, O _ h4]
    norm_num

/-- C59.  Apodizing multiplies by the mask, and does nothing when the radius is not positive. -/
theorem C59_apodize (apRad : ℝ) (im : Image) :
    (apRad ≤ 0 → apodize apRad im = im) ∧
    (0 < apRad → (apodize apRad im).nrow = im.nrow ∧ (apodize apRad im).ncol = im.ncol ∧
      ∀ r c, (apodize apRad im).get r c = im.get r c * apMask apRad im.nrow im.ncol r c) := by
  unfold apodize
  exact ⟨fun h => if_neg (not_lt.2 h), fun h => by rw [if_pos h]; exact ⟨rfl, rfl, fun _ _ => rfl⟩⟩

/-- The range of the default radius is nine pixels; a 30 by 30 stamp has an untouched middle. -/
theorem apRange_default : apRange 1.5 = 9 := by
  unfold apRange pyInt
  rw [if_neg (by norm_num), show ((6 : ℝ) * 1.5 + 0.5) = 9.5 by norm_num, show ⌊(9.5 : ℝ)⌋ = 9 by
    rw [Int.floor_eq_iff]; norm_num]
  rfl

example : apMask 1.5 30 30 15 12 = 1 := by
  have h := apRange_default
  exact (C59_mask 1.5 (by norm_num) 30 30 15 12 (by norm_num) (by norm_num)).2.2.2.2.2 (by omega) (by omega) (by omega)
    (by omega)

example : ∃ pim b a, zeroPadImage ⟨5, 5, fun r c => r + c⟩ 8 = .ok (pim, b, a) ∧ pim.get 2 3 = 3 := by
  obtain ⟨pim, b, a, h1, h2⟩ := (C59_pad ⟨5, 5, fun r c => r + c⟩ 8).2 (by norm_num)
  refine ⟨pim, b, a, h1, ?_⟩
  have hb : b = 1 := by
    have := h2.balance; have := h2.odd
    simp only at *
    omega
  have := h2.inside 1 (by norm_num) 2 (by norm_num)
  rw [hb] at this
  simp only [Int.toNat_one] at this
  rw [this]; norm_num

end Ngmix.Props
