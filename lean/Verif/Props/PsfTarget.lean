import Verif.Spec.PsfTarget
import Mathlib.Tactic.Linarith
import Mathlib.Tactic.FieldSimp
import Mathlib.Tactic.LinearCombination
import Mathlib.Tactic.Positivity
import Mathlib.Analysis.SpecialFunctions.Exp
import Mathlib.Analysis.SpecialFunctions.Log.Basic

/-! C56, C70: the reconvolution psfs of metacal. -/

namespace Ngmix.Props

open Ngmix Ngmix.Spec

/-! ### The largest eigenvalue -/

theorem maxEig_major (irr irc icc : ℝ) : IsMajorVariance irr irc icc (maxEig irr irc icc) := by
  unfold maxEig
  set A := (irr - icc) / 2 with hA
  set S := (irr + icc) / 2 with hS
  have e1 : irr = S + A := by rw [hA, hS]; ring
  have e2 : icc = S - A := by rw [hA, hS]; ring
  have hR0 : 0 ≤ Real.sqrt (A ^ 2 + irc ^ 2) := Real.sqrt_nonneg _
  have hR2 : Real.sqrt (A ^ 2 + irc ^ 2) ^ 2 = A ^ 2 + irc ^ 2 := Real.sq_sqrt (by positivity)
  generalize Real.sqrt (A ^ 2 + irc ^ 2) = R at hR0 hR2
  constructor
  · intro x y h
    have key : (A * (x ^ 2 - y ^ 2) + irc * (2 * x * y)) ^ 2 ≤ R ^ 2 := by
      have : (x ^ 2 - y ^ 2) ^ 2 + (2 * x * y) ^ 2 = 1 := by
        have : (x ^ 2 - y ^ 2) ^ 2 + (2 * x * y) ^ 2 = (x ^ 2 + y ^ 2) ^ 2 := by ring
        rw [this, h]; ring
      nlinarith [sq_nonneg (A * (2 * x * y) - irc * (x ^ 2 - y ^ 2))]
    have := abs_le_of_sq_le_sq' key hR0
    have heq : irr * x ^ 2 + 2 * irc * x * y + icc * y ^ 2 =
        S * (x ^ 2 + y ^ 2) + (A * (x ^ 2 - y ^ 2) + irc * (2 * x * y)) := by
      rw [e1, e2]; ring
    rw [heq, h]
    linarith [this.2]
  · rcases hR0.eq_or_lt with h0 | hpos
    · have hA0 : A = 0 := by nlinarith [sq_nonneg A, sq_nonneg irc]
      have hB0 : irc = 0 := by nlinarith [sq_nonneg A, sq_nonneg irc]
      refine ⟨1, 0, by norm_num, ?_⟩
      rw [e1, hA0, hB0, ← h0]; ring
    · have hle : |A| ≤ R := abs_le_of_sq_le_sq (by nlinarith [sq_nonneg irc]) hR0
      have h1 : 0 ≤ (1 + A / R) / 2 := by
        have : -1 ≤ A / R := by rw [le_div_iff₀ hpos]; linarith [neg_abs_le A]
        linarith
      have h2 : 0 ≤ (1 - A / R) / 2 := by
        have : A / R ≤ 1 := by rw [div_le_iff₀ hpos]; linarith [le_abs_self A]
        linarith
      have hs1 := Real.sq_sqrt h1
      have hs2 := Real.sq_sqrt h2
      have hprod : Real.sqrt ((1 + A / R) / 2) * Real.sqrt ((1 - A / R) / 2) = |irc| / (2 * R) := by
        rw [← Real.sqrt_mul h1]
        have : (1 + A / R) / 2 * ((1 - A / R) / 2) = (|irc| / (2 * R)) ^ 2 := by
          rw [div_pow, sq_abs]
          field_simp
          linarith
        rw [this, Real.sqrt_sq (by positivity)]
      generalize Real.sqrt ((1 + A / R) / 2) = u at hs1 hprod
      generalize Real.sqrt ((1 - A / R) / 2) = v at hs2 hprod
      have hsum : u ^ 2 + v ^ 2 = 1 := by rw [hs1, hs2]; ring
      have hdif : u ^ 2 - v ^ 2 = A / R := by rw [hs1, hs2]; ring
      have hRne : R ≠ 0 := ne_of_gt hpos
      have hfin : ∀ B : ℝ, irc * (2 * B) = irc ^ 2 / R → A * (A / R) + irc * (2 * B) = R := by
        intro B hB
        rw [hB]; field_simp; linarith
      rcases le_total 0 irc with hi | hi
      · refine ⟨u, v, hsum, ?_⟩
        have := hfin (u * v) (by rw [hprod, abs_of_nonneg hi]; field_simp)
        rw [e1, e2]
        have hx : (S + A) * u ^ 2 + 2 * irc * u * v + (S - A) * v ^ 2 =
            S * (u ^ 2 + v ^ 2) + (A * (u ^ 2 - v ^ 2) + irc * (2 * (u * v))) := by ring
        rw [hx, hsum, hdif, this]; ring
      · refine ⟨u, -v, by rw [← hsum]; ring, ?_⟩
        have := hfin (-(u * v)) (by rw [hprod, abs_of_nonpos hi]; field_simp)
        rw [e1, e2]
        have hx : (S + A) * u ^ 2 + 2 * irc * u * -v + (S - A) * (-v) ^ 2 =
            S * (u ^ 2 + v ^ 2) + (A * (u ^ 2 - v ^ 2) + irc * (2 * -(u * v))) := by ring
        rw [hx, hsum, hdif, this]; ring

theorem maxEig_e2mom (e1 e2 T : ℝ) :
    maxEig (e2mom e1 e2 T).1 (e2mom e1 e2 T).2.1 (e2mom e1 e2 T).2.2 =
      T / 2 + |T| / 2 * Real.sqrt (e1 ^ 2 + e2 ^ 2) := by
  unfold maxEig e2mom
  simp only
  have h : (((1 - e1) * T / 2 - (1 + e1) * T / 2) / 2) ^ 2 + (e2 * T / 2) ^ 2 = (|T| / 2) ^ 2 * (e1 ^ 2 + e2 ^ 2) := by
    rw [div_pow |T|, sq_abs]; ring
  rw [h, Real.sqrt_mul (by positivity), Real.sqrt_sq (by positivity)]
  ring

theorem ratio_eq (e1 e2 T : ℝ) (hT : T ≠ 0) :
    maxEig (e2mom e1 e2 T).1 (e2mom e1 e2 T).2.1 (e2mom e1 e2 T).2.2 / (T / 2.0) =
      1 + (|T| / T) * Real.sqrt (e1 ^ 2 + e2 ^ 2) := by
  rw [maxEig_e2mom, show (2.0 : ℝ) = 2 by norm_num]
  field_simp

/-- C56.  For a psf of positive size the dilation from the fitted shape is `2 sqrt(1+|e|) - 1`, but at most 1.1; it is at
least 1, and exactly 1 for a round psf only. -/
theorem C56_dilation (e1 e2 T : ℝ) (hT : 0 < T) :
    ∃ d, getEllipDilation e1 e2 T = some d ∧ d = min 1.1 (2 * Real.sqrt (1 + Real.sqrt (e1 ^ 2 + e2 ^ 2)) - 1) ∧
      1 ≤ d ∧ d ≤ 1.1 ∧ (d = 1 ↔ e1 = 0 ∧ e2 = 0) := by
  classical
  have h0 : 0 ≤ Real.sqrt (e1 ^ 2 + e2 ^ 2) := Real.sqrt_nonneg _
  have hr : maxEig (e2mom e1 e2 T).1 (e2mom e1 e2 T).2.1 (e2mom e1 e2 T).2.2 / (T / 2.0) =
      1 + Real.sqrt (e1 ^ 2 + e2 ^ 2) := by
    rw [ratio_eq e1 e2 T hT.ne', abs_of_pos hT, div_self hT.ne', one_mul]
  have hround : Real.sqrt (e1 ^ 2 + e2 ^ 2) = 0 ↔ e1 = 0 ∧ e2 = 0 := by
    rw [Real.sqrt_eq_zero (by positivity)]
    constructor
    · intro h
      exact ⟨by nlinarith [sq_nonneg e1, sq_nonneg e2], by nlinarith [sq_nonneg e1, sq_nonneg e2]⟩
    · rintro ⟨rfl, rfl⟩; norm_num
  have hs1 : 1 ≤ Real.sqrt (1 + Real.sqrt (e1 ^ 2 + e2 ^ 2)) := by
    rw [Real.one_le_sqrt]; linarith
  have hsq := Real.sq_sqrt (show 0 ≤ 1 + Real.sqrt (e1 ^ 2 + e2 ^ 2) by linarith)
  refine ⟨min 1.1 (2 * Real.sqrt (1 + Real.sqrt (e1 ^ 2 + e2 ^ 2)) - 1), ?_, rfl, ?_, min_le_left _ _, ?_⟩
  · unfold getEllipDilation
    simp only [if_neg hT.ne', hr]
    unfold npSqrt
    rw [if_neg (by linarith)]
    simp only [Option.map_some, Option.some.injEq]
    have he : (1.0 : ℝ) + 2 * (Real.sqrt (1 + Real.sqrt (e1 ^ 2 + e2 ^ 2)) - 1.0) =
        2 * Real.sqrt (1 + Real.sqrt (e1 ^ 2 + e2 ^ 2)) - 1 := by
      rw [show (1.0 : ℝ) = 1 by norm_num]; ring
    rw [he]
    split_ifs with h
    · rw [min_eq_left h.le]
    · rw [min_eq_right (not_lt.1 h)]
  · refine le_min (by norm_num) (by linarith)
  · rw [← hround]
    constructor
    · intro h
      have : 2 * Real.sqrt (1 + Real.sqrt (e1 ^ 2 + e2 ^ 2)) - 1 = 1 := by
        rcases min_choice (1.1 : ℝ) (2 * Real.sqrt (1 + Real.sqrt (e1 ^ 2 + e2 ^ 2)) - 1) with hm | hm
        · rw [hm] at h; norm_num at h
        · rw [hm] at h; exact h
      have h1 : Real.sqrt (1 + Real.sqrt (e1 ^ 2 + e2 ^ 2)) = 1 := by linarith
      rw [h1] at hsq; linarith
    · intro h
      rw [h]; norm_num

/-- C56.  For a psf of negative size the same code gives a dilation of at most 1, and NaN when `|e| > 1`; for size zero
NaN. -/
theorem C56_nonpositive_size (e1 e2 T : ℝ) (hT : T ≤ 0) :
    (T = 0 → getEllipDilation e1 e2 T = none) ∧
    (T < 0 → 1 < Real.sqrt (e1 ^ 2 + e2 ^ 2) → getEllipDilation e1 e2 T = none) ∧
    (T < 0 → Real.sqrt (e1 ^ 2 + e2 ^ 2) ≤ 1 →
      getEllipDilation e1 e2 T = some (2 * Real.sqrt (1 - Real.sqrt (e1 ^ 2 + e2 ^ 2)) - 1) ∧
      2 * Real.sqrt (1 - Real.sqrt (e1 ^ 2 + e2 ^ 2)) - 1 ≤ 1) := by
  classical
  have h0 : 0 ≤ Real.sqrt (e1 ^ 2 + e2 ^ 2) := Real.sqrt_nonneg _
  have hr : T < 0 → maxEig (e2mom e1 e2 T).1 (e2mom e1 e2 T).2.1 (e2mom e1 e2 T).2.2 / (T / 2.0) =
      1 - Real.sqrt (e1 ^ 2 + e2 ^ 2) := by
    intro h
    rw [ratio_eq e1 e2 T h.ne, abs_of_neg h, neg_div, div_self h.ne]; ring
  refine ⟨fun h => ?_, fun h h1 => ?_, fun h h1 => ?_⟩
  · unfold getEllipDilation; rw [if_pos h]
  · unfold getEllipDilation npSqrt
    simp only [if_neg h.ne, hr h]
    rw [if_pos (by linarith)]; rfl
  · have hs : Real.sqrt (1 - Real.sqrt (e1 ^ 2 + e2 ^ 2)) ≤ 1 := by
      exact Real.sqrt_le_one.2 (by linarith)
    refine ⟨?_, by linarith⟩
    unfold getEllipDilation npSqrt
    simp only [if_neg h.ne, hr h]
    rw [if_neg (by linarith)]
    simp only [Option.map_some, Option.some.injEq]
    have he : (1.0 : ℝ) + 2 * (Real.sqrt (1 - Real.sqrt (e1 ^ 2 + e2 ^ 2)) - 1.0) =
        2 * Real.sqrt (1 - Real.sqrt (e1 ^ 2 + e2 ^ 2)) - 1 := by
      rw [show (1.0 : ℝ) = 1 by norm_num]; ring
    rw [he, if_neg (by norm_num; linarith)]

/-- C56.  The fitted round target lies between the mean size of the psf and its major axis: its squared width is
`T*dilation/2`, at least `T/2`, and at most the variance along the major axis, strictly less unless the psf is round.  (The
dilation, a ratio of lengths, is applied to `T`, a squared length.) -/
theorem C56_fit_target (e1 e2 T : ℝ) (hT : 0 < T) :
    ∃ s lam, fitSigma e1 e2 T = some s ∧ 0 < s ∧
      IsMajorVariance (e2mom e1 e2 T).1 (e2mom e1 e2 T).2.1 (e2mom e1 e2 T).2.2 lam ∧
      (∃ d, getEllipDilation e1 e2 T = some d ∧ s ^ 2 = T * d / 2) ∧
      T / 2 ≤ s ^ 2 ∧ s ^ 2 ≤ lam ∧ (¬ (e1 = 0 ∧ e2 = 0) → s ^ 2 < lam) := by
  classical
  obtain ⟨d, hd, hmin, h1, h2, h3⟩ := C56_dilation e1 e2 T hT
  have hpos : 0 < T * d / 2 := by positivity
  refine ⟨Real.sqrt (T * d / 2), _, ?_, Real.sqrt_pos.2 hpos, maxEig_major _ _ _, ⟨d, hd, Real.sq_sqrt hpos.le⟩, ?_⟩
  · unfold fitSigma npSqrt
    rw [hd]
    simp only [Option.bind_some]
    rw [show (2.0 : ℝ) = 2 by norm_num, if_neg (by linarith)]
  · rw [Real.sq_sqrt hpos.le, maxEig_e2mom, abs_of_pos hT]
    have h0 : 0 ≤ Real.sqrt (e1 ^ 2 + e2 ^ 2) := Real.sqrt_nonneg _
    have hsq := Real.sq_sqrt (show 0 ≤ 1 + Real.sqrt (e1 ^ 2 + e2 ^ 2) by linarith)
    have hle : d ≤ 2 * Real.sqrt (1 + Real.sqrt (e1 ^ 2 + e2 ^ 2)) - 1 := by rw [hmin]; exact min_le_right _ _
    generalize Real.sqrt (e1 ^ 2 + e2 ^ 2) = e at *
    generalize Real.sqrt (1 + e) = q at *
    have hq : 2 * q - 1 ≤ 1 + e := by nlinarith [sq_nonneg (q - 1)]
    refine ⟨by nlinarith, by nlinarith, fun hne => ?_⟩
    have hd1 : d ≠ 1 := fun h => hne (h3.1 h)
    have hd1' : 1 < d := lt_of_le_of_ne h1 (Ne.symm hd1)
    have hq1 : 1 < q := by linarith
    have : 2 * q - 1 < 1 + e := by nlinarith [mul_pos (sub_pos.2 hq1) (sub_pos.2 hq1)]
    nlinarith

/-- C56.  Dilating by `1 + 2|g|` covers the stretching by a shear `g` along every direction, for `|g|² ≤ 1/2`; for larger
shears it does not. -/
theorem C56_shear_growth (g1 g2 : ℝ) (hg : g1 ^ 2 + g2 ^ 2 < 1) :
    (g1 ^ 2 + g2 ^ 2 ≤ 1 / 2 → ∀ x y : ℝ, (sheared g1 g2 x y).1 ^ 2 + (sheared g1 g2 x y).2 ^ 2 ≤
      (1 + 2 * Real.sqrt (g1 ^ 2 + g2 ^ 2)) ^ 2 * (x ^ 2 + y ^ 2)) ∧
    (1 / 2 < g1 ^ 2 + g2 ^ 2 → ∃ x y : ℝ, (1 + 2 * Real.sqrt (g1 ^ 2 + g2 ^ 2)) ^ 2 * (x ^ 2 + y ^ 2) <
      (sheared g1 g2 x y).1 ^ 2 + (sheared g1 g2 x y).2 ^ 2) := by
  have hg0 : 0 ≤ Real.sqrt (g1 ^ 2 + g2 ^ 2) := Real.sqrt_nonneg _
  have hg2 : Real.sqrt (g1 ^ 2 + g2 ^ 2) ^ 2 = g1 ^ 2 + g2 ^ 2 := Real.sq_sqrt (by positivity)
  have hd : 0 < 1 - (g1 ^ 2 + g2 ^ 2) := by linarith
  have hform : ∀ x y : ℝ, (sheared g1 g2 x y).1 ^ 2 + (sheared g1 g2 x y).2 ^ 2 =
      ((1 + (g1 ^ 2 + g2 ^ 2)) * (x ^ 2 + y ^ 2) + 2 * (g1 * x ^ 2 + 2 * g2 * x * y + -g1 * y ^ 2)) /
        (1 - (g1 ^ 2 + g2 ^ 2)) := by
    intro x y
    unfold sheared
    simp only
    rw [div_pow, div_pow, Real.sq_sqrt hd.le, ← add_div]
    congr 1; ring
  have hmaj := maxEig_major g1 g2 (-g1)
  have hme : maxEig g1 g2 (-g1) = Real.sqrt (g1 ^ 2 + g2 ^ 2) := by
    unfold maxEig
    rw [show (g1 + -g1) / 2 = 0 by ring, zero_add, show ((g1 - -g1) / 2) = g1 by ring]
  rw [hme] at hmaj
  generalize hgg : Real.sqrt (g1 ^ 2 + g2 ^ 2) = g at *
  rw [← hg2] at hd hform
  constructor
  · intro hh x y
    rw [hform, div_le_iff₀ hd]
    have hle : g1 * x ^ 2 + 2 * g2 * x * y + -g1 * y ^ 2 ≤ g * (x ^ 2 + y ^ 2) := by
      rcases (add_nonneg (sq_nonneg x) (sq_nonneg y)).eq_or_lt with h0 | hp
      · have hx : x = 0 := by nlinarith [sq_nonneg x, sq_nonneg y]
        have hy : y = 0 := by nlinarith [sq_nonneg x, sq_nonneg y]
        rw [hx, hy]; norm_num
      · set n := Real.sqrt (x ^ 2 + y ^ 2) with hn
        have hn0 : 0 < n := Real.sqrt_pos.2 hp
        have hn2 : n ^ 2 = x ^ 2 + y ^ 2 := Real.sq_sqrt hp.le
        have := hmaj.1 (x / n) (y / n) (by rw [div_pow, div_pow, ← add_div, hn2]; exact div_self hp.ne')
        have e : g1 * (x / n) ^ 2 + 2 * g2 * (x / n) * (y / n) + -g1 * (y / n) ^ 2 =
            (g1 * x ^ 2 + 2 * g2 * x * y + -g1 * y ^ 2) / n ^ 2 := by field_simp
        rw [e, div_le_iff₀ (by positivity), hn2] at this
        exact this
    have hN : 0 ≤ x ^ 2 + y ^ 2 := by positivity
    have hcoef : (1 + g) ^ 2 ≤ (1 + 2 * g) ^ 2 * (1 - g ^ 2) := by
      have hgl : g < 1 := by nlinarith
      have : 0 ≤ 2 * g - 4 * g ^ 3 := by
        have : 0 ≤ 2 * g * (1 - 2 * g ^ 2) := mul_nonneg (by linarith) (by linarith)
        nlinarith
      nlinarith [mul_nonneg this (show 0 ≤ 1 + g by linarith)]
    nlinarith [mul_le_mul_of_nonneg_right hcoef hN]
  · intro hh
    obtain ⟨x, y, hxy, hv⟩ := hmaj.2
    refine ⟨x, y, ?_⟩
    rw [hform, lt_div_iff₀ hd, hv, hxy]
    have hgpos : 0 < g := by nlinarith
    have : 0 < 4 * g ^ 3 - 2 * g := by
      have : 0 < 2 * g * (2 * g ^ 2 - 1) := mul_pos (by linarith) (by linarith)
      nlinarith
    nlinarith [mul_pos this (show 0 < 1 + g by linarith)]

/-! ### The gaussian target -/

theorem foldl_min_is_min (ks : List ℝ) : ∀ k : ℝ, ks.foldl min k ≤ k ∧ (∀ x ∈ ks, ks.foldl min k ≤ x) ∧
    (ks.foldl min k = k ∨ ks.foldl min k ∈ ks) := by
  induction ks with
  | nil => intro k; exact ⟨le_refl _, fun x hx => by simp at hx, Or.inl rfl⟩
  | cons a ks ih =>
      intro k
      obtain ⟨h1, h2, h3⟩ := ih (min k a)
      refine ⟨h1.trans (min_le_left _ _), fun x hx => ?_, ?_⟩
      · rcases List.mem_cons.1 hx with rfl | hx
        · exact h1.trans (min_le_right _ _)
        · exact h2 x hx
      · rcases h3 with h3 | h3
        · rcases min_choice k a with h | h
          · left; rw [List.foldl_cons, h3, h]
          · right; rw [List.foldl_cons, h3, h]; exact List.mem_cons_self
        · right; exact List.mem_cons_of_mem _ h3

theorem ksqMax_spec (flux : ℝ) (modes : List (ℝ × ℝ)) :
    ((∀ m ∈ modes, ¬ m.2 < 0.01 * flux) → ksqMax flux modes = .error .value) ∧
    ((∃ m ∈ modes, m.2 < 0.01 * flux) → ∃ k, ksqMax flux modes = .ok k ∧
      (∃ m ∈ modes, m.2 < 0.01 * flux ∧ m.1 = k) ∧ ∀ m ∈ modes, m.2 < 0.01 * flux → k ≤ m.1) := by
  classical
  have hc : (1e-2 : ℝ) = 0.01 := by norm_num
  unfold ksqMax
  constructor
  · intro h
    rw [hc]
    have : (modes.filter fun m => decide (m.2 < 0.01 * flux)) = [] := by
      rw [List.filter_eq_nil_iff]
      intro m hm
      simpa using h m hm
    rw [this]; rfl
  · rintro ⟨m0, hm0, hlt0⟩
    have hmem : ∀ k, k ∈ (modes.filter fun m => decide (m.2 < 0.01 * flux)).map Prod.fst ↔
        ∃ m ∈ modes, m.2 < 0.01 * flux ∧ m.1 = k := by
      intro k
      simp only [List.mem_map, List.mem_filter, decide_eq_true_eq]
      constructor
      · rintro ⟨m, ⟨h1, h2⟩, h3⟩; exact ⟨m, h1, h2, h3⟩
      · rintro ⟨m, h1, h2, h3⟩; exact ⟨m, ⟨h1, h2⟩, h3⟩
    rcases hl : (modes.filter fun m => decide (m.2 < 0.01 * flux)).map Prod.fst with _ | ⟨k, ks⟩
    · rw [hl] at hmem
      have := (hmem m0.1).2 ⟨m0, hm0, hlt0, rfl⟩
      simp at this
    · obtain ⟨h1, h2, h3⟩ := foldl_min_is_min ks k
      rw [hl] at hmem
      refine ⟨ks.foldl min k, by rw [hc, hl], (hmem _).1 ?_, fun m hm hlt => ?_⟩
      · rcases h3 with h3 | h3
        · rw [h3]; exact List.mem_cons_self
        · exact List.mem_cons_of_mem _ h3
      · rcases List.mem_cons.1 ((hmem m.1).2 ⟨m, hm, hlt, rfl⟩) with h | h
        · rw [h]; exact h1
        · exact h2 _ h

/-- C56.  The gaussian target: there is none (`ValueError`) exactly when the psf's amplitude is nowhere below 1% of its
flux; otherwise its Fourier amplitude is at most 0.3% at every mode where the psf's is below 1%, and exactly 0.3% at the
first such mode. -/
theorem C56_gauss_target (flux : ℝ) (modes : List (ℝ × ℝ)) (hk : ∀ m ∈ modes, m.2 < 0.01 * flux → 0 < m.1) :
    ((∀ m ∈ modes, ¬ m.2 < 0.01 * flux) → gaussTargetSigmaSq flux modes = .error .value) ∧
    ((∃ m ∈ modes, m.2 < 0.01 * flux) → ∃ s2, gaussTargetSigmaSq flux modes = .ok (some s2) ∧ 0 < s2 ∧
      (∀ m ∈ modes, m.2 < 0.01 * flux → gaussAmp s2 m.1 ≤ 0.003) ∧
      ∃ m ∈ modes, m.2 < 0.01 * flux ∧ gaussAmp s2 m.1 = 0.003 ∧
        ∀ m' ∈ modes, m'.1 < m.1 → 0.01 * flux ≤ m'.2) := by
  classical
  obtain ⟨h1, h2⟩ := ksqMax_spec flux modes
  constructor
  · intro h; unfold gaussTargetSigmaSq; rw [h1 h]; rfl
  · intro h
    obtain ⟨k, hkk, ⟨m0, hm0, hlt0, rfl⟩, hmin⟩ := h2 h
    have hpos := hk m0 hm0 hlt0
    have hlog : Real.log 0.003 < 0 := Real.log_neg (by norm_num) (by norm_num)
    have hexp : Real.exp (Real.log 0.003) = 0.003 := Real.exp_log (by norm_num)
    refine ⟨-2.0 * Real.log 3e-3 / m0.1, ?_, ?_, ?_, m0, hm0, hlt0, ?_, ?_⟩
    · unfold gaussTargetSigmaSq
      rw [hkk]
      simp only [Except.map, if_neg hpos.ne']
    · rw [show (3e-3 : ℝ) = 0.003 by norm_num]
      apply div_pos _ hpos
      norm_num
      linarith [hlog]
    · intro m hm hlt
      unfold gaussAmp
      rw [show (3e-3 : ℝ) = 0.003 by norm_num, show (2.0 : ℝ) = 2 by norm_num]
      conv_rhs => rw [← hexp]
      apply Real.exp_le_exp.2
      have hge := hmin m hm hlt
      have hq : 1 ≤ m.1 / m0.1 := by rw [le_div_iff₀ hpos]; linarith
      have he : -(m.1 * (-2 * Real.log 0.003 / m0.1)) / 2 = m.1 / m0.1 * Real.log 0.003 := by field_simp
      rw [he]
      nlinarith
    · unfold gaussAmp
      rw [show (3e-3 : ℝ) = 0.003 by norm_num, show (2.0 : ℝ) = 2 by norm_num]
      conv_rhs => rw [← hexp]
      congr 1
      field_simp
    · intro m' hm' hlt'
      by_contra hc
      exact absurd (hmin m' hm' (lt_of_not_ge hc)) (not_le.2 hlt')

/-! ### The fallback chain of the psf fit -/

section Chain

variable {σ Guess R G : Type} (ops : ResOps R G) (admom ml : FitSetup σ Guess R) (shapeOf : R → ℝ × ℝ × ℝ) (ngauss : G → ℕ)
  (gmShape : G → Except PyErr (ℝ × ℝ × ℝ)) (p : ℕ) (w : World σ Guess) (h : Heap R G)

/-- C70.  When adaptive moments succeed within four tries they alone decide the target, the maximum likelihood fitter is
not run, and the caller's psf observation is left with this result and, if the result has one, its mixture instead of the
one it had. -/
theorem C70_admom (hp : (h.cell p).psf = none) (w1 : World σ Guess) (r : R)
    (hfit : runFitter ops admom p 4 w = (w1, .ok r)) (hr : ops.flags r = 0) :
    (∀ e, ops.getGmix r ≠ some (.error e)) →
    ∃ h', doPsfFit ops admom ml shapeOf ngauss gmShape p (w, h) =
        ((w1, h'), .ok (fitSigma (shapeOf r).1 (shapeOf r).2.1 (shapeOf r).2.2)) ∧
      h'.result p = some r ∧ (∀ g, ops.getGmix r = some (.ok g) → (h'.cell p).gmix = some g) ∧
      (ops.getGmix r = none → (h'.cell p).gmix = (h.cell p).gmix) ∧ (∀ q, q ≠ p → h'.cell q = h.cell q) ∧
      ∀ d, d ≠ (h.cell p).md → h'.entry d = h.entry d := by
  intro hne
  have ht : fitTarget h p = p := by unfold fitTarget; rw [hp]; rfl
  unfold doPsfFit runPsfObs
  simp only [ht, hfit, if_true]
  rcases hg : ops.getGmix r with _ | e | g
  · simp only [if_pos hr]
    exact ⟨_, rfl, by simp [Heap.result, Heap.setResult], fun g h => (by cases h), fun _ => rfl, fun q hq => rfl,
      fun d hd => (by simp [Heap.setResult, hd])⟩
  · exact absurd hg (hne e)
  · simp only [if_pos hr]
    exact ⟨_, rfl, by simp [Heap.result, Heap.setResult, Heap.setGmix],
      fun g' h => (by injection h with h; injection h with h; rw [← h]; simp [Heap.setGmix]), fun h => (by cases h),
      fun q hq => (by simp [Heap.setResult, Heap.setGmix, hq]), fun d hd => (by simp [Heap.setResult, Heap.setGmix, hd])⟩

/-- What the second stage leaves: only the failed adaptive moments result is stored. -/
theorem doPsfFit_second (hp : (h.cell p).psf = none) (w1 w2 : World σ Guess) (r r2 : R)
    (hfit : runFitter ops admom p 4 w = (w1, .ok r)) (hr : ops.flags r ≠ 0)
    (hml : runFitter ops ml p 4 w1 = (w2, .ok r2)) :
    doPsfFit ops admom ml shapeOf ngauss gmShape p (w, h) =
      ((w2, h.setResult p r),
        doPsfFit.finish ops ngauss gmShape p (h.setResult p r) r2) := by
  have ht : fitTarget h p = p := by unfold fitTarget; rw [hp]; rfl
  have ht' : fitTarget (h.setResult p r) p = p := by
    unfold fitTarget Heap.setResult; rw [hp]; rfl
  unfold doPsfFit runPsfObs
  simp only [ht, hfit, if_true, if_neg hr, ht', hml, Bool.false_eq_true, if_false]

/-- C70.  When adaptive moments fail, the maximum likelihood fit decides; its result is not stored, and the psf keeps the
mixture it had. -/
theorem C70_maximum_likelihood (hp : (h.cell p).psf = none) (w1 w2 : World σ Guess) (r r2 : R) (g : G)
    (hfit : runFitter ops admom p 4 w = (w1, .ok r)) (hr : ops.flags r ≠ 0)
    (hml : runFitter ops ml p 4 w1 = (w2, .ok r2)) (hr2 : ops.flags r2 = 0) (hg : ops.getGmix r2 = some (.ok g)) :
    ∃ h', (doPsfFit ops admom ml shapeOf ngauss gmShape p (w, h)).1 = (w2, h') ∧
      (h'.cell p).gmix = (h.cell p).gmix ∧ h'.result p = some r ∧ h'.cell = h.cell ∧ (∀ d, d ≠ (h.cell p).md → h'.entry d = h.entry d) ∧
      (∀ e1 e2 T, gmShape g = .ok (e1, e2, T) →
        (doPsfFit ops admom ml shapeOf ngauss gmShape p (w, h)).2 = .ok (fitSigma e1 e2 T)) ∧
      (gmShape g = .error .gmixRange →
        (doPsfFit ops admom ml shapeOf ngauss gmShape p (w, h)).2 = .error .bootPSF) := by
  rw [doPsfFit_second ops admom ml shapeOf ngauss gmShape p w h hp w1 w2 r r2 hfit hr hml]
  refine ⟨_, rfl, rfl, by simp [Heap.result, Heap.setResult], rfl,
    fun d hd => by simp [Heap.setResult, hd], fun e1 e2 T he => ?_, fun he => ?_⟩
  · unfold doPsfFit.finish
    simp only [if_pos hr2, hg, Except.bind, he]
  · unfold doPsfFit.finish
    simp only [if_pos hr2, hg, Except.bind, he]

/-- C70.  When both fits fail, a mixture of exactly one gaussian the psf already had is used; without one the
construction raises `BootPSFFailure`. -/
theorem C70_last_resort (hp : (h.cell p).psf = none) (w1 w2 : World σ Guess) (r r2 : R)
    (hfit : runFitter ops admom p 4 w = (w1, .ok r)) (hr : ops.flags r ≠ 0)
    (hml : runFitter ops ml p 4 w1 = (w2, .ok r2)) (hr2 : ops.flags r2 ≠ 0) :
    (∀ g e1 e2 T, (h.cell p).gmix = some g → ngauss g = 1 → gmShape g = .ok (e1, e2, T) →
      (doPsfFit ops admom ml shapeOf ngauss gmShape p (w, h)).2 = .ok (fitSigma e1 e2 T)) ∧
    (∀ g, (h.cell p).gmix = some g → ngauss g = 1 → gmShape g = .error .gmixRange →
      (doPsfFit ops admom ml shapeOf ngauss gmShape p (w, h)).2 = .error .bootPSF) ∧
    ((h.cell p).gmix = none ∨ (∃ g, (h.cell p).gmix = some g ∧ ngauss g ≠ 1) →
      (doPsfFit ops admom ml shapeOf ngauss gmShape p (w, h)).2 = .error .bootPSF) := by
  rw [doPsfFit_second ops admom ml shapeOf ngauss gmShape p w h hp w1 w2 r r2 hfit hr hml]
  have hgm : ((h.setResult p r).cell p).gmix = (h.cell p).gmix := rfl
  generalize h.setResult p r = h' at hgm ⊢
  refine ⟨fun g e1 e2 T hg hn hs => ?_, fun g hg hn hs => ?_, fun hc => ?_⟩
  · unfold doPsfFit.finish
    simp only [if_neg hr2, hgm, hg, if_pos hn, Except.bind, hs]
  · unfold doPsfFit.finish
    simp only [if_neg hr2, hgm, hg, if_pos hn, Except.bind, hs]
  · unfold doPsfFit.finish
    rcases hc with hc | ⟨g, hc, hn⟩
    · simp only [if_neg hr2, hgm, hc, Except.bind]
    · simp only [if_neg hr2, hgm, hc, if_neg hn, Except.bind]

/-- C70.  An error raised by a fitter, a guesser or the mixture of a result is not caught. -/
theorem C70_errors (hp : (h.cell p).psf = none) (w1 : World σ Guess) (e : PyErr) :
    (runFitter ops admom p 4 w = (w1, .error e) →
      doPsfFit ops admom ml shapeOf ngauss gmShape p (w, h) = ((w1, h), .error e)) ∧
    (∀ w2 r, runFitter ops admom p 4 w = (w1, .ok r) → ops.flags r ≠ 0 → runFitter ops ml p 4 w1 = (w2, .error e) →
      (doPsfFit ops admom ml shapeOf ngauss gmShape p (w, h)).2 = .error e) ∧
    (∀ r, runFitter ops admom p 4 w = (w1, .ok r) → ops.flags r = 0 → ops.getGmix r = some (.error e) →
      (doPsfFit ops admom ml shapeOf ngauss gmShape p (w, h)).2 = .error e) ∧
    (∀ w2 r r2, runFitter ops admom p 4 w = (w1, .ok r) → ops.flags r ≠ 0 → runFitter ops ml p 4 w1 = (w2, .ok r2) →
      ops.flags r2 = 0 → ops.getGmix r2 = some (.error e) →
      (doPsfFit ops admom ml shapeOf ngauss gmShape p (w, h)).2 = .error e) := by
  have ht : fitTarget h p = p := by unfold fitTarget; rw [hp]; rfl
  refine ⟨?_, ?_, ?_, ?_⟩
  · intro hfit
    unfold doPsfFit runPsfObs
    simp only [ht, hfit]
  · intro w2 r hfit hr hml
    have ht' : fitTarget (h.setResult p r) p = p := by
      unfold fitTarget Heap.setResult; rw [hp]; rfl
    unfold doPsfFit runPsfObs
    simp only [ht, hfit, if_true, if_neg hr, ht', hml]
  · intro r hfit hr hg
    unfold doPsfFit runPsfObs
    simp only [ht, hfit, if_true, if_pos hr, hg]
  · intro w2 r r2 hfit hr hml hr2 hg
    rw [doPsfFit_second ops admom ml shapeOf ngauss gmShape p w h hp w1 w2 r r2 hfit hr hml]
    unfold doPsfFit.finish
    simp only [if_pos hr2, hg, Except.bind]

end Chain

/-! ### Concrete cases -/

/-- An elongated psf: `|e| = 0.05`. -/
example : ∃ s lam, fitSigma 0.03 0.04 1 = some s ∧ IsMajorVariance (e2mom 0.03 0.04 1).1 (e2mom 0.03 0.04 1).2.1
    (e2mom 0.03 0.04 1).2.2 lam ∧ s ^ 2 < lam := by
  obtain ⟨s, lam, h1, _, h2, _, _, _, h3⟩ := C56_fit_target 0.03 0.04 1 one_pos
  exact ⟨s, lam, h1, h2, h3 (by norm_num)⟩

/-- Metacal's default step is well within the range of the growth bound. -/
example (x y : ℝ) : (sheared 0.01 0 x y).1 ^ 2 + (sheared 0.01 0 x y).2 ^ 2 ≤
    (1 + 2 * Real.sqrt (0.01 ^ 2 + 0 ^ 2)) ^ 2 * (x ^ 2 + y ^ 2) :=
  (C56_shear_growth 0.01 0 (by norm_num)).1 (by norm_num) x y

/-- A psf with three modes, the last two below one percent. -/
example : ∃ s2, gaussTargetSigmaSq 1 [(0, 1), (4, 0.005), (9, 0.001)] = .ok (some s2) ∧ gaussAmp s2 9 ≤ 0.003 := by
  obtain ⟨s2, h1, _, h2, _⟩ := (C56_gauss_target 1 [(0, 1), (4, 0.005), (9, 0.001)] (by
    intro m hm
    simp only [List.mem_cons, List.not_mem_nil, or_false] at hm
    rcases hm with rfl | rfl | rfl <;> norm_num)).2 ⟨(4, 0.005), by simp, by norm_num⟩
  exact ⟨s2, h1, h2 (9, 0.001) (by simp) (by norm_num)⟩

/-- The fallback: adaptive moments fail on every try, maximum likelihood succeeds at once. -/
example : (doPsfFit (σ := Unit) (Guess := Unit) (R := ℕ) (G := Unit) ⟨id, fun _ => some (.ok ())⟩
    ⟨fun s _ _ => (s, .ok 1), none⟩ ⟨fun s _ _ => (s, .ok 0), none⟩ (fun _ => (0, 0, 1)) (fun _ => 1)
    (fun _ => .ok (0.03, 0.04, 1)) 0 (⟨(), []⟩, ⟨fun o => ⟨none, o, none⟩, fun _ => none⟩)).2 = .ok (fitSigma 0.03 0.04 1) := by
  simp [doPsfFit, runPsfObs, runFitter, runLoop, attempt, fitTarget, doPsfFit.finish, Except.bind]

end Ngmix.Props
