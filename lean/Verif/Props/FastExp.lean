import Verif.Model.FastExp
import Verif.Props.Density
import Mathlib.Analysis.Complex.Exponential
import Mathlib.Analysis.Complex.ExponentialBounds

/-!
# The fast exponential (C26)
-/

namespace Ngmix.Props

open Ngmix Ngmix.Spec

/-- The integer part used by the code and the fraction left. -/
theorem pyInt_frac (x : ℝ) (h1 : -15 ≤ x) (h2 : x ≤ 0) :
    -15 ≤ pyInt (x - 0.5) ∧ pyInt (x - 0.5) ≤ 0 ∧
    -0.5 < x - pyInt (x - 0.5) ∧ x - pyInt (x - 0.5) ≤ 0.5 := by
  have hneg : x - 0.5 < 0 := by norm_num; linarith
  unfold pyInt
  rw [if_pos hneg]
  have hc1 := Int.le_ceil (x - 0.5)
  have hc2 := Int.ceil_lt_add_one (x - 0.5)
  refine ⟨?_, ?_, ?_, ?_⟩
  · have : (-16 : ℝ) < ((⌈x - 0.5⌉ : ℤ) : ℝ) := by norm_num at hc1 ⊢; linarith
    have : (-16 : ℤ) < ⌈x - 0.5⌉ := by exact_mod_cast this
    omega
  · have : ((⌈x - 0.5⌉ : ℤ) : ℝ) < 1 := by norm_num at hc2 ⊢; linarith
    have : ⌈x - 0.5⌉ < (1 : ℤ) := by exact_mod_cast this
    omega
  · linarith
  · linarith

theorem lookupAt_eq (i : ℤ) (h1 : -15 ≤ i) (h2 : i ≤ 0) : lookupAt (i - (-15)) = some (Real.exp i) := by
  have h : i - (-15) = ((i + 15).toNat : ℤ) := by omega
  unfold lookupAt
  rw [if_pos (by omega), h, Int.toNat_natCast]
  have hlt : (i + 15).toNat < 16 := by omega
  simp only [expLookup]
  rw [List.getElem?_map, List.getElem?_range hlt]
  simp only [Option.map_some, Option.some.injEq]
  congr 1
  have : (((i + 15).toNat : ℕ) : ℝ) = (i : ℝ) + 15 := by
    have : (((i + 15).toNat : ℤ)) = i + 15 := by omega
    exact_mod_cast this
  rw [this]
  ring

theorem fastExp_eq (poly : ℝ → ℝ) (x : ℝ) (h1 : -15 ≤ x) (h2 : x ≤ 0) :
    ∃ n : ℤ, ∃ f : ℝ, x = n + f ∧ -0.5 < f ∧ f ≤ 0.5 ∧ fastExp poly x = some (Real.exp n * poly f) := by
  obtain ⟨a, b, c, d⟩ := pyInt_frac x h1 h2
  refine ⟨pyInt (x - 0.5), x - pyInt (x - 0.5), by ring, c, d, ?_⟩
  simp only [fastExp]
  rw [lookupAt_eq _ a b]
  rfl

/-- If the polynomial has relative error `eps` on the fractions, the fast exponential has it too. -/
theorem fastExp_error (poly : ℝ → ℝ) (eps : ℝ)
    (hp : ∀ f, -0.5 < f → f ≤ 0.5 → |poly f - Real.exp f| ≤ eps * Real.exp f)
    (x : ℝ) (h1 : -15 ≤ x) (h2 : x ≤ 0) :
    ∃ y, fastExp poly x = some y ∧ |y - Real.exp x| ≤ eps * Real.exp x := by
  obtain ⟨n, f, hx, hf1, hf2, he⟩ := fastExp_eq poly x h1 h2
  refine ⟨_, he, ?_⟩
  rw [hx, Real.exp_add, ← mul_sub, abs_mul, abs_of_pos (Real.exp_pos _)]
  calc Real.exp n * |poly f - Real.exp f| ≤ Real.exp n * (eps * Real.exp f) :=
        mul_le_mul_of_nonneg_left (hp f hf1 hf2) (Real.exp_pos _).le
    _ = eps * (Real.exp n * Real.exp f) := by ring

/-- Taylor polynomial of degree 7. -/
noncomputable def taylor7 (f : ℝ) : ℝ :=
  1 + f + f ^ 2 / 2 + f ^ 3 / 6 + f ^ 4 / 24 + f ^ 5 / 120 + f ^ 6 / 720 + f ^ 7 / 5040

theorem exp_taylor7 (f : ℝ) (h1 : -0.5 ≤ f) (h2 : f ≤ 0.5) : |Real.exp f - taylor7 f| ≤ 1.1e-7 := by
  have hf : |f| ≤ 1 / 2 := abs_le.mpr ⟨by norm_num at h1 ⊢; linarith, by norm_num at h2 ⊢; linarith⟩
  have hb := Real.exp_bound (x := f) (by linarith) (n := 8) (by norm_num)
  have hs : ∑ m ∈ Finset.range 8, f ^ m / (m.factorial : ℝ) = taylor7 f := by
    simp only [Finset.sum_range_succ, Finset.sum_range_zero, taylor7]
    norm_num [Nat.factorial]
  rw [hs] at hb
  refine le_trans hb ?_
  have h8 : |f| ^ 8 ≤ (1 / 2) ^ 8 := pow_le_pow_left₀ (abs_nonneg _) hf 8
  have : |f| ^ 8 * ((Nat.succ 8 : ℕ) / ((Nat.factorial 8 : ℕ) * (8 : ℕ)) : ℝ) ≤
      (1 / 2) ^ 8 * ((Nat.succ 8 : ℕ) / ((Nat.factorial 8 : ℕ) * (8 : ℕ)) : ℝ) :=
    mul_le_mul_of_nonneg_right h8 (by positivity)
  refine le_trans this ?_
  norm_num [Nat.factorial]

theorem exp_lower (f : ℝ) (h1 : -0.5 ≤ f) : 0.6065 ≤ Real.exp f := by
  have h := exp_taylor7 (-0.5) (le_refl _) (by norm_num)
  have h2 := (abs_le.mp h).1
  have h3 : taylor7 (-0.5) ≥ 0.606530 := by norm_num [taylor7]
  have h4 : Real.exp (-(1 / 2)) ≤ Real.exp f := Real.exp_le_exp.mpr (by norm_num at h1 ⊢; linarith)
  norm_num at h2 h3 ⊢
  linarith

theorem abs_pow_le (f : ℝ) (h : |f| ≤ 1 / 2) (n : ℕ) : |f ^ n| ≤ (1 / 2) ^ n := by
  rw [abs_pow]
  exact pow_le_pow_left₀ (abs_nonneg _) h n

/-- C26: on the whole supported range the fast exponential `exp5` (the one the pixel code uses) reads
inside its table and has relative error at most 4e-5, as documented. -/
theorem C26_exp5 (x : ℝ) (h1 : -15 ≤ x) (h2 : x ≤ 0) :
    ∃ y, exp5 x = some y ∧ fexp x = y ∧ |y - Real.exp x| ≤ 4e-5 * Real.exp x := by
  have key := fastExp_error (fun f => (120 + f * (120 + f * (60 + f * (20 + f * (5 + f))))) * 0.0083333333)
    4e-5 ?_ x h1 h2
  · obtain ⟨y, hy, he⟩ := key
    have hy' : exp5 x = some y := hy
    exact ⟨y, hy', by simp [fexp, hy'], he⟩
  · intro f hf1 hf2
    have ht := exp_taylor7 f hf1.le hf2
    have hl := exp_lower f hf1.le
    have hf : |f| ≤ 1 / 2 := abs_le.mpr ⟨by norm_num at hf1 ⊢; linarith, by norm_num at hf2 ⊢; linarith⟩
    have p6 := abs_pow_le f hf 6
    have p7 := abs_pow_le f hf 7
    have hu : Real.exp f ≤ 2 := by
      have : Real.exp f ≤ Real.exp (1 / 2) := Real.exp_le_exp.mpr (by norm_num at hf2 ⊢; linarith)
      have h2 : Real.exp (1 / 2) * Real.exp (1 / 2) = Real.exp 1 := by rw [← Real.exp_add]; norm_num
      have h3 := Real.exp_one_lt_d9
      nlinarith [Real.exp_pos (1 / 2)]
    have e : (120 + f * (120 + f * (60 + f * (20 + f * (5 + f))))) * 0.0083333333 - Real.exp f =
        0.999999996 * ((taylor7 f - Real.exp f) - f ^ 6 / 720 - f ^ 7 / 5040) - 4e-9 * Real.exp f := by
      unfold taylor7; norm_num; ring
    rw [e, abs_le]
    have a1 := abs_le.mp ht
    have a2 := abs_le.mp p6
    have a3 := abs_le.mp p7
    norm_num at a1 a2 a3 hl ⊢
    constructor <;> linarith

/-- C26: bounds for the two unused variants; for `exp4` the bound is 4e-4. -/
theorem C26_exp4_true_bound (x : ℝ) (h1 : -15 ≤ x) (h2 : x ≤ 0) :
    ∃ y, exp4 x = some y ∧ |y - Real.exp x| ≤ 5e-4 * Real.exp x := by
  refine fastExp_error (fun f => (24 + f * (24 + f * (12 + f * (4 + f)))) * 0.041666666) 5e-4 ?_ x h1 h2
  intro f hf1 hf2
  have ht := exp_taylor7 f hf1.le hf2
  have hl := exp_lower f hf1.le
  have hf : |f| ≤ 1 / 2 := abs_le.mpr ⟨by norm_num at hf1 ⊢; linarith, by norm_num at hf2 ⊢; linarith⟩
  have p5 := abs_pow_le f hf 5
  have p6 := abs_pow_le f hf 6
  have p7 := abs_pow_le f hf 7
  have hu : Real.exp f ≤ 2 := by
    have : Real.exp f ≤ Real.exp (1 / 2) := Real.exp_le_exp.mpr (by norm_num at hf2 ⊢; linarith)
    have h2 : Real.exp (1 / 2) * Real.exp (1 / 2) = Real.exp 1 := by rw [← Real.exp_add]; norm_num
    have h3 := Real.exp_one_lt_d9
    nlinarith [Real.exp_pos (1 / 2)]
  have e : (24 + f * (24 + f * (12 + f * (4 + f)))) * 0.041666666 - Real.exp f =
      0.999999984 * ((taylor7 f - Real.exp f) - f ^ 5 / 120 - f ^ 6 / 720 - f ^ 7 / 5040)
        - 1.6e-8 * Real.exp f := by
    unfold taylor7; norm_num; ring
  rw [e, abs_le]
  have a1 := abs_le.mp ht
  have a2 := abs_le.mp p6
  have a3 := abs_le.mp p7
  have a4 := abs_le.mp p5
  norm_num at a1 a2 a3 a4 hl ⊢
  constructor <;> linarith

/-- C26: `exp3` has relative error at most 0.004, as documented. -/
theorem C26_exp3 (x : ℝ) (h1 : -15 ≤ x) (h2 : x ≤ 0) :
    ∃ y, exp3 x = some y ∧ |y - Real.exp x| ≤ 0.004 * Real.exp x := by
  refine fastExp_error (fun f => (6 + f * (6 + f * (3 + f))) * 0.16666666) 0.004 ?_ x h1 h2
  intro f hf1 hf2
  have ht := exp_taylor7 f hf1.le hf2
  have hl := exp_lower f hf1.le
  have hf : |f| ≤ 1 / 2 := abs_le.mpr ⟨by norm_num at hf1 ⊢; linarith, by norm_num at hf2 ⊢; linarith⟩
  have p4 := abs_pow_le f hf 4
  have p5 := abs_pow_le f hf 5
  have p6 := abs_pow_le f hf 6
  have p7 := abs_pow_le f hf 7
  have hu : Real.exp f ≤ 2 := by
    have : Real.exp f ≤ Real.exp (1 / 2) := Real.exp_le_exp.mpr (by norm_num at hf2 ⊢; linarith)
    have h2 : Real.exp (1 / 2) * Real.exp (1 / 2) = Real.exp 1 := by rw [← Real.exp_add]; norm_num
    have h3 := Real.exp_one_lt_d9
    nlinarith [Real.exp_pos (1 / 2)]
  have e : (6 + f * (6 + f * (3 + f))) * 0.16666666 - Real.exp f =
      0.99999996 * ((taylor7 f - Real.exp f) - f ^ 4 / 24 - f ^ 5 / 120 - f ^ 6 / 720 - f ^ 7 / 5040)
        - 4e-8 * Real.exp f := by
    unfold taylor7; norm_num; ring
  rw [e, abs_le]
  have a1 := abs_le.mp ht
  have a2 := abs_le.mp p6
  have a3 := abs_le.mp p7
  have a4 := abs_le.mp p5
  have a5 := abs_le.mp p4
  rcases le_total 0 f with h0 | h0
  · have h1e : 1 ≤ Real.exp f := Real.one_le_exp h0
    norm_num at a1 a2 a3 a4 a5 hl ⊢
    constructor <;> linarith
  · have ht0 : 0 ≤ -f := by linarith
    have hu0 : 0 ≤ 1 / 2 + f := by norm_num at hf1; linarith
    have hfac : 0.28125 - (5 * f ^ 4 + f ^ 5) = (1 / 2 + f) *
        (5 * (1 / 8 + 1 / 4 * (-f) + 1 / 2 * (-f) ^ 2 + (-f) ^ 3) -
          (1 / 16 + 1 / 8 * (-f) + 1 / 4 * (-f) ^ 2 + 1 / 2 * (-f) ^ 3 + (-f) ^ 4)) := by norm_num; ring
    have hpos : 0 ≤ 5 * (1 / 8 + 1 / 4 * (-f) + 1 / 2 * (-f) ^ 2 + (-f) ^ 3) -
          (1 / 16 + 1 / 8 * (-f) + 1 / 4 * (-f) ^ 2 + 1 / 2 * (-f) ^ 3 + (-f) ^ 4) := by
      have h4 : (-f) ^ 4 ≤ 1 / 2 * (-f) ^ 3 := by
        have : (-f) ^ 4 = (-f) * (-f) ^ 3 := by ring
        rw [this]
        exact mul_le_mul_of_nonneg_right (by linarith) (by positivity)
      have : 0 ≤ (-f) ^ 3 := by positivity
      have : 0 ≤ (-f) ^ 2 := by positivity
      linarith
    have hb : 5 * f ^ 4 + f ^ 5 ≤ 0.28125 := by
      have := mul_nonneg hu0 hpos
      rw [← hfac] at this
      linarith
    have h4p : 0 ≤ f ^ 4 := by positivity
    norm_num at a1 a2 a3 a4 a5 hl hb ⊢
    constructor <;> linarith

/-- C26 (disagreement): the documented 2e-4 of `exp4` is exceeded inside the range. -/
theorem C26_exp4_doc_bound_fails : ∃ x y, -15 ≤ x ∧ x ≤ 0 ∧ exp4 x = some y ∧
    3e-4 * Real.exp x < |y - Real.exp x| := by
  have hp : pyInt (-0.49 - 0.5) = 0 := by
    unfold pyInt
    rw [if_pos (by norm_num), Int.ceil_eq_iff]
    norm_num
  have hy : exp4 (-0.49) = some (Real.exp (0:ℤ) *
      ((24 + (-0.49) * (24 + (-0.49) * (12 + (-0.49) * (4 + (-0.49))))) * 0.041666666)) := by
    unfold exp4 fastExp
    simp only [hp]
    rw [lookupAt_eq 0 (by norm_num) (by norm_num)]
    simp only [Option.map_some, Int.cast_zero, sub_zero]
  refine ⟨-0.49, _, by norm_num, by norm_num, hy, ?_⟩
  have ht := abs_le.mp (exp_taylor7 (-0.49) (by norm_num) (by norm_num))
  have h3 : taylor7 (-0.49) ≥ 0.612626 := by norm_num [taylor7]
  have h4 : taylor7 (-0.49) ≤ 0.612627 := by norm_num [taylor7]
  rw [lt_abs]
  left
  simp only [Int.cast_zero, Real.exp_zero, one_mul]
  norm_num at ht h3 h4 ⊢
  linarith

/-- C26 for the pixel code: where the code evaluates the exponential (chi-squared below 25) the fast
value is within 4e-5 of the exact one, relative; elsewhere it is zero and the exact value is at most
`exp(-12.5)` of the peak. -/
theorem C26_eval (g : Gauss) (h : NormsCurrent g) (hT : 0 < g.irr + g.icc) (hp : 0 ≤ g.p) (v u area : ℝ)
    (ha : 0 ≤ area) : ∃ y peak, gaussEval g v u area = some y ∧ gaussEval g g.row g.col area = some peak ∧
      (|gaussEvalFast g v u area - y| ≤ 4e-5 * y ∨
        (gaussEvalFast g v u area = 0 ∧ y ≤ Real.exp (-12.5) * peak)) := by
  obtain ⟨d, hd, hdet, h1, h2, h3, h4, h5⟩ := id h
  obtain ⟨-, c1, -⟩ := C21_chi2 g d hd h hT v u
  obtain ⟨-, -, c3⟩ := C21_chi2 g d hd h hT g.row g.col
  have hpn : 0 ≤ d.pnorm := by
    rw [h5]
    have := Real.pi_pos
    have := Real.sqrt_nonneg (g.irr * g.icc - g.irc * g.irc)
    positivity
  refine ⟨d.pnorm * Real.exp (-0.5 * gaussChi2 g d v u) * area,
    d.pnorm * Real.exp (-0.5 * gaussChi2 g d g.row g.col) * area,
    by simp only [gaussEval, hd, Option.map_some], by simp only [gaussEval, hd, Option.map_some], ?_⟩
  rw [c3.mpr ⟨rfl, rfl⟩, mul_zero, Real.exp_zero, mul_one]
  by_cases hc : gaussChi2 g d v u < fastexpMaxChi2
  · left
    have hf : gaussEvalFast g v u area = d.pnorm * fexp (-0.5 * gaussChi2 g d v u) * area := by
      simp only [gaussEvalFast, hd]
      rw [if_pos ⟨hc, c1⟩]
    unfold fastexpMaxChi2 at hc
    obtain ⟨y, -, hy, he⟩ := C26_exp5 (-0.5 * gaussChi2 g d v u) (by norm_num; linarith)
      (by norm_num; linarith)
    rw [hf, hy, show d.pnorm * y * area - d.pnorm * Real.exp (-0.5 * gaussChi2 g d v u) * area =
      d.pnorm * area * (y - Real.exp (-0.5 * gaussChi2 g d v u)) by ring, abs_mul,
      abs_of_nonneg (mul_nonneg hpn ha)]
    calc _ ≤ d.pnorm * area * (4e-5 * Real.exp (-0.5 * gaussChi2 g d v u)) :=
          mul_le_mul_of_nonneg_left he (mul_nonneg hpn ha)
      _ = _ := by ring
  · right
    have hf : gaussEvalFast g v u area = 0 := by
      simp only [gaussEvalFast, hd]
      rw [if_neg (fun hh => hc hh.1)]
    refine ⟨hf, ?_⟩
    unfold fastexpMaxChi2 at hc
    push Not at hc
    have : Real.exp (-0.5 * gaussChi2 g d v u) ≤ Real.exp (-12.5) :=
      Real.exp_le_exp.mpr (by norm_num; linarith)
    calc d.pnorm * Real.exp (-0.5 * gaussChi2 g d v u) * area
        ≤ d.pnorm * Real.exp (-12.5) * area :=
          mul_le_mul_of_nonneg_right (mul_le_mul_of_nonneg_left this hpn) ha
      _ = _ := by ring

end Ngmix.Props
