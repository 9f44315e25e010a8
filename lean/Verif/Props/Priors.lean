import Verif.Model.Priors
import Mathlib.Analysis.SpecialFunctions.Gaussian.GaussianIntegral
import Mathlib.Analysis.SpecialFunctions.Trigonometric.DerivHyp
import Mathlib.Analysis.SpecialFunctions.Pow.Real
import Mathlib.Tactic.LinearCombination
import Mathlib.Tactic.Positivity

/-!
# One dimensional and shape priors (C44)
-/

namespace Ngmix.Props

open Ngmix

/-- Spec: a log density on the points satisfying `S`, never positive, zero exactly at `mode`; other points
raise `GMixRangeError`. -/
def PeakNormalised (lnp : ℝ → Except PyErr Fl) (S : ℝ → Prop) (mode : ℝ) : Prop :=
  (∀ x, S x → ∃ L : ℝ, lnp x = .ok (.fin L) ∧ L ≤ 0 ∧ (L = 0 ↔ x = mode)) ∧
  (∀ x, ¬ S x → lnp x = .error .gmixRange)

/-- Spec: the residual squares to minus twice the log density, with the same support. -/
def FdiffMatches (lnp fdiff : ℝ → Except PyErr Fl) (S : ℝ → Prop) : Prop :=
  (∀ x, S x → ∃ L d : ℝ, lnp x = .ok (.fin L) ∧ fdiff x = .ok (.fin d) ∧ d ^ 2 = -2 * L) ∧
  (∀ x, ¬ S x → lnp x = .error .gmixRange ∧ fdiff x = .error .gmixRange)

theorem clipRoot_fin (L : ℝ) (h : L ≤ 0) : Prior1.clipRoot (.fin L) = .fin (Real.sqrt (-2 * L)) := by
  have h1 : ¬ Fl.lt (Fl.fin (-2) * Fl.fin L) (.fin 0) := by rw [Fl.fin_mul]; simp only [Fl.lt]; linarith
  simp only [Prior1.clipRoot]
  rw [if_neg h1, Fl.fin_mul]
  simp only [Fl.sqrt]
  rw [if_neg (by linarith)]

theorem clipRoot_sq (L : ℝ) (h : L ≤ 0) : (Real.sqrt (-2 * L)) ^ 2 = -2 * L :=
  Real.sq_sqrt (by linarith)

/-- C44, `Normal`: peak at the mean, defined everywhere. -/
theorem C44_normal (mean sigma : ℝ) (b : Option (ℝ × ℝ)) (p : Prior1)
    (h : Prior1.mkNormal mean sigma b = .ok p) :
    PeakNormalised p.lnprob (fun _ => True) mean ∧ FdiffMatches p.lnprob p.fdiff (fun _ => True) ∧
    (∀ x, ∃ d, p.fdiff x = .ok (.fin d) ∧ d = (x - mean) / sigma) := by
  unfold Prior1.mkNormal at h
  split_ifs at h with hs
  injection h with h; subst h
  have hs2 : 0 < sigma ^ 2 := by positivity
  refine ⟨⟨?_, by simp⟩, ⟨?_, by simp⟩, ?_⟩
  · intro x _
    refine ⟨_, rfl, ?_, ?_⟩
    · have : -0.5 * (mean - x) * (mean - x) * (1 / sigma ^ 2) =
          -(0.5 * ((mean - x) ^ 2 / sigma ^ 2)) := by ring
      rw [this]
      have := div_nonneg (sq_nonneg (mean - x)) hs2.le
      linarith
    · constructor
      · intro h0
        have : (mean - x) ^ 2 / sigma ^ 2 = 0 := by linear_combination (-2) * h0
        rcases (div_eq_zero_iff.mp this) with h | h
        · have := pow_eq_zero_iff (two_ne_zero) |>.mp h; linarith
        · exact absurd h hs2.ne'
      · rintro rfl; ring
  · intro x _
    refine ⟨_, _, rfl, rfl, ?_⟩
    field_simp
    ring
  · intro x
    exact ⟨_, rfl, by ring⟩

/-- C44: `Normal`, `TruncatedGaussian`, `GPriorBA` and `CenPrior` refuse a zero sigma, with
`ZeroDivisionError`, and nothing else. -/
theorem C44_zero_sigma (mean sigma a b : ℝ) (bd : Option (ℝ × ℝ)) :
    (∀ e, Prior1.mkNormal mean sigma bd = .error e ↔ e = .zeroDiv ∧ sigma = 0) ∧
    (∀ e, Prior1.mkTrunc mean sigma a b = .error e ↔ e = .zeroDiv ∧ sigma = 0) ∧
    (∀ e, PriorG.mkBA sigma a = .error e ↔ e = .zeroDiv ∧ sigma = 0) ∧
    (∀ e c1 c2 s2, CenPrior.mk' c1 c2 sigma s2 = .error e ↔ e = .zeroDiv ∧ (sigma = 0 ∨ s2 = 0)) := by
  refine ⟨fun e => ?_, fun e => ?_, fun e => ?_, fun e c1 c2 s2 => ?_⟩
  · by_cases h : sigma = 0 <;> simp [Prior1.mkNormal, h, eq_comm]
  · by_cases h : sigma = 0 <;> simp [Prior1.mkTrunc, h, eq_comm]
  · by_cases h : sigma = 0 <;> simp [PriorG.mkBA, h, eq_comm]
  · by_cases h : sigma = 0 ∨ s2 = 0 <;> simp [CenPrior.mk', h, eq_comm]

/-- C44, `TruncatedGaussian`: with the mean inside the interval, peak at the mean; the support is the closed
interval; outside it raises. -/
theorem C44_trunc (mean sigma minval maxval : ℝ) (p : Prior1)
    (h : Prior1.mkTrunc mean sigma minval maxval = .ok p) :
    PeakNormalised p.lnprob (fun x => minval ≤ x ∧ x ≤ maxval) mean ∧
    FdiffMatches p.lnprob p.fdiff (fun x => minval ≤ x ∧ x ≤ maxval) := by
  unfold Prior1.mkTrunc at h
  split_ifs at h with hs
  injection h with h; subst h
  have hs2 : 0 < sigma ^ 2 := by positivity
  refine ⟨⟨?_, ?_⟩, ⟨?_, ?_⟩⟩
  · rintro x ⟨h1, h2⟩
    simp only [Prior1.lnprob]
    rw [if_neg (by push Not; exact ⟨h1, h2⟩)]
    refine ⟨_, rfl, ?_, ?_⟩
    · have : -0.5 * (x - mean) * (x - mean) * (1 / sigma ^ 2) =
          -(0.5 * ((x - mean) ^ 2 / sigma ^ 2)) := by ring
      rw [this]
      have := div_nonneg (sq_nonneg (x - mean)) hs2.le
      linarith
    · constructor
      · intro h0
        have : (x - mean) ^ 2 / sigma ^ 2 = 0 := by linear_combination (-2) * h0
        rcases (div_eq_zero_iff.mp this) with h | h
        · have := pow_eq_zero_iff (two_ne_zero) |>.mp h; linarith
        · exact absurd h hs2.ne'
      · rintro rfl; ring
  · intro x hx
    simp only [Prior1.lnprob]
    rw [if_pos (by by_contra hc; push Not at hc; exact hx ⟨hc.1, hc.2⟩)]
  · rintro x ⟨h1, h2⟩
    simp only [Prior1.lnprob, Prior1.fdiff]
    rw [if_neg (by push Not; exact ⟨h1, h2⟩), if_neg (by push Not; exact ⟨h1, h2⟩)]
    refine ⟨_, _, rfl, rfl, ?_⟩
    field_simp
    ring
  · intro x hx
    simp only [Prior1.lnprob, Prior1.fdiff]
    rw [if_pos (by by_contra hc; push Not at hc; exact hx ⟨hc.1, hc.2⟩),
      if_pos (by by_contra hc; push Not at hc; exact hx ⟨hc.1, hc.2⟩)]
    simp

/-- C44 (limitation of the unchanged code): with the mean outside the interval the peak of a
`TruncatedGaussian` is not at log probability zero: every value of the support is negative. -/
theorem C44_trunc_mean_outside (mean sigma minval maxval : ℝ) (p : Prior1)
    (h : Prior1.mkTrunc mean sigma minval maxval = .ok p) (hm : mean < minval ∨ maxval < mean) (x L : ℝ)
    (hx : p.lnprob x = .ok (.fin L)) : L < 0 := by
  obtain ⟨⟨h1, h2⟩, -⟩ := C44_trunc mean sigma minval maxval p h
  by_cases hS : minval ≤ x ∧ x ≤ maxval
  · obtain ⟨L', e, hL, hz⟩ := h1 x hS
    rw [hx] at e; injection e with e; injection e with e; subst e
    refine lt_of_le_of_ne hL fun h0 => ?_
    have := hz.mp h0
    subst this
    rcases hm with hm | hm <;> linarith [hS.1, hS.2]
  · rw [h2 x hS] at hx; exact absurd hx (by simp)

/-- C44 (disagreement): at the ends of the interval the scalar and the array versions of
`TruncatedGaussian`'s log probability differ, and out of range the array version does not raise. -/
theorem C44_trunc_array_disagrees (mean sigma minval maxval : ℝ) (hs : sigma ≠ 0) (hmm : minval ≤ maxval) :
    ∃ p, Prior1.mkTrunc mean sigma minval maxval = .ok p ∧
      (∃ L : ℝ, p.lnprob minval = .ok (.fin L)) ∧ p.lnprobArr minval = .ok .ninf ∧
      (∀ x, x < minval → p.lnprob x = .error .gmixRange ∧ p.lnprobArr x = .ok .ninf) := by
  refine ⟨.trunc mean sigma minval maxval, by simp [Prior1.mkTrunc, hs], ?_, ?_, ?_⟩
  · simp only [Prior1.lnprob]
    rw [if_neg (by push Not; exact ⟨le_refl _, hmm⟩)]
    exact ⟨_, rfl⟩
  · simp only [Prior1.lnprobArr]
    rw [if_neg (by simp)]
  · intro x hx
    simp only [Prior1.lnprob, Prior1.lnprobArr]
    rw [if_pos (Or.inl hx), if_neg (by push Not; intro h; linarith)]
    simp

/-- C44: `FlatPrior` is constant in the closed interval and raises outside. -/
theorem C44_flat (minval maxval x : ℝ) :
    ((minval ≤ x ∧ x ≤ maxval) →
      (Prior1.flat minval maxval).lnprob x = .ok (.fin 0) ∧
      (Prior1.flat minval maxval).fdiff x = .ok (.fin 0)) ∧
    (¬ (minval ≤ x ∧ x ≤ maxval) →
      (Prior1.flat minval maxval).lnprob x = .error .gmixRange ∧
      (Prior1.flat minval maxval).fdiff x = .error .gmixRange) := by
  simp only [Prior1.lnprob, Prior1.fdiff]
  constructor
  · rintro ⟨h1, h2⟩
    rw [if_neg (by push Not; exact ⟨h1, h2⟩)]
    simp
  · intro h
    rw [if_pos (by by_contra hc; push Not at hc; exact h ⟨hc.1, hc.2⟩)]
    simp

theorem lognormalLnprob_eq (mean sigma : ℝ) (shift : Option ℝ) (x : ℝ) :
    Prior1.lognormalLnprob mean sigma shift x =
      open Classical in
      if x - shift.getD 0 ≤ 0 then .error .gmixRange
      else .ok (.fin (-0.5) * (Prior1.lnLogivar mean sigma *
        .fin ((Real.log (x - shift.getD 0) - Prior1.lnLogmean mean sigma) ^ 2)) -
        .fin (Real.log (x - shift.getD 0)) - Prior1.lnProbMax mean sigma) := by
  cases shift
  · simp only [Option.getD_none, sub_zero]; rfl
  · rfl

theorem lognormal_closed (mean sigma : ℝ) (hm : 0 < mean) (hs : sigma ≠ 0) (shift : Option ℝ) (x : ℝ) :
    let val := x - shift.getD 0
    let v := Real.log (1 + sigma ^ 2 / mean ^ 2)
    0 < v ∧
    (0 < val → Prior1.lognormalLnprob mean sigma shift x =
      .ok (.fin (-(Real.log val - (Real.log mean - 0.5 * v) + v) ^ 2 / (2 * v)))) ∧
    (¬ 0 < val → Prior1.lognormalLnprob mean sigma shift x = .error .gmixRange) := by
  intro val v
  have hv : 0 < v := Real.log_pos (by
    have : 0 < sigma ^ 2 / mean ^ 2 := by positivity
    linarith)
  refine ⟨hv, ?_, ?_⟩
  · intro hpos
    have hiv : Prior1.lnLogivar mean sigma = .fin (1 / v) := by
      rw [Prior1.lnLogivar, Prior1.lnLogvar, Fl.fin_div _ _ hv.ne']
    have hmode : Prior1.lnLogMode mean sigma - Prior1.lnLogmean mean sigma = -v := by
      simp only [Prior1.lnLogMode, Prior1.lnLogvar]; ring
    rw [lognormalLnprob_eq, if_neg (not_le.mpr hpos)]
    simp only [Prior1.lnProbMax, hiv, hmode]
    simp only [Fl.fin_mul, Fl.fin_sub]
    congr 2
    simp only [Prior1.lnLogMode, Prior1.lnLogvar, Prior1.lnLogmean]
    change -0.5 * (1 / v * (Real.log val - (Real.log mean - 0.5 * v)) ^ 2) - Real.log val -
      (-0.5 * (1 / v * (-v) ^ 2) - (Real.log mean - 0.5 * v - v)) = _
    field_simp
    ring
  · intro hneg
    rw [lognormalLnprob_eq, if_pos (not_lt.mp hneg)]

/-- C44, `LogNormal`: support above the shift; peak at `shift + mode` where
`log mode = <log x> - var(log x)`. -/
theorem C44_lognormal (mean sigma : ℝ) (hs : sigma ≠ 0) (shift : Option ℝ) (p : Prior1)
    (h : Prior1.mkLogNormal mean sigma shift = .ok p) :
    let v := Real.log (1 + sigma ^ 2 / mean ^ 2)
    let mode := Real.exp (Real.log mean - 0.5 * v - v)
    PeakNormalised p.lnprob (fun x => shift.getD 0 < x) (shift.getD 0 + mode) ∧
    FdiffMatches p.lnprob p.fdiff (fun x => shift.getD 0 < x) := by
  intro v mode
  unfold Prior1.mkLogNormal at h
  split_ifs at h with hm
  injection h with h; subst h
  have hm' : 0 < mean := not_le.mp hm
  have hcl := lognormal_closed mean sigma hm' hs shift
  have hv : 0 < v := (hcl 0).1
  have hle : ∀ y : ℝ, -(y) ^ 2 / (2 * v) ≤ 0 := fun y => by
    rw [neg_div]
    have := div_nonneg (sq_nonneg y) (by linarith : (0:ℝ) ≤ 2 * v)
    linarith
  refine ⟨⟨?_, ?_⟩, ⟨?_, ?_⟩⟩
  · intro x hx
    have hpos : 0 < x - shift.getD 0 := by linarith
    refine ⟨_, (hcl x).2.1 hpos, hle _, ?_⟩
    rw [neg_div, neg_eq_zero, div_eq_zero_iff]
    constructor
    · rintro (h | h)
      · have h0 := pow_eq_zero_iff (two_ne_zero) |>.mp h
        have : Real.log (x - shift.getD 0) = Real.log mean - 0.5 * v - v := by
          change _ - (_ - 0.5 * v) + v = 0 at h0
          linarith
        have : x - shift.getD 0 = mode := by
          rw [← Real.exp_log hpos, this]
        linarith
      · linarith
    · intro hx'
      left
      have : x - shift.getD 0 = mode := by linarith
      rw [this, Real.log_exp]
      ring
  · intro x hx
    exact (hcl x).2.2 (by linarith)
  · intro x hx
    have hpos : 0 < x - shift.getD 0 := by linarith
    refine ⟨_, _, (hcl x).2.1 hpos, ?_, clipRoot_sq _ (hle (Real.log (x - shift.getD 0) -
      (Real.log mean - 0.5 * v) + v))⟩
    simp only [Prior1.fdiff, (hcl x).2.1 hpos, Except.map]
    rw [clipRoot_fin _ (hle _)]
  · intro x hx
    have := (hcl x).2.2 (by linarith)
    simp only [Prior1.lnprob, Prior1.fdiff, this, Except.map]
    simp

/-- C44, `LogNormal`: exactly the non positive means are refused. -/
theorem C44_lognormal_refused (mean sigma : ℝ) (shift : Option ℝ) :
    Prior1.mkLogNormal mean sigma shift = .error .value ↔ mean ≤ 0 := by
  unfold Prior1.mkLogNormal
  split_ifs with h <;> simp [h]

/-- C44 (limitation of the unchanged code): a zero width is accepted and every value is NaN. -/
theorem C44_lognormal_zero_sigma (mean : ℝ) (hm : 0 < mean) :
    ∃ p, Prior1.mkLogNormal mean 0 none = .ok p ∧ ∀ x, 0 < x → p.lnprob x = .ok .nan := by
  refine ⟨.lognormal mean 0 none, by simp [Prior1.mkLogNormal, hm], ?_⟩
  intro x hx
  have hv : Prior1.lnLogvar mean 0 = 0 := by simp [Prior1.lnLogvar]
  have hiv : Prior1.lnLogivar mean 0 = .pinf := by
    rw [Prior1.lnLogivar, hv, Fl.fin_div_zero]; simp [Fl.infOf]
  have hd : Prior1.lnLogMode mean 0 - Prior1.lnLogmean mean 0 = 0 := by
    simp [Prior1.lnLogMode, hv]
  have hmax : Prior1.lnProbMax mean 0 = .nan := by
    have : (Fl.pinf * Fl.fin 0 : Fl) = .nan := by
      change Fl.infOf 0 = _; simp [Fl.infOf]
    simp only [Prior1.lnProbMax, hiv, hd]
    norm_num
    rw [this, Fl.mul_nan]
    rfl
  simp only [Prior1.lnprob, Prior1.lognormalLnprob]
  rw [if_neg (not_le.mpr hx), hmax]
  congr 1
  generalize (Fl.fin (-0.5) * _ - _ : Fl) = y
  cases y <;> rfl

/-- C44, `ZDisk2D`: the log probability is zero exactly at the points nearer to the origin than the radius and
GMixRangeError is raised at all others; the probability is one inside and zero outside. -/
theorem C44_disk (radius : ℝ) (hr : 0 ≤ radius) (x1 x2 : ℝ) :
    (Real.sqrt (x1 ^ 2 + x2 ^ 2) < radius →
      (PriorG.disk radius).lnprob x1 x2 = .ok (.fin 0) ∧ (PriorG.disk radius).prob x1 x2 = .ok 1) ∧
    (radius ≤ Real.sqrt (x1 ^ 2 + x2 ^ 2) →
      (PriorG.disk radius).lnprob x1 x2 = .error .gmixRange ∧ (PriorG.disk radius).prob x1 x2 = .ok 0) := by
  have h0 : 0 ≤ x1 ^ 2 + x2 ^ 2 := by positivity
  constructor
  · intro h
    have h' : x1 ^ 2 + x2 ^ 2 < radius ^ 2 := by
      rw [← Real.sq_sqrt h0]; exact pow_lt_pow_left₀ h (Real.sqrt_nonneg _) two_ne_zero
    simp [PriorG.lnprob, PriorG.prob, not_le.mpr h']
  · intro h
    have h' : radius ^ 2 ≤ x1 ^ 2 + x2 ^ 2 := by
      rw [← Real.sq_sqrt h0]; exact pow_le_pow_left₀ hr h 2
    simp [PriorG.lnprob, PriorG.prob, h']

/-- C44, `GPriorBA`: the log density is defined exactly inside the unit disk, is never positive and is zero
exactly at zero shape; the residual squares to minus twice it; and the probability is `A exp(lnprob)`. -/
theorem C44_ba (sigma A : ℝ) (p : PriorG) (h : PriorG.mkBA sigma A = .ok p) (g1 g2 : ℝ) :
    (g1 ^ 2 + g2 ^ 2 < 1 → ∃ L d : ℝ, p.lnprob g1 g2 = .ok (.fin L) ∧ L ≤ 0 ∧
      (L = 0 ↔ g1 = 0 ∧ g2 = 0) ∧ p.fdiff g1 g2 = .ok (.fin d) ∧ d ^ 2 = -2 * L ∧
      p.prob g1 g2 = .ok (A * Real.exp L)) ∧
    (1 ≤ g1 ^ 2 + g2 ^ 2 → p.lnprob g1 g2 = .error .gmixRange ∧ p.fdiff g1 g2 = .error .gmixRange ∧
      p.prob g1 g2 = .ok 0) := by
  unfold PriorG.mkBA at h
  split_ifs at h with hs
  injection h with h; subst h
  have hs2 : 0 < sigma ^ 2 := by positivity
  constructor
  · intro hg
    have hpos : 0 < 1 - (g1 * g1 + g2 * g2) := by nlinarith
    have hlog : Real.log (1 - (g1 * g1 + g2 * g2)) ≤ 0 :=
      Real.log_nonpos hpos.le (by nlinarith [mul_self_nonneg g1, mul_self_nonneg g2])
    have hgg : 0 ≤ g1 * g1 + g2 * g2 := add_nonneg (mul_self_nonneg g1) (mul_self_nonneg g2)
    have hterm : 0 ≤ 0.5 * (g1 * g1 + g2 * g2) * (1 / sigma ^ 2) := by positivity
    have hlnp : (PriorG.ba sigma A).lnprob g1 g2 = .ok (.fin (2 * Real.log (1 - (g1 * g1 + g2 * g2)) -
        0.5 * (g1 * g1 + g2 * g2) * (1 / sigma ^ 2))) := by
      simp only [PriorG.lnprob]
      rw [if_neg (not_le.mpr hpos)]
    have hL : 2 * Real.log (1 - (g1 * g1 + g2 * g2)) -
        0.5 * (g1 * g1 + g2 * g2) * (1 / sigma ^ 2) ≤ 0 := by linarith
    refine ⟨_, _, hlnp, hL, ?_, ?_, clipRoot_sq _ hL, ?_⟩
    · constructor
      · intro h0
        have h1 : 0.5 * (g1 * g1 + g2 * g2) * (1 / sigma ^ 2) = 0 := by linarith
        have h2 : g1 * g1 + g2 * g2 = 0 := by
          have : (1 / sigma ^ 2 : ℝ) ≠ 0 := by positivity
          rcases mul_eq_zero.mp h1 with h | h
          · linarith
          · exact absurd h this
        constructor <;> nlinarith [mul_self_nonneg g1, mul_self_nonneg g2]
      · rintro ⟨rfl, rfl⟩; simp
    · simp only [PriorG.fdiff, hlnp, Except.map]
      rw [clipRoot_fin _ hL]
    · simp only [PriorG.prob]
      rw [if_pos hpos, Real.exp_sub, two_mul, Real.exp_add, Real.exp_log hpos,
        show -0.5 * (g1 * g1 + g2 * g2) * (1 / sigma ^ 2) = -(0.5 * (g1 * g1 + g2 * g2) * (1 / sigma ^ 2)) by
          ring, Real.exp_neg, ← div_eq_mul_inv (_ * _)]
  · intro hg
    have hle : 1 - (g1 * g1 + g2 * g2) ≤ 0 := by nlinarith
    have hlnp : (PriorG.ba sigma A).lnprob g1 g2 = .error .gmixRange := by
      simp only [PriorG.lnprob]; rw [if_pos hle]
    refine ⟨hlnp, by simp only [PriorG.fdiff, hlnp, Except.map], ?_⟩
    simp only [PriorG.prob]
    rw [if_neg (not_lt.mpr hle), mul_zero]

/-- C44, `CenPrior`: the sum of two independent terms, zero exactly at the centre, consistent with the pair of
residuals. -/
theorem C44_cen (c1 c2 s1 s2 : ℝ) (p : CenPrior) (h : CenPrior.mk' c1 c2 s1 s2 = .ok p) (x1 x2 : ℝ) :
    p.lnprob x1 x2 ≤ 0 ∧ (p.lnprob x1 x2 = 0 ↔ x1 = c1 ∧ x2 = c2) ∧
    p.lnprob x1 x2 = (p.lnprobSep x1 x2).1 + (p.lnprobSep x1 x2).2 ∧
    (p.fdiff x1 x2).1 ^ 2 = -2 * (p.lnprobSep x1 x2).1 ∧
    (p.fdiff x1 x2).2 ^ 2 = -2 * (p.lnprobSep x1 x2).2 ∧
    (p.lnprobSep x1 x2).1 ≤ 0 ∧ (p.lnprobSep x1 x2).2 ≤ 0 := by
  unfold CenPrior.mk' at h
  split_ifs at h with hs
  injection h with h; subst h
  push Not at hs
  obtain ⟨h1, h2⟩ := hs
  have hp1 : 0 < s1 ^ 2 := by positivity
  have hp2 : 0 < s2 ^ 2 := by positivity
  have e1 : -0.5 * (c1 - x1) * (c1 - x1) * (1 / s1 ^ 2) = -(0.5 * ((c1 - x1) ^ 2 / s1 ^ 2)) := by ring
  have e2 : -0.5 * (c2 - x2) * (c2 - x2) * (1 / s2 ^ 2) = -(0.5 * ((c2 - x2) ^ 2 / s2 ^ 2)) := by ring
  have e2' : 0.5 * (c2 - x2) * (c2 - x2) * (1 / s2 ^ 2) = 0.5 * ((c2 - x2) ^ 2 / s2 ^ 2) := by ring
  have n1 := div_nonneg (sq_nonneg (c1 - x1)) hp1.le
  have n2 := div_nonneg (sq_nonneg (c2 - x2)) hp2.le
  simp only [CenPrior.lnprob, CenPrior.lnprobSep, CenPrior.fdiff]
  rw [e1, e2, e2']
  refine ⟨by linarith, ?_, by ring, ?_, ?_, by linarith, by linarith⟩
  · constructor
    · intro h0
      have a1 : (c1 - x1) ^ 2 / s1 ^ 2 = 0 := by linarith
      have a2 : (c2 - x2) ^ 2 / s2 ^ 2 = 0 := by linarith
      rw [div_eq_zero_iff, or_iff_left hp1.ne', pow_eq_zero_iff two_ne_zero] at a1
      rw [div_eq_zero_iff, or_iff_left hp2.ne', pow_eq_zero_iff two_ne_zero] at a2
      constructor <;> linarith
    · rintro ⟨rfl, rfl⟩; simp
  · field_simp; ring
  · field_simp; ring

theorem abs_erf_lt_one (x : ℝ) : |erf x| < 1 := by
  have key : ∀ y : ℝ, 0 ≤ y → (∫ t in (0)..y, Real.exp (-t ^ 2)) < Real.sqrt Real.pi / 2 := by
    intro y hy
    have hI : MeasureTheory.IntegrableOn (fun t : ℝ => Real.exp (-t ^ 2)) (Set.Ioi 0) := by
      have := integrable_exp_neg_mul_sq (b := 1) one_pos
      simpa using this.integrableOn
    have htot : ∫ t in Set.Ioi (0:ℝ), Real.exp (-t ^ 2) = Real.sqrt Real.pi / 2 := by
      have := integral_gaussian_Ioi 1
      simpa using this
    have hsplit : (∫ t in (0)..y, Real.exp (-t ^ 2)) + ∫ t in Set.Ioi y, Real.exp (-t ^ 2) =
        ∫ t in Set.Ioi (0:ℝ), Real.exp (-t ^ 2) := by
      rw [intervalIntegral.integral_of_le hy]
      rw [← MeasureTheory.setIntegral_union (Set.Ioc_disjoint_Ioi le_rfl) measurableSet_Ioi
        (hI.mono_set Set.Ioc_subset_Ioi_self) (hI.mono_set (Set.Ioi_subset_Ioi hy)),
        Set.Ioc_union_Ioi_eq_Ioi hy]
    have hpos : 0 < ∫ t in Set.Ioi y, Real.exp (-t ^ 2) := by
      rw [MeasureTheory.setIntegral_pos_iff_support_of_nonneg_ae]
      · have : Function.support (fun t : ℝ => Real.exp (-t ^ 2)) = Set.univ := by
          ext t; simp [Real.exp_ne_zero]
        rw [this, Set.univ_inter, Real.volume_Ioi]
        simp
      · exact Filter.Eventually.of_forall fun t => (Real.exp_pos _).le
      · exact hI.mono_set (Set.Ioi_subset_Ioi hy)
    linarith
  have hsp : 0 < Real.sqrt Real.pi := Real.sqrt_pos.mpr Real.pi_pos
  have hnn : ∀ y : ℝ, 0 ≤ y → 0 ≤ erf y ∧ erf y < 1 := by
    intro y hy
    unfold erf
    have h1 : 0 ≤ ∫ t in (0)..y, Real.exp (-t ^ 2) :=
      intervalIntegral.integral_nonneg hy fun t _ => (Real.exp_pos _).le
    refine ⟨by positivity, ?_⟩
    have := key y hy
    calc 2 / Real.sqrt Real.pi * ∫ t in (0)..y, Real.exp (-t ^ 2)
        < 2 / Real.sqrt Real.pi * (Real.sqrt Real.pi / 2) :=
          mul_lt_mul_of_pos_left this (by positivity)
      _ = 1 := by field_simp
  have hodd : erf (-x) = -erf x := by
    unfold erf
    have : (∫ t in (0)..(-x), Real.exp (-t ^ 2)) = -∫ t in (0)..x, Real.exp (-t ^ 2) := by
      have h := intervalIntegral.integral_comp_neg (a := 0) (b := x) (fun t : ℝ => Real.exp (-t ^ 2))
      simp only [neg_sq, neg_zero] at h
      rw [h, intervalIntegral.integral_symm]
    rw [this]; ring
  rcases le_total 0 x with hx | hx
  · rw [abs_of_nonneg (hnn x hx).1]; exact (hnn x hx).2
  · have := hnn (-x) (by linarith)
    rw [hodd] at this
    rw [abs_of_nonpos (by linarith)]
    linarith

/-- C44, `TwoSidedErf` with nonzero widths: the probability is strictly below one everywhere, so that the log
probability is strictly negative (or minus infinity where the probability is not positive); the residual
squares to minus twice it where it is finite. -/
theorem C44_erf (a wa b wb x : ℝ) (hwa : wa ≠ 0) (hwb : wb ≠ 0) :
    ∃ P : ℝ, P = 1 / 2 * erf ((b - x) / wb) + 1 / 2 * erf ((x - a) / wa) ∧ P < 1 ∧
      (0 < P → (Prior1.erf2 a wa b wb).lnprob x = .ok (.fin (Real.log P)) ∧ Real.log P < 0 ∧
        ∃ d : ℝ, (Prior1.erf2 a wa b wb).fdiff x = .ok (.fin d) ∧ d ^ 2 = -2 * Real.log P) ∧
      (P ≤ 0 → (Prior1.erf2 a wa b wb).lnprob x = .ok .ninf) := by
  have hP : Prior1.erfProb a wa b wb x =
      .fin (1 / 2 * erf ((b - x) / wb) + 1 / 2 * erf ((x - a) / wa)) := by
    simp only [Prior1.erfProb]
    rw [Fl.fin_div _ _ hwa, Fl.fin_div _ _ hwb]
    simp only [erfFl, Fl.fin_mul, Fl.fin_add]
    norm_num
  refine ⟨_, rfl, ?_, ?_, ?_⟩
  · have h1 := (abs_lt.mp (abs_erf_lt_one ((b - x) / wb))).2
    have h2 := (abs_lt.mp (abs_erf_lt_one ((x - a) / wa))).2
    linarith
  · intro hpos
    have hlt : 1 / 2 * erf ((b - x) / wb) + 1 / 2 * erf ((x - a) / wa) < 1 := by
      have h1 := (abs_lt.mp (abs_erf_lt_one ((b - x) / wb))).2
      have h2 := (abs_lt.mp (abs_erf_lt_one ((x - a) / wa))).2
      linarith
    have hln : Prior1.erfLnprob a wa b wb x =
        .fin (Real.log (1 / 2 * erf ((b - x) / wb) + 1 / 2 * erf ((x - a) / wa))) := by
      simp only [Prior1.erfLnprob, hP]
      rw [if_neg (by rw [hP]; simp only [Fl.lt, Fl.isZero]; push Not; exact ⟨hpos.le, hpos.ne'⟩)]
      simp only [logFl]
      rw [if_neg (not_lt.mpr hpos.le), if_neg hpos.ne']
    have hneg := Real.log_neg hpos hlt
    refine ⟨by simp only [Prior1.lnprob, hln], hneg, _, ?_, clipRoot_sq _ hneg.le⟩
    simp only [Prior1.fdiff, hln]
    rw [clipRoot_fin _ hneg.le]
  · intro hle
    simp only [Prior1.lnprob, Prior1.erfLnprob, hP]
    rw [if_pos]
    rw [hP]
    simp only [Fl.lt, Fl.isZero]
    rcases hle.lt_or_eq with h | h
    · exact Or.inl h
    · exact Or.inr h

/-- C44, `Sinh`: the residual is zero exactly at the mean, odd about it and increasing in the argument. -/
theorem C44_sinh (mean scale : ℝ) (hs : 0 < scale) :
    (∀ x, ∃ d, (Prior1.sinh mean scale).fdiff x = .ok (.fin d) ∧ d = Real.sinh ((x - mean) / scale) ∧
      (d = 0 ↔ x = mean)) ∧
    (∀ x y d e, x < y → (Prior1.sinh mean scale).fdiff x = .ok (.fin d) →
      (Prior1.sinh mean scale).fdiff y = .ok (.fin e) → d < e) := by
  have hf : ∀ x, (Prior1.sinh mean scale).fdiff x = .ok (.fin (Real.sinh ((x - mean) / scale))) := by
    intro x
    simp only [Prior1.fdiff]
    rw [Fl.fin_div _ _ hs.ne']
  constructor
  · intro x
    refine ⟨_, hf x, rfl, ?_⟩
    rw [Real.sinh_eq_zero, div_eq_zero_iff]
    constructor
    · rintro (h | h) <;> linarith
    · intro h; left; linarith
  · intro x y d e hxy hd he
    rw [hf] at hd he
    injection hd with hd; injection hd with hd
    injection he with he; injection he with he
    subst hd he
    rw [Real.sinh_lt_sinh]
    exact div_lt_div_of_pos_right (by linarith) hs

/-- C44 (disagreement): the documentation says that the residual of `Sinh` at `mean + scale` is one; it is
`sinh(1)`, which is larger. -/
theorem C44_sinh_doc (mean scale : ℝ) (hs : 0 < scale) :
    ∃ d, (Prior1.sinh mean scale).fdiff (mean + scale) = .ok (.fin d) ∧ d = Real.sinh 1 ∧ 1 < d := by
  obtain ⟨d, hd, he, -⟩ := (C44_sinh mean scale hs).1 (mean + scale)
  refine ⟨d, hd, ?_, ?_⟩
  · rw [he]; congr 1; field_simp; ring
  · rw [he, show (mean + scale - mean) / scale = 1 by field_simp; ring]
    exact Real.self_lt_sinh_iff.mpr one_pos

/-- The hypotheses are met. -/
example : ∃ p, Prior1.mkLogNormal 2 1 (some 3) = .ok p :=
  ⟨.lognormal 2 1 (some 3), by norm_num [Prior1.mkLogNormal]⟩
example : ∃ p, PriorG.mkBA 0.3 = .ok p := ⟨.ba 0.3 1, by norm_num [PriorG.mkBA]⟩
example : ∃ p, Prior1.mkTrunc 1 2 0 5 = .ok p := ⟨.trunc 1 2 0 5, by norm_num [Prior1.mkTrunc]⟩

end Ngmix.Props
