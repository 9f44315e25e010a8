import Verif.Props.Norms
import Mathlib.Analysis.SpecialFunctions.Gaussian.GaussianIntegral
import Mathlib.MeasureTheory.Integral.Prod

/-!
# A gaussian component is a density (C21)
-/

namespace Ngmix.Props

open Ngmix Ngmix.Spec MeasureTheory

/-- The quadratic form of the inverse of the matrix `[[a, b], [b, c]]`, without writing the inverse:
the value `dv x + du y` for the solution of the linear system. -/
def InverseForm (a b c dv du q : ℝ) : Prop :=
  ∃ x y : ℝ, a * x + b * y = dv ∧ b * x + c * y = du ∧ q = dv * x + du * y

theorem chi2_square (g : Gauss) (d : Norms) (hd : g.d = some d) (h : NormsCurrent g) (hT : 0 < g.irr + g.icc)
    (v u : ℝ) :
    0 < g.irr ∧ 0 < g.irr * g.icc - g.irc * g.irc ∧
    gaussChi2 g d v u = g.irr / (g.irr * g.icc - g.irc * g.irc) *
      ((u - g.col) - g.irc / g.irr * (v - g.row)) ^ 2 + (v - g.row) ^ 2 / g.irr := by
  obtain ⟨d', hd', hdet, h1, h2, h3, -⟩ := h
  rw [hd] at hd'
  simp only [Option.some.injEq] at hd'
  subst hd'
  have hirr : 0 < g.irr := by
    by_contra hc
    push Not at hc
    have : g.irr * g.icc ≤ 0 := mul_nonpos_of_nonpos_of_nonneg hc (by linarith)
    nlinarith [mul_self_nonneg g.irc]
  refine ⟨hirr, hdet, ?_⟩
  simp only [gaussChi2, h1, h2, h3]
  have hi := hirr.ne'
  have hd := hdet.ne'
  generalize hD : g.irr * g.icc - g.irc * g.irc = D at hd
  have : g.icc = (D + g.irc * g.irc) / g.irr := by
    rw [← hD]; field_simp; ring
  rw [this]
  field_simp
  ring

/-- C21: chi-squared is the quadratic form of the inverse covariance; it is nonnegative and vanishes
exactly at the centre. -/
theorem C21_chi2 (g : Gauss) (d : Norms) (hd : g.d = some d) (h : NormsCurrent g)
    (hT : 0 < g.irr + g.icc) (v u : ℝ) :
    (∀ q, InverseForm g.irr g.irc g.icc (v - g.row) (u - g.col) q ↔ gaussChi2 g d v u = q) ∧
    0 ≤ gaussChi2 g d v u ∧ (gaussChi2 g d v u = 0 ↔ v = g.row ∧ u = g.col) := by
  obtain ⟨hirr, hdet, hsq⟩ := chi2_square g d hd h hT v u
  obtain ⟨d', hd', -, h1, h2, h3, -⟩ := h
  rw [hd] at hd'
  simp only [Option.some.injEq] at hd'
  subst hd'
  have hD : g.irr * g.icc - g.irc ^ 2 ≠ 0 := by rw [pow_two]; exact hdet.ne'
  have hD2 : g.icc * g.irr - g.irc ^ 2 ≠ 0 := by rw [mul_comm]; exact hD
  have hD3 : -g.irc ^ 2 + g.icc * g.irr ≠ 0 := by rw [neg_add_eq_sub]; exact hD2
  have hD4 : -g.irc ^ 2 + g.irr * g.icc ≠ 0 := by rw [neg_add_eq_sub]; exact hD
  refine ⟨fun q => ⟨?_, ?_⟩, ?_, ?_, ?_⟩
  · rintro ⟨x, y, hx, hy, rfl⟩
    simp only [gaussChi2, h1, h2, h3]
    rw [← hx, ← hy]
    field_simp
    ring
  · rintro rfl
    refine ⟨(g.icc * (v - g.row) - g.irc * (u - g.col)) / (g.irr * g.icc - g.irc * g.irc),
      (g.irr * (u - g.col) - g.irc * (v - g.row)) / (g.irr * g.icc - g.irc * g.irc), ?_, ?_, ?_⟩
    · field_simp; ring
    · field_simp; ring
    · simp only [gaussChi2, h1, h2, h3]
      field_simp
      ring
  · rw [hsq]; positivity
  · intro h0
    rw [hsq] at h0
    have hA : 0 ≤ g.irr / (g.irr * g.icc - g.irc * g.irc) *
      ((u - g.col) - g.irc / g.irr * (v - g.row)) ^ 2 := by positivity
    have hB : 0 ≤ (v - g.row) ^ 2 / g.irr := by positivity
    have hB0 : (v - g.row) ^ 2 / g.irr = 0 := by linarith
    have hv : v - g.row = 0 := by
      rcases div_eq_zero_iff.mp hB0 with hz | hz
      · exact pow_eq_zero_iff (two_ne_zero) |>.mp hz
      · exact absurd hz hirr.ne'
    have hA0 : g.irr / (g.irr * g.icc - g.irc * g.irc) *
      ((u - g.col) - g.irc / g.irr * (v - g.row)) ^ 2 = 0 := by linarith
    rw [hv, mul_zero, sub_zero] at hA0
    have hu : u - g.col = 0 := by
      rcases mul_eq_zero.mp hA0 with hz | hz
      · exact absurd hz (div_pos hirr hdet).ne'
      · exact pow_eq_zero_iff (two_ne_zero) |>.mp hz
    exact ⟨by linarith, by linarith⟩
  · rintro ⟨rfl, rfl⟩
    simp [gaussChi2]

/-- C21: the surface brightness is symmetric about the centre and, for positive flux, largest there and
only there. -/
theorem C21_symmetric_peak (g : Gauss) (h : NormsCurrent g) (hT : 0 < g.irr + g.icc) (area : ℝ) :
    (∀ dv du, gaussEval g (g.row + dv) (g.col + du) area = gaussEval g (g.row - dv) (g.col - du) area) ∧
    (0 < g.p → 0 < area → ∀ v u, (v, u) ≠ (g.row, g.col) →
      ∃ a b, gaussEval g v u area = some a ∧ gaussEval g g.row g.col area = some b ∧ 0 < a ∧ a < b) := by
  obtain ⟨d, hd, hdet, h1, h2, h3, h4, h5⟩ := id h
  constructor
  · intro dv du
    simp only [gaussEval, hd, Option.map_some, gaussChi2]
    ring_nf
  · intro hp ha v u hne
    obtain ⟨-, c1, c2⟩ := C21_chi2 g d hd h hT v u
    obtain ⟨-, -, c3⟩ := C21_chi2 g d hd h hT g.row g.col
    have hpn : 0 < d.pnorm := by
      rw [h5]
      have := Real.pi_pos
      have := Real.sqrt_pos.mpr hdet
      positivity
    have hc : 0 < gaussChi2 g d v u := by
      refine lt_of_le_of_ne c1 fun hz => hne ?_
      obtain ⟨rfl, rfl⟩ := c2.mp hz.symm
      rfl
    refine ⟨d.pnorm * Real.exp (-0.5 * gaussChi2 g d v u) * area,
      d.pnorm * Real.exp (-0.5 * gaussChi2 g d g.row g.col) * area,
      by simp only [gaussEval, hd, Option.map_some],
      by simp only [gaussEval, hd, Option.map_some], ?_, ?_⟩
    · have := Real.exp_pos (-0.5 * gaussChi2 g d v u)
      positivity
    · rw [c3.mpr ⟨rfl, rfl⟩, mul_zero]
      have : Real.exp (-0.5 * gaussChi2 g d v u) < Real.exp 0 := Real.exp_lt_exp.mpr (by nlinarith)
      exact mul_lt_mul_of_pos_right (mul_lt_mul_of_pos_left this hpn) ha

/-- A shifted gaussian integral. -/
theorem shifted_gaussian (b m : ℝ) : ∫ x : ℝ, Real.exp (-b * (x - m) ^ 2) = Real.sqrt (Real.pi / b) := by
  rw [integral_sub_right_eq_self (fun x : ℝ => Real.exp (-b * x ^ 2)) m]
  exact integral_gaussian b

theorem shifted_integrable (b m : ℝ) (hb : 0 < b) : Integrable fun x : ℝ => Real.exp (-b * (x - m) ^ 2) :=
  (integrable_exp_neg_mul_sq hb).comp_sub_right m

/-- C21: the exact evaluation is integrable over the plane and integrates to the flux `p` (per unit
pixel area). -/
theorem C21_integral (g : Gauss) (h : NormsCurrent g) (hT : 0 < g.irr + g.icc) :
    ∃ f : ℝ × ℝ → ℝ, (∀ v u, gaussEval g v u 1 = some (f (v, u))) ∧ Integrable f ∧ ∫ z, f z = g.p ∧
      (∫ v, ∫ u, f (v, u)) = g.p := by
  obtain ⟨d, hd, hdet, h1, h2, h3, h4, h5⟩ := id h
  have hirr := (chi2_square g d hd h hT 0 0).1
  set D := g.irr * g.icc - g.irc * g.irc with hD
  have hsplit : ∀ v u, Real.exp (-0.5 * gaussChi2 g d v u) =
      Real.exp (-(1 / (2 * g.irr)) * (v - g.row) ^ 2) *
      Real.exp (-(g.irr / (2 * D)) * (u - (g.col + g.irc / g.irr * (v - g.row))) ^ 2) := by
    intro v u
    rw [(chi2_square g d hd h hT v u).2.2, ← Real.exp_add]
    congr 1
    have hi := hirr.ne'
    have hd' := hdet.ne'
    rw [← hD]
    field_simp
    ring
  have hbv : 0 < 1 / (2 * g.irr) := by positivity
  have hbu : 0 < g.irr / (2 * D) := by positivity
  have hin : ∀ v, ∫ u, Real.exp (-0.5 * gaussChi2 g d v u) =
      Real.exp (-(1 / (2 * g.irr)) * (v - g.row) ^ 2) * Real.sqrt (Real.pi / (g.irr / (2 * D))) := by
    intro v
    simp only [hsplit, integral_const_mul, shifted_gaussian]
  have hout : ∫ v, ∫ u, Real.exp (-0.5 * gaussChi2 g d v u) = 2 * Real.pi * Real.sqrt D := by
    simp only [hin, integral_mul_const, shifted_gaussian]
    rw [← Real.sqrt_mul (by have := Real.pi_pos; positivity)]
    have hpi := Real.pi_pos
    rw [show Real.pi / (1 / (2 * g.irr)) * (Real.pi / (g.irr / (2 * D))) = (2 * Real.pi) ^ 2 * D by
      have := hirr.ne'; field_simp]
    rw [Real.sqrt_mul (by positivity), Real.sqrt_sq (by positivity)]
  have hcont : Continuous fun z : ℝ × ℝ => Real.exp (-0.5 * gaussChi2 g d z.1 z.2) := by
    unfold gaussChi2
    fun_prop
  have hint : Integrable fun z : ℝ × ℝ => Real.exp (-0.5 * gaussChi2 g d z.1 z.2) := by
    rw [Measure.volume_eq_prod, integrable_prod_iff hcont.aestronglyMeasurable]
    constructor
    · refine Filter.Eventually.of_forall fun v => ?_
      simp only [hsplit]
      exact (shifted_integrable _ _ hbu).const_mul _
    · simp only [Real.norm_of_nonneg (Real.exp_pos _).le, hin]
      exact (shifted_integrable _ _ hbv).mul_const _
  have hnorm : d.pnorm * (2 * Real.pi * Real.sqrt D) = g.p := by
    rw [h5]
    have := Real.pi_pos
    have := Real.sqrt_pos.mpr hdet
    exact div_mul_cancel₀ _ (by positivity)
  have hf := hint.const_mul d.pnorm
  refine ⟨fun z => d.pnorm * Real.exp (-0.5 * gaussChi2 g d z.1 z.2), ?_, hf, ?_, ?_⟩
  · intro v u
    simp only [gaussEval, hd, Option.map_some, mul_one]
  · rw [integral_const_mul, Measure.volume_eq_prod, integral_prod _ hint, hout, hnorm]
  · simp only [integral_const_mul, hout, hnorm]

/-- C21 for a whole mixture: the exact evaluation of a mixture with current norms integrates to its
flux. -/
theorem C21_mixture_integral (gm : List Gauss) (h : ∀ g ∈ gm, NormsCurrent g ∧ 0 < g.irr + g.icc) :
    ∃ f : ℝ × ℝ → ℝ, (∀ v u, gmixEval gm v u 1 = some (f (v, u))) ∧ Integrable f ∧ ∫ z, f z = Flux gm := by
  have key : ∀ (gm : List Gauss), (∀ g ∈ gm, NormsCurrent g ∧ 0 < g.irr + g.icc) → ∀ f0 : ℝ × ℝ → ℝ,
      Integrable f0 → ∃ f : ℝ × ℝ → ℝ,
        (∀ v u, gm.foldl (fun acc g => acc.bind fun a => (gaussEval g v u 1).map fun b => a + b)
          (some (f0 (v, u))) = some (f (v, u))) ∧ Integrable f ∧ ∫ z, f z = (∫ z, f0 z) + Flux gm := by
    intro gm
    induction gm with
    | nil => intro _ f0 h0; exact ⟨f0, fun _ _ => rfl, h0, by simp [Flux]⟩
    | cons g gm ih =>
      intro hg f0 h0
      obtain ⟨f1, e1, i1, j1, -⟩ := C21_integral g (hg g List.mem_cons_self).1 (hg g List.mem_cons_self).2
      obtain ⟨f, e, i, j⟩ := ih (fun x hx => hg x (List.mem_cons_of_mem _ hx)) (fun z => f0 z + f1 z)
        (h0.add i1)
      refine ⟨f, fun v u => ?_, i, ?_⟩
      · rw [List.foldl_cons]
        simp only [Option.bind_some, e1, Option.map_some]
        exact e v u
      · rw [j, integral_add h0 i1, j1]
        simp only [Flux, List.map_cons, List.sum_cons]
        ring
  obtain ⟨f, e, i, j⟩ := key gm h (fun _ => 0) (integrable_zero _ _ _)
  exact ⟨f, e, i, by simpa using j⟩

/-- The hypotheses are met by every gaussian whose norms were set, e.g. an elliptical one. -/
example : NormsCurrent (gauss2dSetNorm (gauss2dSet 2 1 3 4 1 5)).1 ∧
    0 < (gauss2dSetNorm (gauss2dSet 2 1 3 4 1 5)).1.irr + (gauss2dSetNorm (gauss2dSet 2 1 3 4 1 5)).1.icc := by
  have hu : Usable (gauss2dSet 2 1 3 4 1 5) := by
    constructor <;> norm_num [gauss2dSet, gmixLowDetval]
  obtain ⟨-, h2, -, h3, -⟩ := (C20_set_norm (gauss2dSet 2 1 3 4 1 5) rfl).1 hu
  refine ⟨h2, ?_⟩
  rw [← h3.2.2.2.1, ← h3.2.2.2.2.2]
  norm_num [gauss2dSet]

end Ngmix.Props
