import Verif.Proof.SampleLaws1
import Mathlib.Analysis.SpecialFunctions.PolarCoord
import Mathlib.MeasureTheory.Integral.IntervalIntegral.Periodic

/-! # Laws of the samplers of two numbers -/

namespace Ngmix.Props

open Ngmix Ngmix.Spec MeasureTheory ProbabilityTheory

noncomputable section

theorem periodic_lintegral (T : ℝ) (hT : 0 < T) (F : ℝ → ENNReal) (hF : Function.Periodic F T) (t s : ℝ) :
    ∫⁻ x in Set.Ioc t (t + T), F x = ∫⁻ x in Set.Ioc s (s + T), F x := by
  have : Fact (0 < T) := ⟨hT⟩
  have h := AddCircle.lintegral_preimage T t hF.lift
  have h' := AddCircle.lintegral_preimage T s hF.lift
  simp only [Function.Periodic.lift_coe] at h h'
  rw [h, h']

theorem turns_lintegral (T : ℝ) (hT : 0 < T) (F : ℝ → ENNReal) (hF : Function.Periodic F T) (k : ℕ) (s : ℝ) :
    ∫⁻ x in Set.Ioc 0 (k * T), F x = k * ∫⁻ x in Set.Ioc s (s + T), F x := by
  induction k with
  | zero => simp
  | succ k ih =>
    have e : Set.Ioc 0 (((k + 1 : ℕ) : ℝ) * T) = Set.Ioc 0 (k * T) ∪ Set.Ioc (k * T) (k * T + T) := by
      rw [Set.Ioc_union_Ioc_eq_Ioc (by positivity) (by linarith)]
      congr 1; push_cast; ring
    rw [e, lintegral_union measurableSet_Ioc, ih, periodic_lintegral T hT F hF (k * T) s]
    · push_cast; ring
    · rw [Set.disjoint_left]
      rintro x ⟨-, h1⟩ ⟨h2, -⟩
      linarith

theorem uniform_turns (k : ℕ) (hk : 0 < k) (F : ℝ → ENNReal) (hm : Measurable F) (hF : Function.Periodic F (2 * Real.pi)) :
    ∫⁻ u, F (2 * Real.pi * k * u) ∂uniform01 = ENNReal.ofReal (1 / (2 * Real.pi)) * ∫⁻ x in Set.Ioo (-Real.pi) Real.pi, F x := by
  have hp := Real.pi_pos
  have hk' : (0 : ℝ) < k := by exact_mod_cast hk
  have hc : (0 : ℝ) < 2 * Real.pi * k := by positivity
  have hmul : Measurable fun u : ℝ => 0 + 2 * Real.pi * k * u := by fun_prop
  have e : ∫⁻ u, F (2 * Real.pi * k * u) ∂uniform01 = ∫⁻ x, F x ∂(uniform01.map fun u => 0 + 2 * Real.pi * k * u) := by
    rw [lintegral_map hm hmul]; simp
  rw [e, affine_law 0 _ hc, zero_add, lintegral_withDensity_eq_lintegral_mul _ (by
    exact (measurable_one.indicator measurableSet_Ico).const_mul _) hm]
  have e2 : ∀ x, ((fun x => ENNReal.ofReal (1 / (2 * Real.pi * k)) * (Set.Ico 0 (2 * Real.pi * k)).indicator 1 x) * F) x =
      ENNReal.ofReal (1 / (2 * Real.pi * k)) * (Set.Ico 0 (2 * Real.pi * k)).indicator F x := by
    intro x
    by_cases hx : x ∈ Set.Ico (0 : ℝ) (2 * Real.pi * k)
    · simp [Set.indicator_of_mem hx]
    · simp [Set.indicator_of_notMem hx]
  simp_rw [e2]
  rw [lintegral_const_mul _ (hm.indicator measurableSet_Ico), lintegral_indicator measurableSet_Ico,
    Measure.restrict_congr_set Ico_ae_eq_Ioc, show 2 * Real.pi * (k : ℝ) = k * (2 * Real.pi) by ring,
    turns_lintegral _ (by positivity) F hF k (-Real.pi), show -Real.pi + 2 * Real.pi = Real.pi by ring,
    Measure.restrict_congr_set (Ioo_ae_eq_Ioc (a := -Real.pi) (b := Real.pi)), ← mul_assoc]
  congr 1
  rw [show (k : ENNReal) = ENNReal.ofReal (k : ℝ) by simp, ← ENNReal.ofReal_mul (by positivity)]
  congr 1
  field_simp

/-- A radius of density `q` and a uniform angle, perhaps of several turns. -/
theorem polar_law (k : ℕ) (hk : 0 < k) (q : ℝ → ENNReal) (hq : Measurable q) (hq0 : ∀ r ≤ 0, q r = 0)
    [SFinite (volume.withDensity q)] :
    ((volume.withDensity q).prod uniform01).map
      (fun p => (p.1 * Real.cos (2 * Real.pi * k * p.2), p.1 * Real.sin (2 * Real.pi * k * p.2))) =
    volume.withDensity fun x : ℝ × ℝ => q (Real.sqrt (x.1 ^ 2 + x.2 ^ 2)) *
      ENNReal.ofReal (1 / (2 * Real.pi * Real.sqrt (x.1 ^ 2 + x.2 ^ 2))) := by
  have hf : Measurable fun p : ℝ × ℝ => (p.1 * Real.cos (2 * Real.pi * k * p.2), p.1 * Real.sin (2 * Real.pi * k * p.2)) := by
    fun_prop
  have hpol : Measurable fun p : ℝ × ℝ => (p.1 * Real.cos p.2, p.1 * Real.sin p.2) := by fun_prop
  have hd : Measurable fun x : ℝ × ℝ => q (Real.sqrt (x.1 ^ 2 + x.2 ^ 2)) *
      ENNReal.ofReal (1 / (2 * Real.pi * Real.sqrt (x.1 ^ 2 + x.2 ^ 2))) := by
    refine (hq.comp (by fun_prop)).mul (Measurable.ennreal_ofReal (by fun_prop))
  ext A hA
  have hAi : Measurable (A.indicator (1 : ℝ × ℝ → ENNReal)) := measurable_one.indicator hA
  rw [withDensity_apply _ hA, ← lintegral_indicator hA, ← lintegral_comp_polarCoord_symm]
  -- the left side
  have hL : ((volume.withDensity q).prod uniform01).map
      (fun p => (p.1 * Real.cos (2 * Real.pi * k * p.2), p.1 * Real.sin (2 * Real.pi * k * p.2))) A =
      ∫⁻ r, q r * (ENNReal.ofReal (1 / (2 * Real.pi)) * ∫⁻ t in Set.Ioo (-Real.pi) Real.pi,
        A.indicator 1 (r * Real.cos t, r * Real.sin t)) := by
    rw [← lintegral_indicator_one hA, lintegral_map hAi hf, lintegral_prod]
    swap
    · exact (hAi.comp hf).aemeasurable
    have hin : ∀ r : ℝ, ∫⁻ u, A.indicator (1 : ℝ × ℝ → ENNReal)
        (r * Real.cos (2 * Real.pi * k * u), r * Real.sin (2 * Real.pi * k * u)) ∂uniform01 =
        ENNReal.ofReal (1 / (2 * Real.pi)) * ∫⁻ t in Set.Ioo (-Real.pi) Real.pi, A.indicator 1 (r * Real.cos t, r * Real.sin t) := by
      intro r
      refine uniform_turns k hk (fun t => A.indicator 1 (r * Real.cos t, r * Real.sin t)) ?_ ?_
      · exact hAi.comp (by fun_prop)
      · intro t; simp only [Real.cos_add_two_pi, Real.sin_add_two_pi]
    simp_rw [hin]
    rw [lintegral_withDensity_eq_lintegral_mul _ hq]
    · rfl
    · refine Measurable.const_mul ?_ _
      exact Measurable.lintegral_prod_right' (f := fun p : ℝ × ℝ => A.indicator 1 (p.1 * Real.cos p.2, p.1 * Real.sin p.2))
        (hAi.comp hpol)
  rw [hL]
  have ht : polarCoord.target = Set.Ioi (0 : ℝ) ×ˢ Set.Ioo (-Real.pi) Real.pi := rfl
  rw [ht, Measure.volume_eq_prod, ← Measure.prod_restrict, lintegral_prod]
  · rw [← lintegral_indicator measurableSet_Ioi]
    congr 1
    ext r
    by_cases hr : r ∈ Set.Ioi (0 : ℝ)
    · rw [Set.indicator_of_mem hr]
      have hr' : 0 < r := hr
      have e : ∀ t, ENNReal.ofReal (r, t).1 • A.indicator (fun x : ℝ × ℝ => q (Real.sqrt (x.1 ^ 2 + x.2 ^ 2)) *
          ENNReal.ofReal (1 / (2 * Real.pi * Real.sqrt (x.1 ^ 2 + x.2 ^ 2)))) (polarCoord.symm (r, t)) =
          q r * ENNReal.ofReal (1 / (2 * Real.pi)) * A.indicator 1 (r * Real.cos t, r * Real.sin t) := by
        intro t
        have hs : polarCoord.symm (r, t) = (r * Real.cos t, r * Real.sin t) := rfl
        have hn : Real.sqrt ((r * Real.cos t) ^ 2 + (r * Real.sin t) ^ 2) = r := by
          rw [show (r * Real.cos t) ^ 2 + (r * Real.sin t) ^ 2 = r ^ 2 * (Real.sin t ^ 2 + Real.cos t ^ 2) by ring,
            Real.sin_sq_add_cos_sq, mul_one, Real.sqrt_sq hr'.le]
        rw [hs]
        by_cases hA' : (r * Real.cos t, r * Real.sin t) ∈ A
        · rw [Set.indicator_of_mem hA', Set.indicator_of_mem hA', hn, smul_eq_mul, Pi.one_apply, mul_one, mul_left_comm,
            ← ENNReal.ofReal_mul hr'.le]
          congr 2
          field_simp
        · rw [Set.indicator_of_notMem hA', Set.indicator_of_notMem hA']; simp
      simp_rw [e]
      rw [lintegral_const_mul, mul_assoc]
      exact hAi.comp (f := fun t : ℝ => (r * Real.cos t, r * Real.sin t)) (by fun_prop)
    · rw [Set.indicator_of_notMem hr, hq0 r (not_lt.1 hr), zero_mul]
  · refine Measurable.aemeasurable ?_
    exact (ENNReal.measurable_ofReal.comp measurable_fst).smul ((hd.indicator hA).comp hpol)

end

end Ngmix.Props
