import Verif.Proof.SampleLaws2
import Verif.Props.GPrior

/-! # Laws of the samplers of erf, bounded, disk, position and shape priors -/

namespace Ngmix.Props

open Ngmix Ngmix.Spec MeasureTheory ProbabilityTheory

noncomputable section

theorem erf_continuous : Continuous erf := by
  unfold erf
  have hc : Continuous fun t : ℝ => Real.exp (-t ^ 2) := by fun_prop
  exact (intervalIntegral.continuous_primitive (fun a b => hc.intervalIntegrable a b) 0).const_mul _

theorem erf_density (a wa b wb x : ℝ) (hwa : wa ≠ 0) (hwb : wb ≠ 0) :
    densityOf (Prior1.erf2 a wa b wb).lnprob x = ENNReal.ofReal (1 / 2 * erf ((b - x) / wb) + 1 / 2 * erf ((x - a) / wa)) := by
  unfold densityOf
  simp only [Prior1.lnprob, Prior1.erfLnprob]
  rw [erfProb_fin a wa b wb x hwa hwb]
  generalize 1 / 2 * erf ((b - x) / wb) + 1 / 2 * erf ((x - a) / wa) = P
  by_cases h : P ≤ 0
  · rw [if_pos (by simp only [Fl.lt, Fl.isZero]; exact h.lt_or_eq), ENNReal.ofReal_of_nonpos h]
  · rw [if_neg (by simp only [Fl.lt, Fl.isZero]; rintro (h' | h') <;> linarith)]
    simp only [logFl]
    push Not at h
    rw [if_neg (not_lt.2 h.le), if_neg h.ne']
    simp only [Real.exp_log h]

theorem erf_le_one (a wa b wb x : ℝ) (hwa : wa ≠ 0) (hwb : wb ≠ 0) :
    1 / 2 * erf ((b - x) / wb) + 1 / 2 * erf ((x - a) / wa) ≤ 1 := by
  rcases erfProb_cases a wa b wb x with h | ⟨P, h, h1⟩
  · rw [erfProb_fin a wa b wb x hwa hwb] at h; cases h
  · rw [erfProb_fin a wa b wb x hwa hwb] at h; injection h with h; rw [h]; exact h1

theorem erf_pos {x : ℝ} (h : 0 < x) : 0 < erf x := by
  have := erf_strictMono h
  rwa [show erf 0 = 0 by simp [erf]] at this

theorem erf_kept (a wa b wb : ℝ) (hwa : 0 < wa) (hwb : 0 < wb) (d : ℝ × ℝ) :
    Fl.lt (.fin d.2) (Prior1.erfProb a wa b wb (erfTrial a wa b wb d.1)) ↔
      d.2 < 1 / 2 * erf ((b - erfTrial a wa b wb d.1) / wb) + 1 / 2 * erf ((erfTrial a wa b wb d.1 - a) / wa) := by
  rw [erfProb_fin _ _ _ _ _ hwa.ne' hwb.ne']; rfl

theorem erf_part_pos (a wa b wb : ℝ) (hwa : 0 < wa) (hwb : 0 < wb) (hab : a < b) :
    (uniform01.prod uniform01) {d : ℝ × ℝ | d.2 < 1 / 2 * erf ((b - erfTrial a wa b wb d.1) / wb) +
      1 / 2 * erf ((erfTrial a wa b wb d.1 - a) / wa)} ≠ 0 := by
  have hr : 0 < (b + 5.0 * wb) - (a - 5.0 * wa) := by norm_num; linarith
  have hX : Measurable (erfTrial a wa b wb) := by unfold erfTrial erfRange; fun_prop
  have he := erf_continuous
  refine height_pos uniform01 (erfTrial a wa b wb) hX
    (fun x => 1 / 2 * erf ((b - x) / wb) + 1 / 2 * erf ((x - a) / wa)) (Continuous.measurable (by fun_prop))
    (fun x => erf_le_one _ _ _ _ _ hwa.ne' hwb.ne') (Set.Ioo a b) ?_ ?_
  · have e : uniform01.map (erfTrial a wa b wb) = _ := affine_law (a - 5.0 * wa) ((b + 5.0 * wb) - (a - 5.0 * wa)) hr
    rw [e, withDensity_apply _ measurableSet_Ioo]
    rw [setLIntegral_congr_fun (g := fun _ => ENNReal.ofReal (1 / ((b + 5.0 * wb) - (a - 5.0 * wa)))) measurableSet_Ioo]
    · rw [setLIntegral_const, Real.volume_Ioo]
      have : 0 < b - a := by linarith
      refine mul_ne_zero ?_ ?_ <;> rw [Ne, ENNReal.ofReal_eq_zero, not_le] <;> positivity
    · intro x hx
      have : x ∈ Set.Ico (a - 5.0 * wa) (a - 5.0 * wa + ((b + 5.0 * wb) - (a - 5.0 * wa))) := by
        obtain ⟨h1, h2⟩ := hx
        constructor <;> norm_num <;> linarith
      simp only [Set.indicator_of_mem this, Pi.one_apply, mul_one]
  · rintro x ⟨h1, h2⟩
    have e1 := erf_pos (div_pos (show 0 < b - x by linarith) hwb)
    have e2 := erf_pos (div_pos (show 0 < x - a by linarith) hwa)
    linarith

theorem law_erf (a wa b wb : ℝ) (hwa : 0 < wa) (hwb : 0 < wb) (hab : a < b) :
    IsLawOf (cutTo (Set.Ico (a - 5 * wa) (b + 5 * wb)) (Prior1.erf2 a wa b wb).lnprob)
      ((cond (uniform01.prod uniform01) {d : ℝ × ℝ | d.2 < 1 / 2 * erf ((b - erfTrial a wa b wb d.1) / wb) +
        1 / 2 * erf ((erfTrial a wa b wb d.1 - a) / wa)}).map fun d => erfTrial a wa b wb d.1) := by
  have hr : 0 < (b + 5.0 * wb) - (a - 5.0 * wa) := by norm_num; linarith
  have hX : Measurable (erfTrial a wa b wb) := by unfold erfTrial erfRange; fun_prop
  have he := erf_continuous
  refine law_height uniform01 (erfTrial a wa b wb) hX _ measurableSet_Ico
    (ENNReal.ofReal (1 / ((b + 5.0 * wb) - (a - 5.0 * wa)))) ENNReal.ofReal_ne_top ?_
    (fun x => 1 / 2 * erf ((b - x) / wb) + 1 / 2 * erf ((x - a) / wa)) (Continuous.measurable (by fun_prop))
    (fun x => erf_le_one _ _ _ _ _ hwa.ne' hwb.ne') _ 1 ENNReal.one_ne_top ?_ (erf_part_pos a wa b wb hwa hwb hab)
  · have e : uniform01.map (erfTrial a wa b wb) = _ := affine_law (a - 5.0 * wa) ((b + 5.0 * wb) - (a - 5.0 * wa)) hr
    rw [e]
    have : a - 5.0 * wa + ((b + 5.0 * wb) - (a - 5.0 * wa)) = b + 5 * wb := by norm_num
    rw [this, show a - 5.0 * wa = a - 5 * wa by norm_num]
  · intro x _
    rw [erf_density a wa b wb x hwa.ne' hwb.ne', one_mul]

/-- The law of a prior given that the value is in a set. -/
theorem law_given [MeasureSpace α] (lnprob : α → Except PyErr Fl) (ν : Measure α) (h : IsLawOf lnprob ν) (S : Set α)
    (hS : MeasurableSet S) (hp : ν S ≠ 0) : IsLawOf (cutTo S lnprob) (cond ν S) := by
  obtain ⟨hν, c, hc, he⟩ := h
  have := cond_isProbabilityMeasure hp
  refine isLawOf_intro inferInstance ((ν S)⁻¹ * ENNReal.ofReal c) ?_
    (ENNReal.mul_ne_top (ENNReal.inv_ne_top.2 hp) ENNReal.ofReal_ne_top)
  have e : (fun x => (ν S)⁻¹ * ENNReal.ofReal c * densityOf (cutTo S lnprob) x) =
      (ν S)⁻¹ • S.indicator (fun x => ENNReal.ofReal c * densityOf lnprob x) := by
    funext x
    rw [cutTo_density, Pi.smul_apply, smul_eq_mul, mul_assoc]
    congr 1
    by_cases hx : x ∈ S
    · simp [Set.indicator_of_mem hx]
    · simp [Set.indicator_of_notMem hx]
  rw [e, withDensity_smul' _ _ (ENNReal.inv_ne_top.2 hp), withDensity_indicator hS, ← restrict_withDensity hS, ← he]
  rfl

/-! ### The disk -/

theorem uniform01_Ioo : uniform01 = volume.withDensity ((Set.Ioo (0 : ℝ) 1).indicator 1) := by
  rw [withDensity_indicator_one measurableSet_Ioo]
  unfold uniform01
  exact Measure.restrict_congr_set Ioo_ae_eq_Ico.symm

/-- The density of the radius of a uniform position in a disk. -/
def diskRadius (radius r : ℝ) : ENNReal := ENNReal.ofReal (2 / radius ^ 2 * r) * (Set.Ioo 0 |radius|).indicator 1 r

theorem diskRadius_measurable (radius : ℝ) : Measurable (diskRadius radius) := by
  unfold diskRadius
  exact (Measurable.ennreal_ofReal (by fun_prop)).mul (measurable_one.indicator measurableSet_Ioo)

theorem disk_radius_law (radius : ℝ) (hr : radius ≠ 0) :
    uniform01.map (fun u => Real.sqrt (radius ^ 2 * u)) = volume.withDensity (diskRadius radius) := by
  have hR : 0 < radius ^ 2 := by positivity
  rw [uniform01_Ioo]
  refine map_withDensity_deriv_on (Set.Ioo 0 1) measurableSet_Ioo _ (fun u => radius ^ 2 / (2 * Real.sqrt (radius ^ 2 * u)))
    (by fun_prop) ?_ ?_ _ _ ?_ (fun x hx => Set.indicator_of_notMem hx _) ?_
  · rintro x ⟨h0, h1⟩
    have := (((hasDerivAt_id x).const_mul (radius ^ 2)).sqrt (by simp only [id]; positivity))
    simpa using this.hasDerivWithinAt
  · rintro x ⟨h0, _⟩ y ⟨h0', _⟩ h
    have := (Real.sqrt_inj (by positivity) (by positivity)).1 h
    exact mul_left_cancel₀ hR.ne' this
  · rintro x ⟨h0, h1⟩
    have hs : 0 < Real.sqrt (radius ^ 2 * x) := Real.sqrt_pos.2 (by positivity)
    have hin : Real.sqrt (radius ^ 2 * x) ∈ Set.Ioo 0 |radius| := by
      refine ⟨hs, ?_⟩
      rw [← Real.sqrt_sq_eq_abs]
      exact Real.sqrt_lt_sqrt (by positivity) (by nlinarith)
    unfold diskRadius
    rw [Set.indicator_of_mem (show x ∈ Set.Ioo (0 : ℝ) 1 from ⟨h0, h1⟩), Set.indicator_of_mem hin]
    simp only [Pi.one_apply, mul_one]
    rw [← ENNReal.ofReal_mul (abs_nonneg _), abs_of_pos (by positivity), ← ENNReal.ofReal_one]
    congr 1
    field_simp
  · intro y hy
    unfold diskRadius
    rw [Set.indicator_of_notMem, mul_zero]
    rintro ⟨h0, h1⟩
    refine hy ⟨y ^ 2 / radius ^ 2, ⟨by positivity, ?_⟩, ?_⟩
    · rw [div_lt_one hR, ← sq_abs radius]
      exact pow_lt_pow_left₀ h1 h0.le two_ne_zero
    · dsimp only
      rw [mul_div_cancel₀ _ hR.ne', Real.sqrt_sq h0.le]

theorem disk_density (radius : ℝ) (g : ℝ × ℝ) : densityOf (fun g : ℝ × ℝ => (PriorG.disk radius).lnprob g.1 g.2) g =
    {g : ℝ × ℝ | g.1 ^ 2 + g.2 ^ 2 < radius ^ 2}.indicator 1 g := by
  unfold densityOf
  simp only [PriorG.lnprob]
  by_cases h : g.1 ^ 2 + g.2 ^ 2 ≥ radius ^ 2
  · rw [if_pos h, Set.indicator_of_notMem (by simpa using h)]
  · rw [if_neg h, Set.indicator_of_mem (by simpa using h)]
    simp

theorem law_disk (radius : ℝ) (hr : radius ≠ 0) : IsLawOf (fun g : ℝ × ℝ => (PriorG.disk radius).lnprob g.1 g.2)
    ((uniform01.prod uniform01).map fun u => diskDraw radius u.1 u.2) := by
  have hR : 0 < radius ^ 2 := by positivity
  have hm : Measurable fun u : ℝ × ℝ => diskDraw radius u.1 u.2 := by unfold diskDraw; fun_prop
  have hrm : Measurable fun u : ℝ => Real.sqrt (radius ^ 2 * u) := by fun_prop
  have hl := disk_radius_law radius hr
  have : IsProbabilityMeasure (volume.withDensity (diskRadius radius)) := by
    rw [← hl]; exact Measure.isProbabilityMeasure_map hrm.aemeasurable
  have hpolar := polar_law 1 one_pos (diskRadius radius) (diskRadius_measurable radius) (by
    intro r h
    unfold diskRadius
    rw [Set.indicator_of_notMem (fun h' => by have := h'.1; linarith), mul_zero])
  have e : (uniform01.prod uniform01).map (fun u => diskDraw radius u.1 u.2) =
      ((volume.withDensity (diskRadius radius)).prod uniform01).map
      (fun p => (p.1 * Real.cos (2 * Real.pi * (1 : ℕ) * p.2), p.1 * Real.sin (2 * Real.pi * (1 : ℕ) * p.2))) := by
    have h2 : (volume.withDensity (diskRadius radius)).prod uniform01 =
        (uniform01.prod uniform01).map (Prod.map (fun u => Real.sqrt (radius ^ 2 * u)) id) := by
      rw [← hl, ← Measure.map_prod_map _ _ hrm measurable_id, Measure.map_id]
    rw [h2, Measure.map_map (by fun_prop) (hrm.prodMap measurable_id)]
    congr 1
    funext u
    simp [diskDraw]
  refine isLawOf_ae (Measure.isProbabilityMeasure_map hm.aemeasurable) (ENNReal.ofReal (1 / (Real.pi * radius ^ 2)))
    ENNReal.ofReal_ne_top _ (e.trans hpolar) ?_
  have : ∀ᵐ x : ℝ × ℝ, x ≠ 0 := by
    rw [ae_iff]; simp
  filter_upwards [this] with x hx
  rw [disk_density]
  have hpos : 0 < x.1 ^ 2 + x.2 ^ 2 := by
    by_contra h
    have h1 : x.1 ^ 2 = 0 := by nlinarith [sq_nonneg x.1, sq_nonneg x.2]
    have h2 : x.2 ^ 2 = 0 := by nlinarith [sq_nonneg x.1, sq_nonneg x.2]
    exact hx (Prod.ext (by simpa using h1) (by simpa using h2))
  have hs := Real.sqrt_pos.2 hpos
  unfold diskRadius
  by_cases h : x.1 ^ 2 + x.2 ^ 2 < radius ^ 2
  · rw [Set.indicator_of_mem (show x ∈ {g : ℝ × ℝ | g.1 ^ 2 + g.2 ^ 2 < radius ^ 2} from h), Set.indicator_of_mem]
    · simp only [Pi.one_apply, mul_one]
      rw [← ENNReal.ofReal_mul (by positivity)]
      congr 1
      generalize Real.sqrt (x.1 ^ 2 + x.2 ^ 2) = s at hs
      field_simp
    · refine ⟨hs, ?_⟩
      rw [← Real.sqrt_sq_eq_abs]
      exact Real.sqrt_lt_sqrt hpos.le h
  · rw [Set.indicator_of_notMem (show x ∉ {g : ℝ × ℝ | g.1 ^ 2 + g.2 ^ 2 < radius ^ 2} from h), Set.indicator_of_notMem]
    · simp
    · rintro ⟨-, h'⟩
      rw [← Real.sqrt_sq_eq_abs] at h'
      exact h ((Real.sqrt_lt_sqrt_iff hpos.le).1 h')

/-! ### Positions, and gaussian shapes -/

theorem cen_density (p : CenPrior) (x : ℝ × ℝ) : densityOf (fun x : ℝ × ℝ => .ok (.fin (p.lnprob x.1 x.2))) x =
    ENNReal.ofReal (Real.exp (-(x.1 - p.cen1) ^ 2 / (2 * p.sigma1 ^ 2))) *
      ENNReal.ofReal (Real.exp (-(x.2 - p.cen2) ^ 2 / (2 * p.sigma2 ^ 2))) := by
  unfold densityOf
  dsimp only
  rw [← ENNReal.ofReal_mul (Real.exp_pos _).le, ← Real.exp_add]
  congr 2
  unfold CenPrior.lnprob
  norm_num
  ring

theorem law_cen (p : CenPrior) (h1 : p.sigma1 ≠ 0) (h2 : p.sigma2 ≠ 0) :
    IsLawOf (fun x : ℝ × ℝ => .ok (.fin (p.lnprob x.1 x.2)))
      ((stdNormal.prod stdNormal).map fun z => (p.cen1 + p.sigma1 * z.1, p.cen2 + p.sigma2 * z.2)) := by
  have hm1 : Measurable fun z : ℝ => p.cen1 + p.sigma1 * z := by fun_prop
  have hm2 : Measurable fun z : ℝ => p.cen2 + p.sigma2 * z := by fun_prop
  have e : (stdNormal.prod stdNormal).map (fun z => (p.cen1 + p.sigma1 * z.1, p.cen2 + p.sigma2 * z.2)) =
      (stdNormal.map fun z => p.cen1 + p.sigma1 * z).prod (stdNormal.map fun z => p.cen2 + p.sigma2 * z) := by
    rw [Measure.map_prod_map _ _ hm1 hm2]; rfl
  refine isLawOf_intro (Measure.isProbabilityMeasure_map (by fun_prop))
    (ENNReal.ofReal (Real.sqrt (2 * Real.pi * p.sigma1 ^ 2))⁻¹ * ENNReal.ofReal (Real.sqrt (2 * Real.pi * p.sigma2 ^ 2))⁻¹) ?_
    (ENNReal.mul_ne_top ENNReal.ofReal_ne_top ENNReal.ofReal_ne_top)
  rw [e, normal_map _ _ h1, normal_map _ _ h2, prod_withDensity (by fun_prop) (by fun_prop), Measure.volume_eq_prod]
  congr 1
  funext x
  rw [cen_density]
  ring

theorem law_gauss (sigma : ℝ) (h : sigma ≠ 0) :
    (stdNormal.prod stdNormal) {d : ℝ × ℝ | Real.sqrt ((sigma * d.1) ^ 2 + (sigma * d.2) ^ 2) < 1 - 1.0e-4} ≠ 0 ∧
    IsLawOf (cutTo {g : ℝ × ℝ | Real.sqrt (g.1 ^ 2 + g.2 ^ 2) < 1 - 1.0e-4}
      fun g : ℝ × ℝ => .ok (.fin ((⟨0, 0, sigma, sigma⟩ : CenPrior).lnprob g.1 g.2)))
      ((cond (stdNormal.prod stdNormal) {d : ℝ × ℝ | Real.sqrt ((sigma * d.1) ^ 2 + (sigma * d.2) ^ 2) < 1 - 1.0e-4}).map
        fun z => (sigma * z.1, sigma * z.2)) := by
  have hm : Measurable fun z : ℝ × ℝ => (sigma * z.1, sigma * z.2) := by fun_prop
  have hS : MeasurableSet {g : ℝ × ℝ | Real.sqrt (g.1 ^ 2 + g.2 ^ 2) < 1 - 1.0e-4} :=
    measurableSet_lt (by fun_prop) measurable_const
  have hlaw := law_cen ⟨0, 0, sigma, sigma⟩ h h
  simp only [zero_add] at hlaw
  have hpart : ((stdNormal.prod stdNormal).map fun z => (sigma * z.1, sigma * z.2))
      {g : ℝ × ℝ | Real.sqrt (g.1 ^ 2 + g.2 ^ 2) < 1 - 1.0e-4} ≠ 0 := by
    have hmeas : Measurable fun x : ℝ × ℝ => densityOf (fun x : ℝ × ℝ =>
        .ok (.fin ((⟨0, 0, sigma, sigma⟩ : CenPrior).lnprob x.1 x.2))) x := by
      have : (fun x : ℝ × ℝ => densityOf (fun x : ℝ × ℝ =>
        .ok (.fin ((⟨0, 0, sigma, sigma⟩ : CenPrior).lnprob x.1 x.2))) x) = _ := funext fun x => cen_density _ x
      rw [this]; fun_prop
    obtain ⟨-, c, hc, he⟩ := hlaw
    rw [he, withDensity_apply _ hS]
    intro h0
    rw [lintegral_eq_zero_iff (hmeas.const_mul _)] at h0
    have hopen : IsOpen {g : ℝ × ℝ | Real.sqrt (g.1 ^ 2 + g.2 ^ 2) < 1 - 1.0e-4} :=
      isOpen_lt (by fun_prop) continuous_const
    have hne := hopen.measure_pos volume ⟨(0, 0), by norm_num⟩
    have hbad : (volume.restrict {g : ℝ × ℝ | Real.sqrt (g.1 ^ 2 + g.2 ^ 2) < 1 - 1.0e-4}) Set.univ = 0 := by
      refine measure_mono_null ?_ (ae_iff.1 h0)
      intro x _
      simp only [Set.mem_setOf_eq, Pi.zero_apply]
      rw [cen_density]
      refine mul_ne_zero (by simpa using hc) (mul_ne_zero ?_ ?_) <;> simp [Real.exp_pos]
    rw [Measure.restrict_apply MeasurableSet.univ, Set.univ_inter] at hbad
    exact hne.ne' hbad
  have e := map_cond (stdNormal.prod stdNormal) _ hm _ hS
  refine ⟨?_, ?_⟩
  · rwa [Measure.map_apply hm hS] at hpart
  · have := law_given _ _ hlaw _ hS hpart
    rw [← e] at this
    exact this

end

end Ngmix.Props
