import Verif.Proof.SampleLaw
import Verif.Proof.SampleDensity
import Verif.Props.Priors
import Verif.Props.PriorArrays
import Verif.Proof.JointPrior

/-! # Laws of the samplers of one number -/

namespace Ngmix.Props

open Ngmix Ngmix.Spec MeasureTheory ProbabilityTheory

noncomputable section

variable {α β : Type}

instance : IsProbabilityMeasure uniform01 := ⟨by simp [uniform01]⟩

instance : IsProbabilityMeasure stdNormal := by unfold stdNormal; infer_instance

theorem isLawOf_ae [MeasureSpace α] {lnprob : α → Except PyErr Fl} {ν : Measure α} (hν : IsProbabilityMeasure ν)
    (k : ENNReal) (hk : k ≠ ⊤) (g : α → ENNReal) (h : ν = volume.withDensity g)
    (hg : g =ᵐ[volume] fun x => k * densityOf lnprob x) : IsLawOf lnprob ν :=
  isLawOf_intro hν k (by rw [h, withDensity_congr_ae hg]) hk

theorem uniform01_density : uniform01 = volume.withDensity ((Set.Ico (0 : ℝ) 1).indicator 1) := by
  rw [withDensity_indicator_one measurableSet_Ico]; rfl

theorem affine_law (a b : ℝ) (hb : 0 < b) : uniform01.map (fun u => a + b * u) =
    volume.withDensity fun x => ENNReal.ofReal (1 / b) * (Set.Ico a (a + b)).indicator 1 x := by
  rw [uniform01_density]
  refine map_withDensity_deriv _ (fun _ => b) (fun x => ?_) ?_ _ _ (fun x => ?_) (fun y hy => ?_)
  · simpa using ((hasDerivAt_id x).const_mul b).const_add a
  · intro x y hxy
    have : b * x = b * y := by simpa using hxy
    exact mul_left_cancel₀ hb.ne' this
  · rw [abs_of_pos hb, ← mul_assoc, ← ENNReal.ofReal_mul hb.le, mul_one_div_cancel hb.ne', ENNReal.ofReal_one, one_mul]
    have : a + b * x ∈ Set.Ico a (a + b) ↔ x ∈ Set.Ico (0 : ℝ) 1 := by
      simp only [Set.mem_Ico, le_add_iff_nonneg_right, add_lt_add_iff_left]
      rw [mul_nonneg_iff_of_pos_left hb, mul_lt_iff_lt_one_right hb]
    by_cases hx : x ∈ Set.Ico (0 : ℝ) 1
    · rw [Set.indicator_of_mem hx, Set.indicator_of_mem (this.2 hx)]; rfl
    · rw [Set.indicator_of_notMem hx, Set.indicator_of_notMem (fun h => hx (this.1 h))]
  · exact absurd ⟨(y - a) / b, by field_simp; ring⟩ hy

theorem flat_density (lo hi x : ℝ) : densityOf (Prior1.flat lo hi).lnprob x = (Set.Icc lo hi).indicator 1 x := by
  unfold densityOf
  simp only [Prior1.lnprob]
  by_cases h : x < lo ∨ x > hi
  · rw [if_pos h, Set.indicator_of_notMem]
    rintro ⟨h1, h2⟩
    rcases h with h | h <;> linarith
  · rw [if_neg h, Set.indicator_of_mem]
    · simp
    · push Not at h; exact ⟨h.1, h.2⟩

theorem law_flat (lo hi : ℝ) (h : lo < hi) : IsLawOf (Prior1.flat lo hi).lnprob (uniform01.map (flatDraw lo hi)) := by
  have hm : Measurable (flatDraw lo hi) := by unfold flatDraw; fun_prop
  refine isLawOf_ae (Measure.isProbabilityMeasure_map hm.aemeasurable) (ENNReal.ofReal (1 / (hi - lo))) ENNReal.ofReal_ne_top _
    (affine_law lo (hi - lo) (by linarith)) ?_
  have : ∀ᵐ x : ℝ, x ≠ hi := by
    rw [ae_iff]; simp
  filter_upwards [this] with x hx
  rw [flat_density]
  congr 1
  by_cases h1 : x ∈ Set.Icc lo hi
  · rw [Set.indicator_of_mem h1, Set.indicator_of_mem]
    exact ⟨h1.1, by rw [add_sub_cancel]; exact lt_of_le_of_ne h1.2 hx⟩
  · rw [Set.indicator_of_notMem h1, Set.indicator_of_notMem]
    rintro ⟨a, b⟩
    exact h1 ⟨a, by linarith⟩

theorem normal_map (mean sigma : ℝ) (hs : sigma ≠ 0) : stdNormal.map (fun z => mean + sigma * z) =
    volume.withDensity fun x => ENNReal.ofReal (Real.sqrt (2 * Real.pi * sigma ^ 2))⁻¹ *
      ENNReal.ofReal (Real.exp (-(x - mean) ^ 2 / (2 * sigma ^ 2))) := by
  have e : stdNormal.map (fun z => mean + sigma * z) = gaussianReal mean (NNReal.mk (sigma ^ 2) (sq_nonneg sigma)) := by
    have h1 := gaussianReal_map_const_mul (μ := 0) (v := 1) sigma
    have h2 := gaussianReal_map_const_add (μ := sigma * 0) (v := NNReal.mk (sigma ^ 2) (sq_nonneg sigma) * 1) mean
    rw [← h1, Measure.map_map (by fun_prop) (by fun_prop)] at h2
    rw [stdNormal]
    rw [show (fun z => mean + sigma * z) = (fun x => mean + x) ∘ fun x => sigma * x from rfl, h2]
    simp
  have hv : (NNReal.mk (sigma ^ 2) (sq_nonneg sigma) : NNReal) ≠ 0 := by
    intro h
    have : sigma ^ 2 = 0 := congrArg NNReal.toReal h
    exact hs (by simpa using this)
  rw [e, gaussianReal_of_var_ne_zero _ hv]
  congr 1
  ext x
  show ENNReal.ofReal (gaussianPDFReal _ _ _) = _
  rw [gaussianPDFReal, ENNReal.ofReal_mul (by positivity)]
  rfl

theorem normal_density (mean sigma : ℝ) (b : Option (ℝ × ℝ)) (x : ℝ) :
    densityOf (Prior1.normal mean sigma b).lnprob x = ENNReal.ofReal (Real.exp (-(x - mean) ^ 2 / (2 * sigma ^ 2))) := by
  unfold densityOf
  simp only [Prior1.lnprob]
  congr 2
  by_cases h : sigma = 0
  · simp [h]
  · field_simp; norm_num; ring

theorem law_normal (mean sigma : ℝ) (hs : sigma ≠ 0) (b : Option (ℝ × ℝ)) :
    IsLawOf (Prior1.normal mean sigma b).lnprob (stdNormal.map fun z => mean + sigma * z) := by
  refine isLawOf_intro (Measure.isProbabilityMeasure_map (by fun_prop))
    (ENNReal.ofReal (Real.sqrt (2 * Real.pi * sigma ^ 2))⁻¹) ?_ ENNReal.ofReal_ne_top
  rw [normal_map mean sigma hs]
  simp_rw [normal_density]

theorem map_cond [MeasurableSpace α] [MeasurableSpace β] (μ : Measure α) (f : α → β) (hf : Measurable f) (S : Set β)
    (hS : MeasurableSet S) : (cond μ (f ⁻¹' S)).map f = cond (μ.map f) S := by
  ext A hA
  rw [Measure.map_apply hf hA, cond_apply (hf hS), cond_apply hS, Measure.map_apply hf hS, Measure.map_apply hf (hS.inter hA)]
  rfl

theorem lognormalDraw_eq (mean sigma : ℝ) (shift : Option ℝ) (z : ℝ) : lognormalDraw mean sigma shift z =
    Real.exp (Prior1.lnLogmean mean sigma + Real.sqrt (Prior1.lnLogvar mean sigma) * z) + shift.getD 0 := by
  cases shift <;> simp [lognormalDraw]

theorem law_lognormal (mean sigma : ℝ) (hm : 0 < mean) (hs : sigma ≠ 0) (shift : Option ℝ) :
    IsLawOf (Prior1.lognormal mean sigma shift).lnprob (stdNormal.map (lognormalDraw mean sigma shift)) := by
  have hv : 0 < Prior1.lnLogvar mean sigma := (lognormal_closed mean sigma hm hs shift 0).1
  have hsq : Real.sqrt (Prior1.lnLogvar mean sigma) ^ 2 = Prior1.lnLogvar mean sigma := Real.sq_sqrt hv.le
  have hfun : lognormalDraw mean sigma shift = (fun y => Real.exp y + shift.getD 0) ∘
      fun z => Prior1.lnLogmean mean sigma + Real.sqrt (Prior1.lnLogvar mean sigma) * z := by
    funext z; exact lognormalDraw_eq mean sigma shift z
  have hmeas : Measurable (lognormalDraw mean sigma shift) := by
    rw [hfun]; fun_prop
  have hclosed := fun x => (lognormal_closed mean sigma hm hs shift x).2
  generalize hV : Prior1.lnLogvar mean sigma = V at *
  generalize hA : Prior1.lnLogmean mean sigma = A at *
  have hA' : Real.log mean - 0.5 * Real.log (1 + sigma ^ 2 / mean ^ 2) = A := hA
  have hV' : Real.log (1 + sigma ^ 2 / mean ^ 2) = V := hV
  have hd : ∀ x, densityOf (Prior1.lognormal mean sigma shift).lnprob x =
      (Set.Ioi (shift.getD 0)).indicator
        (fun x => ENNReal.ofReal (Real.exp (-(Real.log (x - shift.getD 0) - A + V) ^ 2 / (2 * V)))) x := by
    intro x
    unfold densityOf
    simp only [Prior1.lnprob]
    by_cases hx : 0 < x - shift.getD 0
    · rw [(hclosed x).1 hx, hA', hV', Set.indicator_of_mem (show x ∈ Set.Ioi _ by simpa using hx)]
    · rw [(hclosed x).2 hx, Set.indicator_of_notMem (show x ∉ Set.Ioi _ by simpa using hx)]
  refine isLawOf_intro (Measure.isProbabilityMeasure_map hmeas.aemeasurable)
    (ENNReal.ofReal (Real.sqrt (2 * Real.pi * V))⁻¹ * ENNReal.ofReal (Real.exp (-(A - V / 2)))) ?_
    (ENNReal.mul_ne_top ENNReal.ofReal_ne_top ENNReal.ofReal_ne_top)
  rw [hfun, ← Measure.map_map (by fun_prop) (by fun_prop), normal_map A _ (Real.sqrt_pos.2 hv).ne', hsq]
  refine map_withDensity_deriv _ Real.exp (fun x => ?_) ?_ _ _ (fun y => ?_) (fun y hy => ?_)
  · exact (Real.hasDerivAt_exp x).add_const _
  · intro x y hxy
    exact Real.exp_injective (by simpa using hxy)
  · rw [hd, Set.indicator_of_mem (by simp [Real.exp_pos]), add_sub_cancel_right, Real.log_exp, abs_of_pos (Real.exp_pos y)]
    have e : Real.exp (-(y - A) ^ 2 / (2 * V)) =
        Real.exp y * (Real.exp (-(A - V / 2)) * Real.exp (-(y - A + V) ^ 2 / (2 * V))) := by
      rw [← Real.exp_add, ← Real.exp_add]
      congr 1
      field_simp
      ring
    rw [e, ENNReal.ofReal_mul (Real.exp_pos _).le, ENNReal.ofReal_mul (Real.exp_pos _).le]
    ring
  · rw [hd, Set.indicator_of_notMem, mul_zero]
    intro h
    exact hy ⟨Real.log (y - shift.getD 0), by
      have : 0 < y - shift.getD 0 := by simpa using h
      simp only [Real.exp_log this]; ring⟩

theorem trunc_density (mean sigma lo hi x : ℝ) : densityOf (Prior1.trunc mean sigma lo hi).lnprob x =
    (Set.Icc lo hi).indicator (fun x => ENNReal.ofReal (Real.exp (-(x - mean) ^ 2 / (2 * sigma ^ 2)))) x := by
  unfold densityOf
  simp only [Prior1.lnprob]
  by_cases h : x < lo ∨ x > hi
  · rw [if_pos h, Set.indicator_of_notMem]
    rintro ⟨h1, h2⟩
    rcases h with h | h <;> linarith
  · rw [if_neg h, Set.indicator_of_mem]
    · dsimp only
      congr 2
      by_cases h : sigma = 0
      · simp [h]
      · field_simp; norm_num; ring
    · push Not at h; exact ⟨h.1, h.2⟩

/-- The part of a gaussian between two limits. -/
theorem gauss_part_pos (mean sigma lo hi : ℝ) (hs : sigma ≠ 0) (h : lo < hi) :
    stdNormal {z | lo < mean + sigma * z ∧ mean + sigma * z < hi} ≠ 0 := by
  have hm : Measurable fun z : ℝ => mean + sigma * z := by fun_prop
  have e : stdNormal {z | lo < mean + sigma * z ∧ mean + sigma * z < hi} =
      (stdNormal.map fun z => mean + sigma * z) (Set.Ioo lo hi) := by
    rw [Measure.map_apply hm measurableSet_Ioo]; rfl
  have hg : Measurable fun x => ENNReal.ofReal (Real.sqrt (2 * Real.pi * sigma ^ 2))⁻¹ *
      ENNReal.ofReal (Real.exp (-(x - mean) ^ 2 / (2 * sigma ^ 2))) := by fun_prop
  rw [e, normal_map mean sigma hs, withDensity_apply _ measurableSet_Ioo, Ne, lintegral_eq_zero_iff hg]
  intro h0
  have hpos : ∀ x, ENNReal.ofReal (Real.sqrt (2 * Real.pi * sigma ^ 2))⁻¹ *
      ENNReal.ofReal (Real.exp (-(x - mean) ^ 2 / (2 * sigma ^ 2))) ≠ 0 := by
    intro x
    refine mul_ne_zero ?_ ?_
    · rw [Ne, ENNReal.ofReal_eq_zero, not_le]
      have := Real.pi_pos
      positivity
    · rw [Ne, ENNReal.ofReal_eq_zero, not_le]; exact Real.exp_pos _
  rw [Filter.EventuallyEq, ae_iff] at h0
  have : {a | ¬ (ENNReal.ofReal (Real.sqrt (2 * Real.pi * sigma ^ 2))⁻¹ *
      ENNReal.ofReal (Real.exp (-(a - mean) ^ 2 / (2 * sigma ^ 2))) = (0 : ℝ → ENNReal) a)} = Set.univ := by
    ext a; simpa using hpos a
  rw [this, Measure.restrict_apply_univ, Real.volume_Ioo, ENNReal.ofReal_eq_zero] at h0
  linarith

theorem law_trunc (mean sigma lo hi : ℝ) (hs : sigma ≠ 0) (h : lo < hi) :
    IsLawOf (Prior1.trunc mean sigma lo hi).lnprob
      ((cond stdNormal {z | lo < mean + sigma * z ∧ mean + sigma * z < hi}).map fun z => mean + sigma * z) := by
  have hm : Measurable fun z : ℝ => mean + sigma * z := by fun_prop
  have hp := gauss_part_pos mean sigma lo hi hs h
  have hprob := cond_isProbabilityMeasure hp
  have e := map_cond stdNormal _ hm (Set.Ioo lo hi) measurableSet_Ioo
  have hpart : (stdNormal.map fun z => mean + sigma * z) (Set.Ioo lo hi) ≠ 0 := by
    rw [Measure.map_apply hm measurableSet_Ioo]; exact hp
  rw [normal_map mean sigma hs] at hpart
  refine isLawOf_ae (Measure.isProbabilityMeasure_map hm.aemeasurable)
    (((volume.withDensity fun x => ENNReal.ofReal (Real.sqrt (2 * Real.pi * sigma ^ 2))⁻¹ *
      ENNReal.ofReal (Real.exp (-(x - mean) ^ 2 / (2 * sigma ^ 2)))) (Set.Ioo lo hi))⁻¹ *
      ENNReal.ofReal (Real.sqrt (2 * Real.pi * sigma ^ 2))⁻¹) ?_ _
    (e.trans (by rw [normal_map mean sigma hs, cond_withDensity _ (by fun_prop) _ measurableSet_Ioo])) ?_
  · exact ENNReal.mul_ne_top (ENNReal.inv_ne_top.2 hpart) ENNReal.ofReal_ne_top
  · have : ∀ᵐ x : ℝ, x ≠ lo ∧ x ≠ hi := by
      rw [ae_iff]
      refine measure_mono_null (t := {lo, hi}) ?_ (Set.Finite.measure_zero (by simp) _)
      intro x hx
      simp only [Set.mem_setOf_eq, not_and_or, not_not] at hx
      simpa using hx
    filter_upwards [this] with x hx
    rw [trunc_density]
    generalize (volume.withDensity fun x => ENNReal.ofReal (Real.sqrt (2 * Real.pi * sigma ^ 2))⁻¹ *
      ENNReal.ofReal (Real.exp (-(x - mean) ^ 2 / (2 * sigma ^ 2)))) (Set.Ioo lo hi) = K
    rw [mul_assoc K⁻¹]
    congr 1
    by_cases h1 : x ∈ Set.Icc lo hi
    · rw [Set.indicator_of_mem h1, Set.indicator_of_mem]
      exact ⟨lt_of_le_of_ne h1.1 (Ne.symm hx.1), lt_of_le_of_ne h1.2 hx.2⟩
    · rw [Set.indicator_of_notMem h1, Set.indicator_of_notMem, mul_zero]
      rintro ⟨a, b⟩
      exact h1 ⟨a.le, b.le⟩

end

end Ngmix.Props
