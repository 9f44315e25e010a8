import Verif.Spec.SampleLaw
import Mathlib.MeasureTheory.Function.Jacobian
import Mathlib.MeasureTheory.Measure.Prod
import Mathlib.MeasureTheory.Measure.WithDensity

/-! # Densities of functions of deviates -/

namespace Ngmix.Props

open Ngmix Ngmix.Spec MeasureTheory ProbabilityTheory

noncomputable section

variable {α β : Type}

theorem isLawOf_intro [MeasureSpace α] {lnprob : α → Except PyErr Fl} {ν : Measure α} (hν : IsProbabilityMeasure ν)
    (k : ENNReal) (h : ν = volume.withDensity fun x => k * densityOf lnprob x) (hk : k ≠ ⊤) : IsLawOf lnprob ν := by
  refine ⟨hν, k.toReal, ENNReal.toReal_pos ?_ hk, ?_⟩
  · rintro rfl
    have : ν = 0 := by
      rw [h]; simp
    exact IsProbabilityMeasure.ne_zero ν this
  · rw [h, ENNReal.ofReal_toReal hk]

theorem map_withDensity_deriv_on (s : Set ℝ) (hs : MeasurableSet s) (f f' : ℝ → ℝ) (hfm : Measurable f)
    (hf : ∀ x ∈ s, HasDerivWithinAt f (f' x) s x) (hinj : Set.InjOn f s) (p q : ℝ → ENNReal)
    (h : ∀ x ∈ s, p x = ENNReal.ofReal |f' x| * q (f x)) (hp0 : ∀ x, x ∉ s → p x = 0) (h0 : ∀ y, y ∉ f '' s → q y = 0) :
    (volume.withDensity p).map f = volume.withDensity q := by
  ext A hA
  have hpre : MeasurableSet (f ⁻¹' A) := hfm hA
  rw [Measure.map_apply hfm hA, withDensity_apply _ hpre, withDensity_apply _ hA]
  have e0 : ∫⁻ x in f ⁻¹' A, p x = ∫⁻ x in f ⁻¹' A ∩ s, p x := by
    rw [← lintegral_indicator hpre, ← lintegral_indicator (hpre.inter hs)]
    congr 1
    ext x
    by_cases hx : x ∈ f ⁻¹' A
    · by_cases hx2 : x ∈ s
      · rw [Set.indicator_of_mem hx, Set.indicator_of_mem (show x ∈ f ⁻¹' A ∩ s from ⟨hx, hx2⟩)]
      · rw [Set.indicator_of_mem hx, Set.indicator_of_notMem (fun hh => hx2 hh.2), hp0 x hx2]
    · rw [Set.indicator_of_notMem hx, Set.indicator_of_notMem fun hh => hx hh.1]
  have e : ∫⁻ x in f ⁻¹' A ∩ s, p x = ∫⁻ y in f '' (f ⁻¹' A ∩ s), q y := by
    rw [lintegral_image_eq_lintegral_abs_deriv_mul (hpre.inter hs) (fun x hx => (hf x hx.2).mono Set.inter_subset_right)
      (hinj.mono Set.inter_subset_right)]
    exact setLIntegral_congr_fun (hpre.inter hs) fun x hx => h x hx.2
  have hr : MeasurableSet (f '' s) :=
    measurable_image_of_fderivWithin hs (fun x hx => (hf x hx).hasFDerivWithinAt) hinj
  have ei : f '' (f ⁻¹' A ∩ s) = A ∩ f '' s := Set.image_preimage_inter f s A
  rw [e0, e, ei, ← lintegral_indicator hA, ← lintegral_indicator (hA.inter hr)]
  congr 1
  ext y
  by_cases hy : y ∈ A
  · by_cases hy2 : y ∈ f '' s
    · rw [Set.indicator_of_mem hy, Set.indicator_of_mem (show y ∈ A ∩ f '' s from ⟨hy, hy2⟩)]
    · rw [Set.indicator_of_mem hy, Set.indicator_of_notMem (fun hh => hy2 hh.2), h0 y hy2]
  · rw [Set.indicator_of_notMem hy, Set.indicator_of_notMem fun hh => hy hh.1]

theorem map_withDensity_deriv (f f' : ℝ → ℝ) (hf : ∀ x, HasDerivAt f (f' x) x) (hinj : Function.Injective f)
    (p q : ℝ → ENNReal) (h : ∀ x, p x = ENNReal.ofReal |f' x| * q (f x)) (h0 : ∀ y, y ∉ Set.range f → q y = 0) :
    (volume.withDensity p).map f = volume.withDensity q := by
  have hc : Continuous f := continuous_iff_continuousAt.2 fun x => (hf x).continuousAt
  refine map_withDensity_deriv_on Set.univ MeasurableSet.univ f f' hc.measurable (fun x _ => (hf x).hasDerivWithinAt)
    hinj.injOn p q (fun x _ => h x) (fun x hx => absurd (Set.mem_univ x) hx) fun y hy => h0 y ?_
  rwa [← Set.image_univ]

theorem cond_withDensity [MeasureSpace α] (p : α → ENNReal) (hp : Measurable p) (S : Set α) (hS : MeasurableSet S) :
    cond (volume.withDensity p) S = volume.withDensity fun x => (volume.withDensity p S)⁻¹ * S.indicator p x := by
  unfold ProbabilityTheory.cond
  rw [restrict_withDensity hS, ← withDensity_indicator hS, ← withDensity_smul _ (hp.indicator hS)]
  rfl

/-- A trial kept when a uniform is below a height. -/
theorem height_volume [MeasurableSpace α] (ν : Measure α) [SFinite ν] (h : α → ℝ) (hh : Measurable h) (h1 : ∀ x, h x ≤ 1)
    (A : Set α) (hA : MeasurableSet A) :
    (ν.prod uniform01) ({p : α × ℝ | p.2 < h p.1} ∩ Prod.fst ⁻¹' A) = ∫⁻ x in A, ENNReal.ofReal (h x) ∂ν := by
  have : SFinite uniform01 := by unfold uniform01; infer_instance
  have hm : MeasurableSet ({p : α × ℝ | p.2 < h p.1} ∩ Prod.fst ⁻¹' A) :=
    (measurableSet_lt measurable_snd (hh.comp measurable_fst)).inter (measurable_fst hA)
  rw [Measure.prod_apply hm, ← lintegral_indicator hA]
  congr 1
  ext x
  by_cases hx : x ∈ A
  · rw [Set.indicator_of_mem hx]
    have : Prod.mk x ⁻¹' ({p : α × ℝ | p.2 < h p.1} ∩ Prod.fst ⁻¹' A) = Set.Iio (h x) := by
      ext u; simp [hx]
    rw [this, uniform01, Measure.restrict_apply measurableSet_Iio]
    have e : Set.Iio (h x) ∩ Set.Ico 0 1 = Set.Ico 0 (h x) := by
      ext u
      simp only [Set.mem_inter_iff, Set.mem_Iio, Set.mem_Ico]
      have := h1 x
      constructor
      · rintro ⟨a, b, c⟩; exact ⟨b, a⟩
      · rintro ⟨a, b⟩; exact ⟨b, a, by linarith⟩
    rw [e, Real.volume_Ico, sub_zero]
  · rw [Set.indicator_of_notMem hx]
    have : Prod.mk x ⁻¹' ({p : α × ℝ | p.2 < h p.1} ∩ Prod.fst ⁻¹' A) = ∅ := by
      ext u; simp [hx]
    rw [this, measure_empty]

theorem height_law [MeasurableSpace α] (ν : Measure α) [SFinite ν] (h : α → ℝ) (hh : Measurable h) (h1 : ∀ x, h x ≤ 1) :
    (cond (ν.prod uniform01) {p : α × ℝ | p.2 < h p.1}).map Prod.fst =
      ν.withDensity fun x => (∫⁻ x, ENNReal.ofReal (h x) ∂ν)⁻¹ * ENNReal.ofReal (h x) := by
  have hm : MeasurableSet {p : α × ℝ | p.2 < h p.1} := measurableSet_lt measurable_snd (hh.comp measurable_fst)
  ext A hA
  rw [Measure.map_apply measurable_fst hA, cond_apply hm, height_volume ν h hh h1 A hA, withDensity_apply _ hA,
    lintegral_const_mul _ hh.ennreal_ofReal]
  congr 2
  have := height_volume ν h hh h1 Set.univ MeasurableSet.univ
  rw [Set.preimage_univ, Set.inter_univ, Measure.restrict_univ] at this
  exact this

theorem map_withDensity_comp [MeasurableSpace α] [MeasurableSpace β] (μ : Measure α) (X : α → β) (hX : Measurable X)
    (g : β → ENNReal) (hg : Measurable g) : (μ.withDensity fun x => g (X x)).map X = (μ.map X).withDensity g := by
  ext A hA
  rw [Measure.map_apply hX hA, withDensity_apply _ (hX hA), withDensity_apply _ hA, setLIntegral_map hA hg hX]

theorem height_map [MeasurableSpace α] [MeasurableSpace β] (μ : Measure α) [SFinite μ] (X : α → β) (hX : Measurable X)
    (h : β → ℝ) (hh : Measurable h) (h1 : ∀ x, h x ≤ 1) :
    (cond (μ.prod uniform01) {p : α × ℝ | p.2 < h (X p.1)}).map (fun p => X p.1) =
      (μ.map X).withDensity fun x => (∫⁻ x, ENNReal.ofReal (h x) ∂(μ.map X))⁻¹ * ENNReal.ofReal (h x) := by
  have := height_law μ (fun x => h (X x)) (hh.comp hX) fun x => h1 (X x)
  rw [show (fun p : α × ℝ => X p.1) = X ∘ Prod.fst from rfl, ← Measure.map_map hX measurable_fst, this,
    ← lintegral_map (hh.ennreal_ofReal) hX]
  exact map_withDensity_comp μ X hX (fun x => (∫⁻ x, ENNReal.ofReal (h x) ∂(μ.map X))⁻¹ * ENNReal.ofReal (h x))
    (hh.ennreal_ofReal.const_mul _)

theorem height_pos [MeasurableSpace α] [MeasurableSpace β] (μ : Measure α) [SFinite μ] (X : α → β) (hX : Measurable X)
    (h : β → ℝ) (hh : Measurable h) (h1 : ∀ x, h x ≤ 1) (T : Set β) (hT : (μ.map X) T ≠ 0) (hpos : ∀ x ∈ T, 0 < h x) :
    (μ.prod uniform01) {p : α × ℝ | p.2 < h (X p.1)} ≠ 0 := by
  have := height_volume μ (fun x => h (X x)) (hh.comp hX) (fun x => h1 (X x)) Set.univ MeasurableSet.univ
  rw [Set.preimage_univ, Set.inter_univ, Measure.restrict_univ] at this
  rw [this, ← lintegral_map (hh.ennreal_ofReal) hX, Ne, lintegral_eq_zero_iff hh.ennreal_ofReal]
  intro h0
  rw [Filter.EventuallyEq, ae_iff] at h0
  refine hT (measure_mono_null ?_ h0)
  intro x hx
  simp only [Set.mem_setOf_eq, Pi.zero_apply, ENNReal.ofReal_eq_zero, not_le]
  exact hpos x hx

theorem cutTo_density (S : Set α) (lnprob : α → Except PyErr Fl) (x : α) :
    densityOf (cutTo S lnprob) x = S.indicator (densityOf lnprob) x := by
  unfold densityOf cutTo
  by_cases h : x ∈ S
  · rw [if_pos h, Set.indicator_of_mem h]
  · rw [if_neg h, Set.indicator_of_notMem h]

/-- A trial uniform over a set, kept when a uniform is below a height. -/
theorem law_height [MeasurableSpace α] [MeasureSpace β] (μ : Measure α) [IsProbabilityMeasure μ] (X : α → β)
    (hX : Measurable X) (S : Set β) (hS : MeasurableSet S) (k : ENNReal) (hk : k ≠ ⊤)
    (hμ : μ.map X = volume.withDensity fun x => k * S.indicator 1 x) (h : β → ℝ) (hh : Measurable h) (h1 : ∀ x, h x ≤ 1)
    (lnprob : β → Except PyErr Fl) (k2 : ENNReal) (hk2 : k2 ≠ ⊤) (hl : ∀ x ∈ S, ENNReal.ofReal (h x) = k2 * densityOf lnprob x)
    (hpos : (μ.prod uniform01) {p : α × ℝ | p.2 < h (X p.1)} ≠ 0) :
    IsLawOf (cutTo S lnprob) ((cond (μ.prod uniform01) {p : α × ℝ | p.2 < h (X p.1)}).map fun p => X p.1) := by
  have hU : IsProbabilityMeasure uniform01 := ⟨by simp [uniform01]⟩
  have hprob := cond_isProbabilityMeasure hpos
  have hZ : (∫⁻ x, ENNReal.ofReal (h x) ∂(μ.map X)) ≠ 0 := by
    have := height_volume μ (fun x => h (X x)) (hh.comp hX) (fun x => h1 (X x)) Set.univ MeasurableSet.univ
    rw [Set.preimage_univ, Set.inter_univ, Measure.restrict_univ] at this
    rw [lintegral_map (hh.ennreal_ofReal) hX, ← this]; exact hpos
  have hprob2 : IsProbabilityMeasure ((cond (μ.prod uniform01) {p : α × ℝ | p.2 < h (X p.1)}).map fun p => X p.1) :=
    Measure.isProbabilityMeasure_map (hX.comp measurable_fst).aemeasurable
  generalize hZd : (∫⁻ x, ENNReal.ofReal (h x) ∂(μ.map X)) = Z at hZ
  refine isLawOf_intro hprob2 (Z⁻¹ * k * k2) ?_ (ENNReal.mul_ne_top (ENNReal.mul_ne_top (ENNReal.inv_ne_top.2 hZ) hk) hk2)
  rw [height_map μ X hX h hh h1, hZd, hμ, ← withDensity_mul _ ((measurable_one.indicator hS).const_mul k)
    (hh.ennreal_ofReal.const_mul _)]
  congr 1
  ext x
  rw [cutTo_density, Pi.mul_apply]
  by_cases hx : x ∈ S
  · rw [Set.indicator_of_mem hx, Set.indicator_of_mem hx, hl x hx, Pi.one_apply, mul_one]; ring
  · rw [Set.indicator_of_notMem hx, Set.indicator_of_notMem hx]; simp

end

end Ngmix.Props
