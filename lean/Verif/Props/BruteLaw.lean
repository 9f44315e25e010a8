import Verif.Props.SampleLaw
import Verif.Props.PriorFit

/-! # C100: the brute force sampler of the log normal -/

namespace Ngmix.Props

open Ngmix Ngmix.Spec MeasureTheory ProbabilityTheory

noncomputable section

open Classical in
theorem brute_rej (mean sigma : ℝ) (hm : 0 < mean) (hs : sigma ≠ 0) (shift maxval : Option ℝ) (n : ℕ)
    (hmax : 0 < maxval.getD (mean + 10 * sigma)) (draws : ℕ → ℕ → List (ℝ × ℝ)) (hu : ∀ k m, ∀ d ∈ draws k m, 0 < d.1)
    (fuel : ℕ) :
    sampleBrute mean sigma shift maxval n draws fuel =
      (rejLoop (fun d => decide (BruteKept mean sigma shift (maxval.getD (mean + 10 * sigma)) d)) n draws fuel 0
        (rejInit ((0 - shift.getD 0) / maxval.getD (mean + 10 * sigma), (0 : ℝ)) n)).map fun l =>
        .ok (l.map fun d => shift.getD 0 + maxval.getD (mean + 10 * sigma) * d.1) := by
  unfold sampleBrute
  generalize maxval.getD (mean + 10 * sigma) = mx at *
  have hpos : ∀ k m, ∀ d ∈ draws k m, 0 < mx * d.1 := fun k m d hm => mul_pos hmax (hu k m d hm)
  have hloop : ∀ (fuel k : ℕ) (s : RejState (ℝ × ℝ)),
      bruteLoop mean sigma shift mx n draws fuel k
        ⟨s.vals.map fun d => bruteVal mx shift d.1, s.ngood, s.nleft⟩ =
      (rejLoop (fun d => decide (BruteKept mean sigma shift mx d)) n draws fuel k s).map
        fun l => .ok (l.map fun d => bruteVal mx shift d.1) := by
    intro fuel
    induction fuel with
    | zero => intro k s; simp only [bruteLoop, rejLoop]; split_ifs <;> rfl
    | succ fuel ih =>
      intro k s
      simp only [bruteLoop, rejLoop]
      split_ifs with hlt
      · rw [bruteStep_eq mean sigma hm hs shift mx s _ (hpos k _)]
        exact ih _ _
      · rfl
  have hinit : rejInit (0 : ℝ) n =
      ⟨(rejInit ((0 - shift.getD 0) / mx, (0 : ℝ)) n).vals.map fun d => bruteVal mx shift d.1,
        (rejInit ((0 - shift.getD 0) / mx, (0 : ℝ)) n).ngood,
        (rejInit ((0 - shift.getD 0) / mx, (0 : ℝ)) n).nleft⟩ := by
    simp only [rejInit, List.map_replicate, bruteVal_eq]
    rw [mul_div_cancel₀ _ hmax.ne']
    simp
  rw [hinit, hloop]
  simp only [bruteVal_eq]

/-- The height trials are compared with. -/
def bruteHeight (mean sigma : ℝ) (shift : Option ℝ) (x : ℝ) : ℝ :=
  (Set.Ioi (shift.getD 0)).indicator (fun x => Real.exp (-(Real.log (x - shift.getD 0) -
    (Real.log mean - 0.5 * Real.log (1 + sigma ^ 2 / mean ^ 2)) + Real.log (1 + sigma ^ 2 / mean ^ 2)) ^ 2 /
      (2 * Real.log (1 + sigma ^ 2 / mean ^ 2)))) x

theorem bruteHeight_measurable (mean sigma : ℝ) (shift : Option ℝ) : Measurable (bruteHeight mean sigma shift) := by
  unfold bruteHeight
  refine Measurable.indicator ?_ measurableSet_Ioi
  have : Measurable fun x : ℝ => Real.log (x - shift.getD 0) := Real.measurable_log.comp (by fun_prop)
  fun_prop

theorem bruteHeight_le {mean sigma : ℝ} (hm : 0 < mean) (hs : sigma ≠ 0) (shift : Option ℝ) (x : ℝ) :
    bruteHeight mean sigma shift x ≤ 1 := by
  have hv := (lognormal_closed mean sigma hm hs shift x).1
  unfold bruteHeight
  by_cases h : x ∈ Set.Ioi (shift.getD 0)
  · rw [Set.indicator_of_mem h, Real.exp_le_one_iff]
    exact div_nonpos_of_nonpos_of_nonneg (neg_nonpos.2 (sq_nonneg _)) (by linarith)
  · rw [Set.indicator_of_notMem h]; norm_num

theorem brute_density {mean sigma : ℝ} (hm : 0 < mean) (hs : sigma ≠ 0) (shift : Option ℝ) (x : ℝ) :
    ENNReal.ofReal (bruteHeight mean sigma shift x) = 1 * densityOf (Prior1.lognormal mean sigma shift).lnprob x := by
  obtain ⟨-, h1, h2⟩ := lognormal_closed mean sigma hm hs shift x
  unfold densityOf bruteHeight
  simp only [Prior1.lnprob, one_mul]
  by_cases h : 0 < x - shift.getD 0
  · rw [h1 h, Set.indicator_of_mem (show x ∈ Set.Ioi _ by simpa using h)]
  · rw [h2 h, Set.indicator_of_notMem (show x ∉ Set.Ioi _ by simpa using h), ENNReal.ofReal_zero]

theorem brute_kept {mean sigma : ℝ} (hm : 0 < mean) (hs : sigma ≠ 0) (shift : Option ℝ) (mx : ℝ) (d : ℝ × ℝ) :
    BruteKept mean sigma shift mx d ↔ 0 < mx * d.1 ∧ d.2 < bruteHeight mean sigma shift (shift.getD 0 + mx * d.1) := by
  obtain ⟨-, h1, h2⟩ := lognormal_closed mean sigma hm hs shift (shift.getD 0 + mx * d.1)
  unfold BruteKept bruteHeight
  simp only [Prior1.prob]
  rw [add_sub_cancel_left] at h1 h2
  by_cases h : 0 < mx * d.1
  · rw [h1 h, Set.indicator_of_mem (show _ ∈ Set.Ioi _ by simpa using h)]
    simp [Except.map, expFl, h]
  · rw [h2 h]
    simp [Except.map, h]

theorem indep_restrict {Ω β : Type} [MeasurableSpace Ω] [MeasurableSpace β] {P : Measure Ω} {out : Ω → List β → Prop} {n : ℕ}
    {ν : Measure β} (h : IndepOfLaw P out n ν) {G : Ω → Prop} (hG : MeasurableSet {ω | G ω}) (hP : ∀ᵐ ω ∂P, G ω) :
    IndepOfLaw P (fun ω l => G ω ∧ out ω l) n ν := by
  refine ⟨fun ω l l' h1 h2 => h.1 ω l l' h1.2 h2.2, ?_⟩
  intro As hn hA
  obtain ⟨h1, h2⟩ := h.2 As hn hA
  have e : {ω | ∃ l, (G ω ∧ out ω l) ∧ List.Forall₂ (fun x A => x ∈ A) l As} =
      {ω | G ω} ∩ {ω | ∃ l, out ω l ∧ List.Forall₂ (fun x A => x ∈ A) l As} := by
    ext ω
    constructor
    · rintro ⟨l, ⟨hg, ho⟩, hf⟩; exact ⟨hg, l, ho, hf⟩
    · rintro ⟨hg, l, ho, hf⟩; exact ⟨l, ⟨hg, ho⟩, hf⟩
  rw [e]
  refine ⟨hG.inter h1, ?_⟩
  rw [← h2]
  refine measure_congr ?_
  filter_upwards [hP] with ω hω
  exact propext ⟨fun h => h.2, fun h => ⟨hω, h⟩⟩

theorem cond_ae_eq {α : Type} [MeasurableSpace α] (μ : Measure α) {S T : Set α} (h : S =ᵐ[μ] T) : cond μ S = cond μ T := by
  unfold ProbabilityTheory.cond
  rw [measure_congr h, Measure.restrict_congr_set h]

open Classical in
/-- C100, `LogNormal.sample_brute`: with generators that never give exactly zero, which has probability one, the values have
the law of the prior up to the largest value allowed above the shift. -/
theorem C100_lognormal_brute (mean sigma : ℝ) (hm : 0 < mean) (hs : sigma ≠ 0) (shift maxval : Option ℝ)
    (hmax : 0 < maxval.getD (mean + 10 * sigma)) (n : ℕ) :
    let top := maxval.getD (mean + 10 * sigma)
    let keeps := fun d : ℝ × ℝ => decide (BruteKept mean sigma shift top d)
    Samples (stream (uniform01.prod uniform01)) (fun ω l => (∀ i, 0 < (ω i).1) ∧ ∃ fuel,
      sampleBrute mean sigma shift maxval n (batches keeps n ω) fuel = some (.ok l)) (some n)
      (cutTo (Set.Ico (shift.getD 0) (shift.getD 0 + top)) (Prior1.lognormal mean sigma shift).lnprob) := by
  intro top keeps
  have hU : IsProbabilityMeasure uniform01 := ⟨by simp [uniform01]⟩
  set μ := uniform01.prod uniform01 with hμ
  have hX : Measurable fun u : ℝ => shift.getD 0 + top * u := by fun_prop
  have hS : MeasurableSet {d : ℝ × ℝ | d.2 < bruteHeight mean sigma shift (shift.getD 0 + top * d.1)} :=
    measurableSet_lt measurable_snd ((bruteHeight_measurable mean sigma shift).comp (hX.comp measurable_fst))
  have hlaw : uniform01.map (fun u : ℝ => shift.getD 0 + top * u) = _ := affine_law (shift.getD 0) top hmax
  have hpos : μ {d : ℝ × ℝ | d.2 < bruteHeight mean sigma shift (shift.getD 0 + top * d.1)} ≠ 0 := by
    refine height_pos uniform01 (fun u => shift.getD 0 + top * u) hX (bruteHeight mean sigma shift)
      (bruteHeight_measurable mean sigma shift) (bruteHeight_le hm hs shift) (Set.Ioo (shift.getD 0) (shift.getD 0 + top)) ?_ ?_
    · rw [hlaw, withDensity_apply _ measurableSet_Ioo]
      rw [setLIntegral_congr_fun (g := fun _ => ENNReal.ofReal (1 / top)) measurableSet_Ioo]
      · rw [setLIntegral_const, Real.volume_Ioo]
        refine mul_ne_zero ?_ ?_ <;> rw [Ne, ENNReal.ofReal_eq_zero, not_le]
        · positivity
        · linarith
      · intro x hx
        simp only [Set.indicator_of_mem (Set.Ioo_subset_Ico_self hx), Pi.one_apply, mul_one]
    · intro x hx
      unfold bruteHeight
      rw [Set.indicator_of_mem (show x ∈ Set.Ioi _ from hx.1)]
      exact Real.exp_pos _
  have hae1 : ∀ᵐ d : ℝ × ℝ ∂μ, 0 < d.1 := by
    have : ∀ᵐ y ∂uniform01, 0 < y := by
      rw [uniform01, Measure.restrict_congr_set Ioo_ae_eq_Ico.symm]
      filter_upwards [ae_restrict_mem measurableSet_Ioo] with y hy using hy.1
    exact Measure.quasiMeasurePreserving_fst.ae this
  have hset : ({d : ℝ × ℝ | keeps d = true} : Set (ℝ × ℝ)) =
      {d | 0 < top * d.1} ∩ {d : ℝ × ℝ | d.2 < bruteHeight mean sigma shift (shift.getD 0 + top * d.1)} := by
    ext d
    simp only [keeps, decide_eq_true_eq, Set.mem_ofPred_eq, Set.mem_inter_iff]
    exact brute_kept hm hs shift top d
  have hk : MeasurableSet {d : ℝ × ℝ | keeps d = true} := by
    rw [hset]
    exact (measurableSet_lt measurable_const (by fun_prop)).inter hS
  have heq : {d : ℝ × ℝ | keeps d = true} =ᵐ[μ] {d : ℝ × ℝ | d.2 < bruteHeight mean sigma shift (shift.getD 0 + top * d.1)} := by
    rw [hset]
    filter_upwards [hae1] with d hd
    exact propext ⟨fun h => h.2, fun h => ⟨mul_pos hmax hd, h⟩⟩
  have hrej := rejection_law μ keeps hk (by rw [measure_congr heq]; exact hpos) (fun d => shift.getD 0 + top * d.1)
    (hX.comp measurable_fst) ((0 - shift.getD 0) / top, (0 : ℝ)) n
  rw [cond_ae_eq μ heq] at hrej
  have hall : ∀ᵐ ω ∂stream μ, ∀ i, 0 < (ω i).1 := by
    rw [ae_all_iff]
    intro i
    exact (measurePreserving_eval_infinitePi (fun _ : ℕ => μ) i).quasiMeasurePreserving.ae hae1
  have hallm : MeasurableSet {ω : ℕ → ℝ × ℝ | ∀ i, 0 < (ω i).1} := by
    have : {ω : ℕ → ℝ × ℝ | ∀ i, 0 < (ω i).1} = ⋂ i, {ω | 0 < (ω i).1} := by ext ω; simp
    rw [this]
    exact MeasurableSet.iInter fun i => measurableSet_lt measurable_const (measurable_fst.comp (measurable_pi_apply i))
  refine ⟨_, law_height uniform01 (fun u => shift.getD 0 + top * u) hX _ measurableSet_Ico (ENNReal.ofReal (1 / top))
    ENNReal.ofReal_ne_top hlaw (bruteHeight mean sigma shift) (bruteHeight_measurable mean sigma shift)
    (bruteHeight_le hm hs shift) _ 1 ENNReal.one_ne_top (fun x _ => brute_density hm hs shift x) hpos,
    indep_congr (fun ω l => ?_) (indep_restrict hrej hallm hall)⟩
  refine and_congr_right fun hω => ?_
  have hu : ∀ k m, ∀ d ∈ batches keeps n ω k m, 0 < d.1 := by
    intro k m d hd
    obtain ⟨i, -, rfl⟩ := List.mem_map.1 hd
    exact hω _
  simp only [brute_rej mean sigma hm hs shift maxval n hmax _ hu, Option.map_eq_some_iff, Except.ok.injEq]
  constructor
  · rintro ⟨fuel, l0, h0, rfl⟩; exact ⟨fuel, l0, h0, rfl⟩
  · rintro ⟨fuel, l0, h0, rfl⟩; exact ⟨fuel, l0, h0, rfl⟩

example := C100_lognormal_brute 10 3 (by norm_num) (by norm_num) (some (-1)) none (by norm_num) 5

end

end Ngmix.Props
