import Verif.Proof.SampleLaws4

/-! # C100: samples have the distribution the prior states -/

namespace Ngmix.Props

open Ngmix Ngmix.Spec MeasureTheory ProbabilityTheory

noncomputable section

theorem indep_congr {Ω β : Type} [MeasurableSpace Ω] [MeasurableSpace β] {P : Measure Ω} {out out' : Ω → List β → Prop} {n : ℕ}
    {ν : Measure β} (h : ∀ ω l, out ω l ↔ out' ω l) (ho : IndepOfLaw P out' n ν) : IndepOfLaw P out n ν := by
  have : out = out' := by funext ω l; exact propext (h ω l)
  rw [this]; exact ho

theorem returns_sized (f : ℝ → ℝ) (nrand : Option ℕ) (ω : ℕ → ℝ) (l : List ℝ) :
    Returns nrand (.ok (sized f nrand ω)) l ↔ l = (firsts ω (nrand.getD 1)).map f := by
  unfold Returns
  cases nrand with
  | none => simp [sized, ShapedAs, valuesOf, firsts, eq_comm]
  | some n => simp [sized, ShapedAs, valuesOf, firsts, eq_comm]; rfl

theorem returns_unpack (nrand : Option ℕ) (l0 l : List ℝ) (h : l0.length = nrand.getD 1) :
    Returns nrand (unpack nrand l0) l ↔ l = l0 := by
  unfold Returns
  cases nrand with
  | none =>
    obtain ⟨x, rfl⟩ : ∃ x, l0 = [x] := List.length_eq_one_iff.1 h
    simp [unpack, firstOf, Except.map, ShapedAs, valuesOf, eq_comm]
  | some n =>
    have h' : n = l0.length := h.symm
    simp [unpack, ShapedAs, valuesOf, eq_comm]
    exact fun _ => h'

theorem returns_unpack2 (nrand : Option ℕ) (l0 l : List (ℝ × ℝ)) (h : l0.length = nrand.getD 1) :
    Returns2 nrand (unpack2 nrand l0) l ↔ l = l0 := by
  unfold Returns2
  cases nrand with
  | none =>
    obtain ⟨x, rfl⟩ : ∃ x, l0 = [x] := List.length_eq_one_iff.1 h
    simp [unpack2, ShapedAs2, valuesOf2, eq_comm]
  | some n =>
    have h' : n = l0.length := h.symm
    simp [unpack2, ShapedAs2, valuesOf2, eq_comm]
    exact fun _ => h'

theorem flat_sized (lo hi : ℝ) (nrand : Option ℕ) (us : ℕ → ℝ) :
    flatSample lo hi nrand us = .ok (sized (flatDraw lo hi) nrand us) := by
  cases nrand with
  | none => simp [flatSample, firstOf, List.range_succ, Except.map, sized, flatDraw]
  | some n => rfl

/-- C100, `FlatPrior`. -/
theorem C100_flat (lo hi : ℝ) (h : lo < hi) (nrand : Option ℕ) :
    Samples (stream uniform01) (fun ω => Returns nrand (flatSample lo hi nrand ω)) nrand (Prior1.flat lo hi).lnprob := by
  refine ⟨_, law_flat lo hi h, indep_congr (fun ω l => ?_) (direct_law uniform01 (flatDraw lo hi)
    (by unfold flatDraw; fun_prop) (nrand.getD 1))⟩
  rw [flat_sized, returns_sized]

/-- C100, `Normal`. -/
theorem C100_normal (mean sigma : ℝ) (h : 0 < sigma) (bounds : Option (ℝ × ℝ)) (nrand : Option ℕ) :
    Samples (stream stdNormal) (fun ω => Returns nrand (normalSample mean sigma nrand none ω)) nrand
      (Prior1.normal mean sigma bounds).lnprob := by
  refine ⟨_, law_normal mean sigma h.ne' bounds, indep_congr (fun ω l => ?_) (direct_law stdNormal (fun z => mean + sigma * z)
    (by fun_prop) (nrand.getD 1))⟩
  have : normalSample mean sigma nrand none ω = .ok (sized (fun z => mean + sigma * z) nrand ω) := by
    cases nrand <;> simp [normalSample, not_lt.2 h.le]
  rw [this, returns_sized]

/-- C100, `LogNormal`. -/
theorem C100_lognormal (mean sigma : ℝ) (hm : 0 < mean) (hs : sigma ≠ 0) (shift : Option ℝ) (nrand : Option ℕ) :
    Samples (stream stdNormal) (fun ω => Returns nrand (.ok (lognormalSample mean sigma shift nrand ω))) nrand
      (Prior1.lognormal mean sigma shift).lnprob := by
  refine ⟨_, law_lognormal mean sigma hm hs shift, indep_congr (fun ω l => ?_) (direct_law stdNormal
    (lognormalDraw mean sigma shift) ?_ (nrand.getD 1))⟩
  · rw [lognormalSample, returns_sized]
  · have : lognormalDraw mean sigma shift = fun z => _ := funext fun z => lognormalDraw_eq mean sigma shift z
    rw [this]; fun_prop

theorem rej_returns {α : Type} [MeasurableSpace α] (accept : α → Bool) (nrand : Option ℕ) (zero : α) (f : α → ℝ) (ω : ℕ → α) (l : List ℝ) :
    (∃ fuel r, (rejLoop accept (nrand.getD 1) (batches accept (nrand.getD 1) ω) fuel 0 (rejInit zero (nrand.getD 1))).map
      (fun l0 => unpack nrand (l0.map f)) = some r ∧ Returns nrand r l) ↔
    ∃ fuel l0, rejLoop accept (nrand.getD 1) (batches accept (nrand.getD 1) ω) fuel 0 (rejInit zero (nrand.getD 1)) = some l0 ∧
      l = l0.map f := by
  constructor
  · rintro ⟨fuel, r, h, hr⟩
    rw [Option.map_eq_some_iff] at h
    obtain ⟨l0, h0, rfl⟩ := h
    have hl := ((rejLoop_stream accept zero _ ω l0).1 ⟨fuel, h0⟩).1
    exact ⟨fuel, l0, h0, (returns_unpack nrand _ l (by simpa using hl)).1 hr⟩
  · rintro ⟨fuel, l0, h0, rfl⟩
    have hl := ((rejLoop_stream accept zero _ ω l0).1 ⟨fuel, h0⟩).1
    exact ⟨fuel, _, by rw [h0]; rfl, (returns_unpack nrand _ _ (by simpa using hl)).2 rfl⟩

theorem rej_returns2 {α : Type} [MeasurableSpace α] (accept : α → Bool) (nrand : Option ℕ) (zero : α) (f : α → ℝ × ℝ) (ω : ℕ → α)
    (l : List (ℝ × ℝ)) :
    (∃ fuel r, (rejLoop accept (nrand.getD 1) (batches accept (nrand.getD 1) ω) fuel 0 (rejInit zero (nrand.getD 1))).map
      (fun l0 => unpack2 nrand (l0.map f)) = some r ∧ Returns2 nrand r l) ↔
    ∃ fuel l0, rejLoop accept (nrand.getD 1) (batches accept (nrand.getD 1) ω) fuel 0 (rejInit zero (nrand.getD 1)) = some l0 ∧
      l = l0.map f := by
  constructor
  · rintro ⟨fuel, r, h, hr⟩
    rw [Option.map_eq_some_iff] at h
    obtain ⟨l0, h0, rfl⟩ := h
    have hl := ((rejLoop_stream accept zero _ ω l0).1 ⟨fuel, h0⟩).1
    exact ⟨fuel, l0, h0, (returns_unpack2 nrand _ l (by simpa using hl)).1 hr⟩
  · rintro ⟨fuel, l0, h0, rfl⟩
    have hl := ((rejLoop_stream accept zero _ ω l0).1 ⟨fuel, h0⟩).1
    exact ⟨fuel, _, by rw [h0]; rfl, (returns_unpack2 nrand _ _ (by simpa using hl)).2 rfl⟩

/-- C100, `TruncatedGaussian`. -/
theorem C100_truncated (mean sigma lo hi : ℝ) (hs : 0 < sigma) (h : lo < hi) (nrand : Option ℕ) :
    open Classical in
    let keeps := fun z : ℝ => decide (lo < mean + sigma * z ∧ mean + sigma * z < hi)
    Samples (stream stdNormal) (fun ω l => ∃ fuel r,
      truncSample mean sigma lo hi nrand (batches keeps (nrand.getD 1) ω) fuel = some r ∧ Returns nrand r l) nrand
      (Prior1.trunc mean sigma lo hi).lnprob := by
  intro keeps
  have hk : {z : ℝ | keeps z = true} = {z | lo < mean + sigma * z ∧ mean + sigma * z < hi} := by ext z; simp [keeps]
  have hm : MeasurableSet {z : ℝ | keeps z = true} := by
    rw [hk]
    have hf : Measurable fun z : ℝ => mean + sigma * z := by fun_prop
    exact (measurableSet_lt measurable_const hf).inter (measurableSet_lt hf measurable_const)
  have := rejection_law stdNormal keeps hm (by rw [hk]; exact gauss_part_pos mean sigma lo hi hs.ne' h)
    (fun z => mean + sigma * z) (by fun_prop) 0 (nrand.getD 1)
  rw [hk] at this
  refine ⟨_, law_trunc mean sigma lo hi hs.ne' h, indep_congr (fun ω l => ?_) this⟩
  rw [← rej_returns]
  have hT : ∀ draws fuel, truncSample mean sigma lo hi nrand draws fuel = (rejLoop keeps (nrand.getD 1) draws fuel 0
      (rejInit 0 (nrand.getD 1))).map fun l => unpack nrand (l.map fun z => mean + sigma * z) := by
    intro draws fuel
    simp only [truncSample]
    rw [if_neg (fun hc => by linarith [hc.1])]
  simp only [hT]

/-- C100, `TwoSidedErf`: the values have the law of the prior between five widths below and five widths above its limits. -/
theorem C100_erf (a wa b wb : ℝ) (hwa : 0 < wa) (hwb : 0 < wb) (hab : a < b) (nrand : Option ℕ) :
    open Classical in
    let keeps := fun d : ℝ × ℝ => decide (Fl.lt (.fin d.2) (Prior1.erfProb a wa b wb (a - 5 * wa + (b - a + 5 * (wa + wb)) * d.1)))
    Samples (stream (uniform01.prod uniform01)) (fun ω l => ∃ fuel r,
      erfSample a wa b wb nrand (batches keeps (nrand.getD 1) ω) fuel = some r ∧ Returns nrand r l) nrand
      (cutTo (Set.Ico (a - 5 * wa) (b + 5 * wb)) (Prior1.erf2 a wa b wb).lnprob) := by
  intro keeps
  have ht : ∀ u, a - 5 * wa + (b - a + 5 * (wa + wb)) * u = erfTrial a wa b wb u := by
    intro u; unfold erfTrial erfRange; norm_num; ring_nf; tauto
  have hk : {d : ℝ × ℝ | keeps d = true} = {d : ℝ × ℝ | d.2 < 1 / 2 * erf ((b - erfTrial a wa b wb d.1) / wb) +
      1 / 2 * erf ((erfTrial a wa b wb d.1 - a) / wa)} := by
    ext d
    simp only [keeps, Set.mem_ofPred_eq, decide_eq_true_eq, ht]
    exact erf_kept a wa b wb hwa hwb d
  have hX : Measurable (erfTrial a wa b wb) := by unfold erfTrial erfRange; fun_prop
  have he := erf_continuous.measurable
  have hm : MeasurableSet {d : ℝ × ℝ | keeps d = true} := by
    rw [hk]
    refine measurableSet_lt measurable_snd (Measurable.add (Measurable.const_mul (he.comp ?_) _) (Measurable.const_mul (he.comp ?_) _))
    · exact ((measurable_const.sub (hX.comp measurable_fst))).div_const _
    · exact (((hX.comp measurable_fst).sub measurable_const)).div_const _
  have := rejection_law (uniform01.prod uniform01) keeps hm (by rw [hk]; exact erf_part_pos a wa b wb hwa hwb hab)
    (fun d => erfTrial a wa b wb d.1) (hX.comp measurable_fst) (0, 0) (nrand.getD 1)
  rw [hk] at this
  refine ⟨_, law_erf a wa b wb hwa hwb hab, indep_congr (fun ω l => ?_) this⟩
  rw [← rej_returns]
  have e : keeps = fun d : ℝ × ℝ => open Classical in decide (Fl.lt (.fin d.2) (Prior1.erfProb a wa b wb (erfTrial a wa b wb d.1))) := by
    funext d; simp only [keeps]; rw [decide_eq_decide, ht]
  rw [e]
  unfold erfSample
  rfl

/-- One value of a law: the law is determined. -/
theorem samples_unique {Ω β : Type} [MeasurableSpace Ω] [MeasureSpace β] {P : Measure Ω} {out : Ω → List β → Prop} {p q : β → Except PyErr Fl}
    (h : Samples P out none p) (h' : Samples P out none q) : ∃ ν : Measure β, IsLawOf p ν ∧ IsLawOf q ν := by
  obtain ⟨ν, h1, h2⟩ := h
  obtain ⟨ν', h1', h2'⟩ := h'
  have : ν = ν' := by
    ext A hA
    have e := (h2.2 [A] rfl (by simpa using hA)).2
    have e' := (h2'.2 [A] rfl (by simpa using hA)).2
    rw [e] at e'
    simpa using e'
  exact ⟨ν, h1, this ▸ h1'⟩

/-- C100, `TwoSidedErf`, violation: the values do not have the law of the whole prior. -/
theorem C100_erf_tails (a w b : ℝ) (hw : 0 < w) (hab : a < b) :
    open Classical in
    let keeps := fun d : ℝ × ℝ => decide (Fl.lt (.fin d.2) (Prior1.erfProb a w b w (a - 5 * w + (b - a + 5 * (w + w)) * d.1)))
    ¬ Samples (stream (uniform01.prod uniform01)) (fun ω l => ∃ fuel r,
      erfSample a w b w none (batches keeps 1 ω) fuel = some r ∧ Returns none r l) none (Prior1.erf2 a w b w).lnprob := by
  intro keeps h
  obtain ⟨ν, ⟨-, c, hc, he⟩, ⟨-, c', hc', he'⟩⟩ := samples_unique h (C100_erf a w b w hw hw hab none)
  have hS : MeasurableSet (Set.Ioi (b + 5 * w)) := measurableSet_Ioi
  have hz : ν (Set.Ioi (b + 5 * w)) = 0 := by
    rw [he', withDensity_apply _ hS, setLIntegral_congr_fun (g := fun _ => 0) hS, lintegral_zero]
    intro x hx
    simp only [cutTo_density]
    rw [Set.indicator_of_notMem, mul_zero]
    exact fun h => absurd h.2 (not_lt.2 (le_of_lt hx))
  have hden : ∀ x, densityOf (Prior1.erf2 a w b w).lnprob x =
      ENNReal.ofReal (1 / 2 * erf ((b - x) / w) + 1 / 2 * erf ((x - a) / w)) :=
    fun x => erf_density a w b w x hw.ne' hw.ne'
  have hem := erf_continuous
  rw [he, withDensity_apply _ hS, lintegral_eq_zero_iff (by
    simp_rw [hden]
    exact (Measurable.ennreal_ofReal (Continuous.measurable (by fun_prop))).const_mul _)] at hz
  have hbad : (volume.restrict (Set.Ioi (b + 5 * w))) Set.univ = 0 := by
    refine measure_mono_null ?_ (ae_iff.1 hz)
    intro x _
    simp only [Set.mem_ofPred_eq, Pi.zero_apply]
    rw [hden]
    have hpos : 0 < 1 / 2 * erf ((b - x) / w) + 1 / 2 * erf ((x - a) / w) := by
      have h1 : erf ((b - x) / w) = -erf ((x - b) / w) := by rw [← erf_odd]; congr 1; ring
      have h2 := erf_strictMono (show (x - b) / w < (x - a) / w by
        exact div_lt_div_of_pos_right (by linarith) hw)
      rw [h1]; linarith
    exact mul_ne_zero (by simpa using hc) (by simpa using hpos)
  simp at hbad

/-- C100, `Bounded1D`: the values have the law of the wrapped prior, given that they are inside. -/
theorem C100_bounded (lnprob : ℝ → Except PyErr Fl) (ν : Measure ℝ) (hν : IsLawOf lnprob ν) (lo hi : ℝ)
    (hp : ν (Set.Ioo lo hi) ≠ 0) (nrand : Option ℕ) :
    open Classical in
    let keeps := fun x : ℝ => decide (lo < x ∧ x < hi)
    Samples (stream ν) (fun ω l => ∃ fuel r,
      boundedSample lo hi nrand none (batches keeps (nrand.getD 1) ω) fuel = some r ∧ Returns nrand r l) nrand
      (cutTo (Set.Ioo lo hi) lnprob) := by
  intro keeps
  have hk : {x : ℝ | keeps x = true} = Set.Ioo lo hi := by ext x; simp [keeps]
  have := hν.1
  have := rejection_law ν keeps (by rw [hk]; exact measurableSet_Ioo) (by rw [hk]; exact hp) (fun x => x) measurable_id 0
    (nrand.getD 1)
  rw [hk, show (fun x : ℝ => x) = id from rfl, Measure.map_id] at this
  refine ⟨_, law_given lnprob ν hν _ measurableSet_Ioo hp, indep_congr (fun ω l => ?_) this⟩
  have h2 := rej_returns keeps nrand 0 id ω l
  rw [← h2]
  have e : (if (none : Option ℕ).isNone = true ∧ nrand.isSome = true then nrand else none) = nrand := by
    cases nrand <;> simp
  simp only [boundedSample, e, List.map_id_fun, id]
  rfl

/-- C100, `ZDisk2D`: positions are uniform over the disk. -/
theorem C100_disk (radius : ℝ) (hr : radius ≠ 0) (nrand : Option ℕ) :
    Samples (stream (uniform01.prod uniform01)) (fun ω => Returns2 nrand (diskSample2d radius nrand ω)) nrand
      (fun g : ℝ × ℝ => (PriorG.disk radius).lnprob g.1 g.2) := by
  refine ⟨_, law_disk radius hr, indep_congr (fun ω l => ?_) (direct_law (uniform01.prod uniform01)
    (fun u => diskDraw radius u.1 u.2) (by unfold diskDraw; fun_prop) (nrand.getD 1))⟩
  rw [diskSample2d, returns_unpack2 _ _ _ (by simp)]
  simp [firsts]; rfl

/-- C100, `ZDisk2D.sample1d`: distances have a density proportional to the distance. -/
theorem C100_disk_distance (radius : ℝ) (hr : 0 < radius) (nrand : Option ℕ) :
    Samples (stream uniform01) (fun ω => Returns nrand (diskSample1d radius nrand ω)) nrand
      (cutTo (Set.Ioo 0 radius) fun r => .ok (.fin (Real.log r))) := by
  have hm : Measurable fun u : ℝ => Real.sqrt (radius ^ 2 * u) := by fun_prop
  refine ⟨_, isLawOf_intro (Measure.isProbabilityMeasure_map hm.aemeasurable) (ENNReal.ofReal (2 / radius ^ 2)) ?_
    ENNReal.ofReal_ne_top, indep_congr (fun ω l => ?_) (direct_law uniform01 _ hm (nrand.getD 1))⟩
  · rw [disk_radius_law radius hr.ne']
    congr 1
    funext r
    unfold diskRadius
    rw [cutTo_density, abs_of_pos hr]
    by_cases h : r ∈ Set.Ioo 0 radius
    · rw [Set.indicator_of_mem h, Set.indicator_of_mem h]
      simp only [densityOf, Real.exp_log h.1, Pi.one_apply, mul_one]
      rw [ENNReal.ofReal_mul (by positivity)]
    · rw [Set.indicator_of_notMem h, Set.indicator_of_notMem h]; simp
  · rw [diskSample1d, returns_unpack _ _ _ (by simp)]
    simp [firsts]; rfl

/-- C100, `ZDisk2D`, violation: `get_lnprob_scalar1d` is not the log density of those distances. -/
theorem C100_disk_lnprob1d (radius : ℝ) (hr : 0 < radius) :
    ¬ Samples (stream uniform01) (fun ω => Returns none (diskSample1d radius none ω)) none
      (cutTo (Set.Ici 0) (PriorG.diskLnprob1d radius)) := by
  intro h
  obtain ⟨ν, ⟨h1, c, hc, he⟩, ⟨-, c', hc', he'⟩⟩ := samples_unique h (C100_disk_distance radius hr none)
  have key : ∀ t, 0 < t → t ≤ radius → ν (Set.Ioo 0 t) = ENNReal.ofReal (c * t) := by
    intro t ht0 ht
    rw [he, withDensity_apply _ measurableSet_Ioo, setLIntegral_congr_fun (g := fun _ => ENNReal.ofReal c) measurableSet_Ioo]
    · rw [setLIntegral_const, Real.volume_Ioo, ← ENNReal.ofReal_mul hc.le, sub_zero]
    · intro x hx
      simp only
      rw [cutTo_density, Set.indicator_of_mem (show x ∈ Set.Ici (0 : ℝ) from hx.1.le), densityOf]
      simp only [PriorG.diskLnprob1d]
      rw [if_neg (by have := hx.2; push Not; linarith)]
      simp
  have key' : ∀ t, 0 < t → t ≤ radius → ν (Set.Ioo 0 t) = ENNReal.ofReal (c' * (t ^ 2 / 2)) := by
    intro t ht0 ht
    rw [he', withDensity_apply _ measurableSet_Ioo,
      setLIntegral_congr_fun (g := fun x => ENNReal.ofReal (c' * x)) measurableSet_Ioo]
    · rw [← ofReal_integral_eq_lintegral_ofReal]
      · congr 1
        rw [← integral_Ioc_eq_integral_Ioo, ← intervalIntegral.integral_of_le ht0.le, intervalIntegral.integral_const_mul,
          integral_id]
        ring
      · have hcont : Continuous fun x : ℝ => c' * x := by fun_prop
        exact (hcont.integrableOn_Icc (a := 0) (b := t)).mono_set Set.Ioo_subset_Icc_self
      · filter_upwards [ae_restrict_mem measurableSet_Ioo] with x hx
        exact mul_nonneg hc'.le hx.1.le
    · intro x hx
      simp only
      rw [cutTo_density, Set.indicator_of_mem (show x ∈ Set.Ioo 0 radius from ⟨hx.1, lt_of_lt_of_le hx.2 ht⟩)]
      simp only [densityOf]
      rw [Real.exp_log hx.1, ENNReal.ofReal_mul hc'.le]
  have e1 := (key radius hr le_rfl).symm.trans (key' radius hr le_rfl)
  have e2 := (key (radius / 2) (by positivity) (by linarith)).symm.trans (key' (radius / 2) (by positivity) (by linarith))
  rw [ENNReal.ofReal_eq_ofReal_iff (by positivity) (by positivity)] at e1 e2
  have : c' * radius ^ 2 = 0 := by nlinarith
  have : 0 < c' * radius ^ 2 := by positivity
  linarith

/-- C100, `CenPrior`. -/
theorem C100_center (p : CenPrior) (h1 : 0 < p.sigma1) (h2 : 0 < p.sigma2) (nrand : Option ℕ) :
    Samples (stream (stdNormal.prod stdNormal)) (fun ω => Returns2 nrand (p.sample nrand ω)) nrand
      (fun x : ℝ × ℝ => .ok (.fin (p.lnprob x.1 x.2))) := by
  refine ⟨_, law_cen p h1.ne' h2.ne', indep_congr (fun ω l => ?_) (direct_law (stdNormal.prod stdNormal)
    (fun z => (p.cen1 + p.sigma1 * z.1, p.cen2 + p.sigma2 * z.2)) (by fun_prop) (nrand.getD 1))⟩
  simp only [CenPrior.sample]
  rw [if_neg (by rintro (h | h) <;> linarith)]
  cases nrand with
  | none => simp [Returns2, ShapedAs2, valuesOf2, firsts, eq_comm]
  | some n => simp [Returns2, ShapedAs2, valuesOf2, firsts, eq_comm]; rfl

/-- C100, `GPriorGauss`: a gaussian of the two components, given that the size is below 0.9999. -/
theorem C100_gauss (sigma : ℝ) (h : 0 < sigma) (nrand : Option ℕ) :
    open Classical in
    let keeps := fun d : ℝ × ℝ => decide (Real.sqrt ((sigma * d.1) ^ 2 + (sigma * d.2) ^ 2) < 0.9999)
    Samples (stream (stdNormal.prod stdNormal)) (fun ω l => ∃ fuel r,
      gaussSample2d sigma nrand (batches keeps (nrand.getD 1) ω) fuel = some r ∧ Returns2 nrand r l) nrand
      (cutTo {g : ℝ × ℝ | Real.sqrt (g.1 ^ 2 + g.2 ^ 2) < 0.9999}
        fun g => .ok (.fin (-(g.1 ^ 2 + g.2 ^ 2) / (2 * sigma ^ 2)))) := by
  intro keeps
  have e9 : (0.9999 : ℝ) = 1 - 1.0e-4 := by norm_num
  have hk : {d : ℝ × ℝ | keeps d = true} = {d | Real.sqrt ((sigma * d.1) ^ 2 + (sigma * d.2) ^ 2) < 1 - 1.0e-4} := by
    ext d; simp only [keeps, Set.mem_ofPred_eq, decide_eq_true_eq, e9]
  have hm : MeasurableSet {d : ℝ × ℝ | keeps d = true} := by
    rw [hk]; exact measurableSet_lt (by fun_prop) measurable_const
  obtain ⟨hp, hl⟩ := law_gauss sigma h.ne'
  have := rejection_law (stdNormal.prod stdNormal) keeps hm (by rw [hk]; exact hp)
    (fun d => (sigma * d.1, sigma * d.2)) (by fun_prop) (0, 0) (nrand.getD 1)
  rw [hk] at this
  have hfun : (fun g : ℝ × ℝ => (.ok (.fin (-(g.1 ^ 2 + g.2 ^ 2) / (2 * sigma ^ 2))) : Except PyErr Fl)) =
      fun g => .ok (.fin ((⟨0, 0, sigma, sigma⟩ : CenPrior).lnprob g.1 g.2)) := by
    funext g
    congr 2
    simp only [CenPrior.lnprob]
    field_simp; norm_num; ring
  rw [hfun, e9]
  refine ⟨_, hl, indep_congr (fun ω l => ?_) this⟩
  rw [← rej_returns2]
  have e : keeps = fun d : ℝ × ℝ => open Classical in decide (Real.sqrt ((sigma * d.1) ^ 2 + (sigma * d.2) ^ 2) < 1 - 1.0e-4) := by
    funext d; simp only [keeps, e9]
  have hT : ∀ draws fuel, gaussSample2d sigma nrand draws fuel = (rejLoop keeps (nrand.getD 1) draws fuel 0
      (rejInit (0, 0) (nrand.getD 1))).map fun l => unpack2 nrand (l.map fun d => (sigma * d.1, sigma * d.2)) := by
    intro draws fuel
    simp only [gaussSample2d]
    rw [if_neg (fun hc => by linarith [hc.1]), e]
  simp only [hT]

/-- The maximum that the sampler uses: the one found before, or else the one found now. -/
def UsesMax (s : BaState) (mi : BaState.Minimise) (guess : Option ℝ) (u0 m : ℝ) : Prop :=
  s.maxval = some m ∨ s.maxval = none ∧ mi (fun g => -s.prob1d g) (s.maxGuess guess u0) = (0, -m)

theorem sample_uses {s : BaState} {mi : BaState.Minimise} {guess : Option ℝ} {u0 m : ℝ} (h : UsesMax s mi guess u0 m) (n : ℕ)
    (draws : ℕ → ℕ → List (ℝ × ℝ)) (fuel : ℕ) :
    open Classical in
    s.sample mi guess u0 n draws fuel = ({ s with maxval := some m }, .ok ((rejLoop (fun d : ℝ × ℝ => decide (s.keeps m d.1 d.2)) n
      draws fuel 0 (rejInit (0, 0) n)).map fun l => l.map fun d => (1 - 1.0e-4) * d.1)) := by
  rcases h with h | ⟨h, hmi⟩
  · unfold BaState.sample BaState.ensureMax
    simp only [h]
    congr 1
    rw [← h]
  · unfold BaState.sample BaState.ensureMax BaState.setMaxval
    simp only [h, hmi, ne_eq, not_true_eq_false, if_false, neg_neg]
    rfl

/-- C100, `GPriorBA.sample1d`: sizes have the density of the prior below 0.9999, if 1.1 times the maximum that is used is not
exceeded. -/
theorem C100_ba_size (s : BaState) (sigma A : ℝ) (hs : BaAt s sigma A) (hA : 0 < A) (mi : BaState.Minimise) (guess : Option ℝ)
    (u0 m : ℝ) (hu : UsesMax s mi guess u0 m) (hm : 0 < m)
    (hmax : ∀ g, 0 ≤ g → g ≤ 1 - 1.0e-4 → baDensity sigma A g ≤ 1.1 * m) (n : ℕ) :
    open Classical in
    Samples (stream (uniform01.prod uniform01)) (fun ω l => ∃ fuel,
      (s.sample mi guess u0 n (batches (fun d => decide (s.keeps m d.1 d.2)) n ω) fuel).2 = .ok (some l)) (some n)
      (cutTo (Set.Ico 0 (1 - 1.0e-4)) fun g => .ok (logFl (.fin (baDensity sigma A g)))) := by
  classical
  have hl := law_ba1d hs hA m hm hmax
  have e : (fun g => Except.ok (logFl (s.prob1d g)) : ℝ → Except PyErr Fl) =
    fun g => .ok (logFl (.fin (baDensity sigma A g))) := by funext g; rw [prob1d_at hs]
  rw [e] at hl
  have hk : {d : ℝ × ℝ | decide (s.keeps m d.1 d.2) = true} = {d | s.keeps m d.1 d.2} := by ext d; simp
  have := rejection_law (uniform01.prod uniform01) (fun d : ℝ × ℝ => decide (s.keeps m d.1 d.2))
    (by rw [hk]; exact keeps_measurable hs m hm) (by rw [hk]; exact ba_part_pos hs hA m hm)
    (fun d => (1 - 1.0e-4) * d.1) (by fun_prop) (0, 0) n
  rw [hk] at this
  refine ⟨_, hl, indep_congr (fun ω l => ?_) this⟩
  simp only [sample_uses hu, Except.ok.injEq, Option.map_eq_some_iff]
  constructor
  · rintro ⟨fuel, l0, h0, rfl⟩; exact ⟨fuel, l0, h0, rfl⟩
  · rintro ⟨fuel, l0, h0, rfl⟩; exact ⟨fuel, l0, h0, rfl⟩

/-- C100, `GPriorBA.sample2d`: the shapes have the law of the prior below 0.9999. -/
theorem C100_ba_shape (s : BaState) (sigma A : ℝ) (hs : BaAt s sigma A) (hA : 0 < A) (mi : BaState.Minimise) (guess : Option ℝ)
    (u0 m : ℝ) (hu : UsesMax s mi guess u0 m) (hm : 0 < m)
    (hmax : ∀ g, 0 ≤ g → g ≤ 1 - 1.0e-4 → baDensity sigma A g ≤ 1.1 * m) (nrand : Option ℕ) :
    open Classical in
    Samples ((stream (uniform01.prod uniform01)).prod (stream uniform01)) (fun ω l => ∃ fuel r,
      (s.sample2d mi guess u0 nrand (batches (fun d => decide (s.keeps m d.1 d.2)) (nrand.getD 1) ω.1) ω.2 fuel).2 =
        .ok (some r) ∧ Returns2 nrand (.ok r) l) nrand
      (cutTo {g : ℝ × ℝ | Real.sqrt (g.1 ^ 2 + g.2 ^ 2) < 1 - 1.0e-4} fun g => (PriorG.ba sigma A).lnprob g.1 g.2) := by
  classical
  have hl := law_ba2d hs hA m hm hmax
  have hk : {d : ℝ × ℝ | decide (s.keeps m d.1 d.2) = true} = {d | s.keeps m d.1 d.2} := by ext d; simp
  have := rejection_zip_law (uniform01.prod uniform01) uniform01 (fun d : ℝ × ℝ => decide (s.keeps m d.1 d.2))
    (by rw [hk]; exact keeps_measurable hs m hm) (by rw [hk]; exact ba_part_pos hs hA m hm)
    (fun d u => polarDraw ((1 - 1.0e-4) * d.1) u) (by unfold polarDraw; fun_prop) (0, 0) (nrand.getD 1)
  rw [hk] at this
  refine ⟨_, hl, indep_congr (fun ω l => ?_) this⟩
  have hz : ∀ l0 : List (ℝ × ℝ), List.zipWith polarDraw (l0.map fun d => (1 - 1.0e-4) * d.1)
      ((List.range (nrand.getD 1)).map ω.2) =
      List.zipWith (fun d u => polarDraw ((1 - 1.0e-4) * d.1) u) l0 (firsts ω.2 (nrand.getD 1)) := by
    intro l0; rw [List.zipWith_map_left]; rfl
  constructor
  · rintro ⟨fuel, r, h, hr⟩
    simp only [BaState.sample2d, sample_uses hu] at h
    rcases hrej : rejLoop (fun d : ℝ × ℝ => decide (s.keeps m d.1 d.2)) (nrand.getD 1)
      (batches (fun d => decide (s.keeps m d.1 d.2)) (nrand.getD 1) ω.1) fuel 0 (rejInit (0, 0) (nrand.getD 1)) with _ | l0
    · rw [hrej] at h; simp at h
    · rw [hrej] at h
      simp only [Option.map_some] at h
      rw [hz] at h
      have hlen := ((rejLoop_stream _ (0, 0) _ ω.1 l0).1 ⟨fuel, hrej⟩).1
      refine ⟨fuel, l0, hrej, ?_⟩
      obtain ⟨r', h', hr'⟩ := exMap_ok h
      injection hr' with hr'
      subst hr'
      rw [← h'] at hr
      exact (returns_unpack2 nrand _ l (by simp [hlen, firsts])).1 hr
  · rintro ⟨fuel, l0, hrej, rfl⟩
    have hlen := ((rejLoop_stream _ (0, 0) _ ω.1 l0).1 ⟨fuel, hrej⟩).1
    obtain ⟨r, h1, h2, h3⟩ := (returns_unpack2 nrand (List.zipWith (fun d u => polarDraw ((1 - 1.0e-4) * d.1) u) l0
      (firsts ω.2 (nrand.getD 1))) _ (by simp [hlen, firsts])).2 rfl
    refine ⟨fuel, r, ?_, r, rfl, h2, h3⟩
    simp only [BaState.sample2d, sample_uses hu, hrej, Option.map_some]
    rw [hz, h1]; rfl

/-- C100, `GPriorBA.sample2d_brute`: the shapes have the law of the whole prior. -/
theorem C100_ba_brute (s : BaState) (sigma A : ℝ) (hs : BaAt s sigma A) (hA : 0 < A) (n : ℕ) :
    open Classical in
    Samples (stream (uniform01.prod (uniform01.prod uniform01))) (fun ω l => ∃ fuel,
      s.sampleBrute2d n (batches (fun d => decide (s.keeps2d (2 * d.1 - 1) (2 * d.2.1 - 1) d.2.2)) n ω) fuel = some l) (some n)
      (fun g : ℝ × ℝ => (PriorG.ba sigma A).lnprob g.1 g.2) := by
  classical
  have hcube : ∀ u, 2 * u - 1 = BaState.cube u := by intro u; unfold BaState.cube; norm_num; ring
  simp only [hcube]
  obtain ⟨hp, hl⟩ := law_ba_brute hs hA
  have hc : Measurable BaState.cube := by unfold BaState.cube; fun_prop
  have hk : {d : ℝ × ℝ × ℝ | decide (s.keeps2d (BaState.cube d.1) (BaState.cube d.2.1) d.2.2) = true} =
    {d | s.keeps2d (BaState.cube d.1) (BaState.cube d.2.1) d.2.2} := by ext d; simp
  have hX : Measurable fun d : ℝ × ℝ × ℝ => (BaState.cube d.1, BaState.cube d.2.1) :=
    (hc.comp measurable_fst).prodMk (hc.comp (measurable_fst.comp measurable_snd))
  have hS : MeasurableSet {d : ℝ × ℝ × ℝ | s.keeps2d (BaState.cube d.1) (BaState.cube d.2.1) d.2.2} := by
    have : {d : ℝ × ℝ × ℝ | s.keeps2d (BaState.cube d.1) (BaState.cube d.2.1) d.2.2} =
        {d | d.2.2 < baDensity2d sigma 1 (BaState.cube d.1) (BaState.cube d.2.1)} := by
      ext d; exact ba_keeps2d hs hA _ _ _
    rw [this]
    exact measurableSet_lt (measurable_snd.comp measurable_snd) ((baDensity2d_measurable sigma 1).comp hX)
  have := rejection_law (uniform01.prod (uniform01.prod uniform01))
    (fun d : ℝ × ℝ × ℝ => decide (s.keeps2d (BaState.cube d.1) (BaState.cube d.2.1) d.2.2))
    (by rw [hk]; exact hS) (by rw [hk]; exact hp) (fun d => (BaState.cube d.1, BaState.cube d.2.1)) hX (0, 0, 0) n
  rw [hk] at this
  refine ⟨_, hl, indep_congr (fun ω l => ?_) this⟩
  simp only [BaState.sampleBrute2d, Option.map_eq_some_iff]
  constructor
  · rintro ⟨fuel, l0, h0, rfl⟩; exact ⟨fuel, l0, h0, rfl⟩
  · rintro ⟨fuel, l0, h0, rfl⟩; exact ⟨fuel, l0, h0, rfl⟩

/-! ### Concrete cases -/

example : Samples (stream uniform01) (fun ω => Returns (some 3) (flatSample (-1) 2 (some 3) ω)) (some 3)
    (Prior1.flat (-1) 2).lnprob := C100_flat (-1) 2 (by norm_num) (some 3)

example : Samples (stream stdNormal) (fun ω => Returns none (normalSample 1 2 none none ω)) none
    (Prior1.normal 1 2 none).lnprob := C100_normal 1 2 (by norm_num) none none

example : Samples (stream stdNormal) (fun ω => Returns (some 2) (.ok (lognormalSample 10 3 (some (-1)) (some 2) ω))) (some 2)
    (Prior1.lognormal 10 3 (some (-1))).lnprob := C100_lognormal 10 3 (by norm_num) (by norm_num) _ _

example := C100_truncated 0 1 (-1) 2 (by norm_num) (by norm_num) (some 5)

example := C100_erf (-1) 0.1 100 2 (by norm_num) (by norm_num) (by norm_num) (some 5)

example := C100_erf_tails (-1) 0.1 1 (by norm_num) (by norm_num)

/-- A normal prior bounded to a range. -/
example := C100_bounded (Prior1.normal 0 1 none).lnprob _ (law_normal 0 1 one_ne_zero none) (-1) 1 (by
  rw [Measure.map_apply (by fun_prop) measurableSet_Ioo]
  exact gauss_part_pos 0 1 (-1) 1 one_ne_zero (by norm_num)) none

example := C100_disk 2 (by norm_num) (some 4)

example := C100_disk_distance 2 (by norm_num) none

example := C100_disk_lnprob1d 2 (by norm_num)

example := C100_center ⟨1, 2, 0.1, 0.2⟩ (by norm_num) (by norm_num) (some 4)

example := C100_gauss 0.2 (by norm_num) none

theorem ba_example_max (g : ℝ) (h0 : 0 ≤ g) (h1 : g ≤ 1 - 1.0e-4) : baDensity 0.2 1 g ≤ 1.1 * 10 := by
  have hg : g ≤ 1 := by norm_num at h1; linarith
  unfold baDensity
  split_ifs with h
  · have hpi := Real.pi_le_four
    have e1 : Real.exp (-(g ^ 2 / (2 * 0.2 ^ 2))) ≤ 1 := by
      rw [Real.exp_le_one_iff]
      have : 0 ≤ g ^ 2 / (2 * 0.2 ^ 2) := by positivity
      linarith
    have e2 : 2 * Real.pi * g * (1 - g ^ 2) ^ 2 ≤ 8 := by
      have h2 : (1 - g ^ 2) ^ 2 ≤ 1 := by nlinarith [sq_nonneg g]
      have h3 : 2 * Real.pi * g ≤ 8 := by nlinarith [Real.pi_pos]
      have h4 : 0 ≤ 2 * Real.pi * g := by have := Real.pi_pos; positivity
      nlinarith [sq_nonneg (1 - g ^ 2)]
    have e3 : 0 ≤ 2 * Real.pi * g * (1 - g ^ 2) ^ 2 := by have := Real.pi_pos; positivity
    rw [one_mul]
    have e4 : 2 * Real.pi * g * (1 - g ^ 2) ^ 2 * Real.exp (-(g ^ 2 / (2 * 0.2 ^ 2))) ≤ 8 * 1 :=
      mul_le_mul e2 e1 (Real.exp_pos _).le (by norm_num)
    linarith
  · norm_num

/-- A new prior, whose maximum is searched for by the call. -/
example : ∃ s, BaState.new 0.2 1 = .ok s ∧ BaAt s 0.2 1 ∧ UsesMax s (fun _ _ => (0, -10)) none 0.5 10 := by
  obtain ⟨s, h1, h2, h3⟩ := (C94_new 0.2 1).2 (by norm_num)
  exact ⟨s, h1, h2, Or.inr ⟨h3, rfl⟩⟩

example (s : BaState) (hs : BaAt s 0.2 1) (hu : UsesMax s (fun _ _ => (0, -10)) none 0.5 10) :=
  C100_ba_size s 0.2 1 hs one_pos _ none 0.5 10 hu (by norm_num) ba_example_max 7

example (s : BaState) (hs : BaAt s 0.2 1) (hu : UsesMax s (fun _ _ => (0, -10)) none 0.5 10) :=
  C100_ba_shape s 0.2 1 hs one_pos _ none 0.5 10 hu (by norm_num) ba_example_max (some 7)

example (s : BaState) (hs : BaAt s 0.2 1) := C100_ba_brute s 0.2 1 hs one_pos 7

end

end Ngmix.Props
