import Verif.Proof.SampleLaws3

/-! # Laws of the samplers of the Bernstein Armstrong prior -/

namespace Ngmix.Props

open Ngmix Ngmix.Spec MeasureTheory ProbabilityTheory

noncomputable section

variable {α β γ : Type}

/-! ### Values of a rejection loop joined with further deviates -/

/-- What each kept trial has to satisfy, given the further deviates. -/
def secs (g : α → γ → β) : (ℕ → γ) → List (Set β) → List (Set α)
  | _, [] => []
  | ω, A :: As => {x | g x (ω 0) ∈ A} :: secs g (fun n => ω (n + 1)) As

theorem secs_length (g : α → γ → β) (As : List (Set β)) : ∀ ω, (secs g ω As).length = As.length := by
  induction As with
  | nil => intro ω; rfl
  | cons A As ih => intro ω; simp [secs, ih]

theorem firsts_cons (ω : ℕ → α) (N : ℕ) : firsts ω (N + 1) = ω 0 :: firsts (fun n => ω (n + 1)) N := by
  unfold firsts
  rw [List.range_succ_eq_map, List.map_cons, List.map_map]; rfl

theorem zip_secs (g : α → γ → β) (As : List (Set β)) : ∀ (ω : ℕ → γ) (l : List α), l.length = As.length →
    (List.Forall₂ (fun x A => x ∈ A) (List.zipWith g l (firsts ω As.length)) As ↔
      List.Forall₂ (fun x A => x ∈ A) l (secs g ω As)) := by
  induction As with
  | nil => intro ω l h; cases l with
    | nil => simp [firsts, secs]
    | cons => simp at h
  | cons A As ih => intro ω l h; cases l with
    | nil => simp at h
    | cons x l =>
      rw [List.length_cons, firsts_cons, List.zipWith_cons_cons, secs, List.forall₂_cons, List.forall₂_cons,
        ih _ l (by simpa using h)]
      rfl

theorem secs_measurable [MeasurableSpace α] [MeasurableSpace β] [MeasurableSpace γ] (g : α → γ → β)
    (hg : Measurable fun p : α × γ => g p.1 p.2) (As : List (Set β)) (hA : ∀ A ∈ As, MeasurableSet A) :
    ∀ ω, ∀ B ∈ secs g ω As, MeasurableSet B := by
  induction As with
  | nil => intro ω B hB; simp [secs] at hB
  | cons A As ih =>
    intro ω B hB
    rw [secs, List.mem_cons] at hB
    rcases hB with rfl | hB
    · exact (hg.comp (measurable_id.prodMk measurable_const)) (hA A (by simp))
    · exact ih (fun A hA' => hA A (by simp [hA'])) _ B hB

theorem shift_measurable [MeasurableSpace α] : Measurable fun ω : ℕ → α => fun n => ω (n + 1) :=
  measurable_pi_iff.2 fun n => measurable_pi_apply (n + 1)

theorem zip_measurable [MeasurableSpace α] [MeasurableSpace β] [MeasurableSpace γ] (accept : α → Bool)
    (ha : MeasurableSet {x | accept x = true}) (g : α → γ → β) (hg : Measurable fun p : α × γ => g p.1 p.2) (N : ℕ) :
    ∀ As : List (Set β), (∀ A ∈ As, MeasurableSet A) →
    MeasurableSet {p : (ℕ → α) × (ℕ → γ) | List.Forall₂ (fun x A => x ∈ A) ((firsts p.1 N).filter accept) (secs g p.2 As)} := by
  have hs1 : Measurable fun p : (ℕ → α) × (ℕ → γ) => ((fun n => p.1 (n + 1), p.2) : (ℕ → α) × (ℕ → γ)) :=
    (shift_measurable.comp measurable_fst).prodMk measurable_snd
  have hs2 : Measurable fun p : (ℕ → α) × (ℕ → γ) => ((fun n => p.1 (n + 1), fun n => p.2 (n + 1)) : (ℕ → α) × (ℕ → γ)) :=
    (shift_measurable.comp measurable_fst).prodMk (shift_measurable.comp measurable_snd)
  have h00 : Measurable fun p : (ℕ → α) × (ℕ → γ) => g (p.1 0) (p.2 0) :=
    hg.comp (f := fun p : (ℕ → α) × (ℕ → γ) => (p.1 0, p.2 0)) (((measurable_pi_apply 0).comp measurable_fst).prodMk ((measurable_pi_apply 0).comp measurable_snd))
  have hacc : MeasurableSet {p : (ℕ → α) × (ℕ → γ) | accept (p.1 0) = true} :=
    ((measurable_pi_apply 0).comp measurable_fst : Measurable fun p : (ℕ → α) × (ℕ → γ) => p.1 0) ha
  induction N with
  | zero =>
    intro As _
    cases As with
    | nil => simp [firsts, secs]
    | cons A As => simp [firsts, secs]
  | succ N ih =>
    intro As hA
    cases As with
    | nil =>
      have : {p : (ℕ → α) × (ℕ → γ) | List.Forall₂ (fun x A => x ∈ A) ((firsts p.1 (N + 1)).filter accept) (secs g p.2 [])} =
          {p | accept (p.1 0) = true}ᶜ ∩ (fun p : (ℕ → α) × (ℕ → γ) => ((fun n => p.1 (n + 1), p.2) : (ℕ → α) × (ℕ → γ))) ⁻¹'
            {p | List.Forall₂ (fun x A => x ∈ A) ((firsts p.1 N).filter accept) (secs g p.2 [])} := by
        ext p
        simp only [Set.mem_setOf_eq, Set.mem_inter_iff, Set.mem_compl_iff, Set.mem_preimage, secs, firsts_cons,
          List.forall₂_nil_right_iff]
        by_cases h : accept (p.1 0) = true
        · simp [List.filter_cons, h]
        · simp [List.filter_cons, h]
      rw [this]
      exact hacc.compl.inter (hs1 (ih [] (by simp)))
    | cons A As =>
      have : {p : (ℕ → α) × (ℕ → γ) | List.Forall₂ (fun x A => x ∈ A) ((firsts p.1 (N + 1)).filter accept)
            (secs g p.2 (A :: As))} =
          ({p | accept (p.1 0) = true}ᶜ ∩ (fun p : (ℕ → α) × (ℕ → γ) => ((fun n => p.1 (n + 1), p.2) : (ℕ → α) × (ℕ → γ))) ⁻¹'
            {p | List.Forall₂ (fun x A => x ∈ A) ((firsts p.1 N).filter accept) (secs g p.2 (A :: As))}) ∪
          ({p | accept (p.1 0) = true} ∩ ((fun p : (ℕ → α) × (ℕ → γ) => g (p.1 0) (p.2 0)) ⁻¹' A ∩
            (fun p : (ℕ → α) × (ℕ → γ) => ((fun n => p.1 (n + 1), fun n => p.2 (n + 1)) : (ℕ → α) × (ℕ → γ))) ⁻¹'
            {p | List.Forall₂ (fun x A => x ∈ A) ((firsts p.1 N).filter accept) (secs g p.2 As)})) := by
        ext p
        simp only [Set.mem_setOf_eq, Set.mem_inter_iff, Set.mem_compl_iff, Set.mem_preimage, Set.mem_union, firsts_cons]
        by_cases h : accept (p.1 0) = true
        · rw [List.filter_cons_of_pos h, secs, List.forall₂_cons]
          simp [h]
        · rw [List.filter_cons_of_neg h]
          simp [h]
      rw [this]
      exact (hacc.compl.inter (hs1 (ih (A :: As) hA))).union
        (hacc.inter ((h00 (hA A (by simp))).inter (hs2 (ih As fun B hB => hA B (by simp [hB])))))

theorem secs_law [MeasurableSpace α] [MeasurableSpace β] [MeasurableSpace γ] (μ : Measure γ) [IsProbabilityMeasure μ]
    (ν : Measure α) [SFinite ν] (g : α → γ → β) (hg : Measurable fun p : α × γ => g p.1 p.2) (As : List (Set β))
    (hA : ∀ A ∈ As, MeasurableSet A) :
    Measurable (fun ω : ℕ → γ => ((secs g ω As).map ν).prod) ∧
    ∫⁻ ω, ((secs g ω As).map ν).prod ∂(stream μ) = (As.map ((ν.prod μ).map fun p => g p.1 p.2)).prod := by
  have : IsProbabilityMeasure (stream μ) := by unfold stream; infer_instance
  induction As with
  | nil => simp [secs]
  | cons A As ih =>
    obtain ⟨ih1, ih2⟩ := ih fun B hB => hA B (by simp [hB])
    have hAm := hA A (by simp)
    have hsec : Measurable fun u : γ => ν {x | g x u ∈ A} := measurable_measure_prodMk_right (hg hAm)
    have hm : Measurable (fun ω : ℕ → γ => ((secs g ω (A :: As)).map ν).prod) := by
      simp only [secs, List.map_cons, List.prod_cons]
      exact (hsec.comp (measurable_pi_apply 0)).mul (ih1.comp shift_measurable)
    refine ⟨hm, ?_⟩
    rw [← stream_scons μ, lintegral_map hm measurable_scons]
    have e : ∀ p : γ × (ℕ → γ), ((secs g (scons p.1 p.2) (A :: As)).map ν).prod =
        ν {x | g x p.1 ∈ A} * ((secs g p.2 As).map ν).prod := by
      intro p; simp only [secs, List.map_cons, List.prod_cons]; rfl
    simp_rw [e]
    rw [lintegral_prod_mul hsec.aemeasurable ih1.aemeasurable, ih2, List.map_cons, List.prod_cons]
    congr 1
    rw [Measure.map_apply hg hAm, Measure.prod_apply_symm (hg hAm)]
    rfl

/-- The values a rejection loop returns, each joined with a further deviate. -/
theorem rejection_zip_law [MeasurableSpace α] [MeasurableSpace β] [MeasurableSpace γ] (μ : Measure α) [IsProbabilityMeasure μ]
    (μ' : Measure γ) [IsProbabilityMeasure μ'] (accept : α → Bool)
    (ha : MeasurableSet {x | accept x = true}) (hp : μ {x | accept x = true} ≠ 0) (g : α → γ → β)
    (hg : Measurable fun p : α × γ => g p.1 p.2) (zero : α) (n : ℕ) :
    IndepOfLaw ((stream μ).prod (stream μ')) (fun ω l => ∃ fuel l0,
      rejLoop accept n (batches accept n ω.1) fuel 0 (rejInit zero n) = some l0 ∧ l = List.zipWith g l0 (firsts ω.2 n)) n
      (((cond μ {x | accept x = true}).prod μ').map fun p => g p.1 p.2) := by
  refine ⟨?_, ?_⟩
  · rintro ω l l' ⟨fuel, l0, h, rfl⟩ ⟨fuel', l0', h', rfl⟩
    rw [keptN_unique ((rejLoop_stream accept zero n ω.1 l0).1 ⟨fuel, h⟩) ((rejLoop_stream accept zero n ω.1 l0').1 ⟨fuel', h'⟩)]
  intro As hn hA
  subst hn
  have : IsProbabilityMeasure (stream μ) := by unfold stream; infer_instance
  have : IsProbabilityMeasure (stream μ') := by unfold stream; infer_instance
  have e : {ω : (ℕ → α) × (ℕ → γ) | ∃ l, (∃ fuel l0,
      rejLoop accept As.length (batches accept As.length ω.1) fuel 0 (rejInit zero As.length) = some l0 ∧
      l = List.zipWith g l0 (firsts ω.2 As.length)) ∧ List.Forall₂ (fun x A => x ∈ A) l As} =
      {ω | ω.1 ∈ keptIn accept (secs g ω.2 As)} := by
    ext ω
    simp only [Set.mem_setOf_eq]
    rw [← keptN_forall accept ω.1 As.length _ (secs_length g As ω.2)]
    constructor
    · rintro ⟨l, ⟨fuel, l0, hl0, rfl⟩, hl⟩
      have hk := (rejLoop_stream accept zero As.length ω.1 l0).1 ⟨fuel, hl0⟩
      exact ⟨l0, hk, (zip_secs g As ω.2 l0 hk.1).1 hl⟩
    · rintro ⟨l0, hk, hl⟩
      obtain ⟨fuel, hl0⟩ := (rejLoop_stream accept zero As.length ω.1 l0).2 hk
      exact ⟨_, ⟨fuel, l0, hl0, rfl⟩, (zip_secs g As ω.2 l0 hk.1).2 hl⟩
  rw [e]
  have hmeas : MeasurableSet {ω : (ℕ → α) × (ℕ → γ) | ω.1 ∈ keptIn accept (secs g ω.2 As)} := by
    have : {ω : (ℕ → α) × (ℕ → γ) | ω.1 ∈ keptIn accept (secs g ω.2 As)} =
        ⋃ N, {p | List.Forall₂ (fun x A => x ∈ A) ((firsts p.1 N).filter accept) (secs g p.2 As)} := by
      ext ω; simp [keptIn]
    rw [this]
    exact MeasurableSet.iUnion fun N => zip_measurable accept ha g hg N As hA
  refine ⟨hmeas, ?_⟩
  rw [Measure.prod_apply_symm hmeas]
  have hin : ∀ ω' : ℕ → γ, stream μ ((fun ω => (ω, ω')) ⁻¹' {ω : (ℕ → α) × (ℕ → γ) | ω.1 ∈ keptIn accept (secs g ω.2 As)}) =
      ((secs g ω' As).map (cond μ {x | accept x = true})).prod := fun ω' =>
    keptIn_law μ accept ha hp (secs g ω' As) (secs_measurable g hg As hA ω')
  simp_rw [hin]
  have := cond_isProbabilityMeasure hp
  exact (secs_law μ' _ g hg As hA).2

/-! ### The one dimensional law -/

theorem cond_congr_ae [MeasurableSpace α] (μ : Measure α) (s t : Set α) (h : s =ᵐ[μ] t) : cond μ s = cond μ t := by
  unfold ProbabilityTheory.cond
  rw [measure_congr h, Measure.restrict_congr_set h]

theorem baDensity_measurable (sigma A : ℝ) : Measurable (baDensity sigma A) := by
  unfold baDensity
  exact Measurable.ite (measurableSet_lt (by fun_prop) measurable_const) (by fun_prop) measurable_const

/-- The logarithm of a probability. -/
theorem ofProb_density (p : α → ℝ) (x : α) : densityOf (fun x => .ok (logFl (.fin (p x)))) x = ENNReal.ofReal (p x) := by
  unfold densityOf
  simp only [logFl]
  rcases lt_trichotomy (p x) 0 with h | h | h
  · rw [if_pos h, ENNReal.ofReal_of_nonpos h.le]
  · rw [if_neg (by rw [h]; exact lt_irrefl _), if_pos h, h, ENNReal.ofReal_zero]
  · rw [if_neg (not_lt.2 h.le), if_neg h.ne']
    simp only [Real.exp_log h]

theorem ba_keeps {s : BaState} {sigma A : ℝ} (hs : BaAt s sigma A) (m : ℝ) (hm : 0 < m) (d : ℝ × ℝ) :
    s.keeps m d.1 d.2 ↔ d.2 < baDensity sigma A ((1 - 1.0e-4) * d.1) / (1.1 * m) := by
  unfold BaState.keeps
  rw [prob1dElem_at hs, lt_div_iff₀ (by positivity)]
  rw [show d.2 * (1.1 * m) = m * 1.1 * d.2 by ring]
  rfl

theorem uniform_pair_lt : ∀ᵐ p : ℝ × ℝ ∂(uniform01.prod uniform01), p.2 < 1 := by
  have h2 : ∀ᵐ v ∂uniform01, v < 1 := by
    unfold uniform01
    filter_upwards [ae_restrict_mem (μ := (volume : Measure ℝ)) (measurableSet_Ico (a := (0 : ℝ)) (b := 1))] with v hv
    exact hv.2
  exact Measure.quasiMeasurePreserving_snd.ae h2

theorem ba_trial_law : uniform01.map (fun u => (1 - 1.0e-4) * u) =
    volume.withDensity fun x => ENNReal.ofReal (1 / (1 - 1.0e-4)) * (Set.Ico 0 (1 - 1.0e-4 : ℝ)).indicator 1 x := by
  have := affine_law 0 (1 - 1.0e-4) (by norm_num)
  simpa only [zero_add] using this

theorem ba_keeps_ae {s : BaState} {sigma A : ℝ} (hs : BaAt s sigma A) (m : ℝ) (hm : 0 < m) :
    {d : ℝ × ℝ | s.keeps m d.1 d.2} =ᵐ[uniform01.prod uniform01]
      {d : ℝ × ℝ | d.2 < min 1 (baDensity sigma A ((1 - 1.0e-4) * d.1) / (1.1 * m))} := by
  rw [Filter.eventuallyEq_set]
  filter_upwards [uniform_pair_lt] with d hd
  change s.keeps m d.1 d.2 ↔ d.2 < min 1 _
  rw [ba_keeps hs m hm, lt_min_iff]
  exact ⟨fun h => ⟨hd, h⟩, fun h => h.2⟩

theorem ba_part_pos {s : BaState} {sigma A : ℝ} (hs : BaAt s sigma A) (hA : 0 < A) (m : ℝ) (hm : 0 < m) :
    (uniform01.prod uniform01) {d : ℝ × ℝ | s.keeps m d.1 d.2} ≠ 0 := by
  rw [measure_congr (ba_keeps_ae hs m hm)]
  refine height_pos uniform01 (fun u => (1 - 1.0e-4) * u) (by fun_prop)
    (fun x => min 1 (baDensity sigma A x / (1.1 * m)))
    (measurable_const.min ((baDensity_measurable sigma A).div_const _)) (fun x => min_le_left _ _)
    (Set.Ioo 0 (1 - 1.0e-4)) ?_ ?_
  · rw [ba_trial_law, withDensity_apply _ measurableSet_Ioo,
      setLIntegral_congr_fun (g := fun _ => ENNReal.ofReal (1 / (1 - 1.0e-4))) measurableSet_Ioo]
    · rw [setLIntegral_const, Real.volume_Ioo]
      refine mul_ne_zero ?_ ?_ <;> rw [Ne, ENNReal.ofReal_eq_zero, not_le] <;> norm_num
    · intro x hx
      simp only [Set.indicator_of_mem (show x ∈ Set.Ico (0 : ℝ) (1 - 1.0e-4) from ⟨hx.1.le, hx.2⟩), Pi.one_apply, mul_one]
  · rintro x ⟨h0, h1⟩
    have hx1 : x < 1 := by norm_num at h1; linarith
    have hsq : x ^ 2 < 1 := by nlinarith
    have : 0 < baDensity sigma A x := by
      unfold baDensity
      rw [if_pos hsq]
      have : 0 < 1 - x ^ 2 := by linarith
      have := Real.pi_pos
      positivity
    exact lt_min one_pos (by positivity)

theorem keeps_measurable {s : BaState} {sigma A : ℝ} (hs : BaAt s sigma A) (m : ℝ) (hm : 0 < m) :
    MeasurableSet {d : ℝ × ℝ | s.keeps m d.1 d.2} := by
  have : {d : ℝ × ℝ | s.keeps m d.1 d.2} = {d | d.2 < baDensity sigma A ((1 - 1.0e-4) * d.1) / (1.1 * m)} := by
    ext d; exact ba_keeps hs m hm d
  rw [this]
  exact measurableSet_lt measurable_snd (((baDensity_measurable sigma A).comp (by fun_prop)).div_const _)

theorem law_ba1d {s : BaState} {sigma A : ℝ} (hs : BaAt s sigma A) (hA : 0 < A) (m : ℝ) (hm : 0 < m)
    (hmax : ∀ g, 0 ≤ g → g ≤ 1 - 1.0e-4 → baDensity sigma A g ≤ 1.1 * m) :
    IsLawOf (cutTo (Set.Ico 0 (1 - 1.0e-4)) fun g => .ok (logFl (s.prob1d g)))
      ((cond (uniform01.prod uniform01) {d : ℝ × ℝ | s.keeps m d.1 d.2}).map fun d => (1 - 1.0e-4) * d.1) := by
  rw [cond_congr_ae _ _ _ (ba_keeps_ae hs m hm)]
  have hpos := ba_part_pos hs hA m hm
  rw [measure_congr (ba_keeps_ae hs m hm)] at hpos
  refine law_height uniform01 (fun u => (1 - 1.0e-4) * u) (by fun_prop) _ measurableSet_Ico
    (ENNReal.ofReal (1 / (1 - 1.0e-4))) ENNReal.ofReal_ne_top ba_trial_law
    (fun x => min 1 (baDensity sigma A x / (1.1 * m)))
    (measurable_const.min ((baDensity_measurable sigma A).div_const _)) (fun x => min_le_left _ _) _
    (ENNReal.ofReal (1 / (1.1 * m))) ENNReal.ofReal_ne_top ?_ hpos
  rintro x ⟨h0, h1⟩
  have e : (fun g => Except.ok (logFl (s.prob1d g)) : ℝ → Except PyErr Fl) = fun g => .ok (logFl (.fin (baDensity sigma A g))) := by
    funext g; rw [prob1d_at hs]
  rw [e, ofProb_density, ← ENNReal.ofReal_mul (by positivity), min_eq_right]
  · congr 1; field_simp
  · rw [div_le_one (by positivity)]; exact hmax x h0 h1.le

/-! ### The two dimensional law -/

theorem ba_density2d (sigma A : ℝ) (g : ℝ × ℝ) :
    densityOf (fun g : ℝ × ℝ => (PriorG.ba sigma A).lnprob g.1 g.2) g = ENNReal.ofReal (baDensity2d sigma 1 g.1 g.2) := by
  unfold densityOf baDensity2d
  simp only [PriorG.lnprob]
  by_cases h : g.1 ^ 2 + g.2 ^ 2 < 1
  · rw [if_neg (by nlinarith), if_pos h]
    have h' : 0 < 1 - (g.1 * g.1 + g.2 * g.2) := by nlinarith
    simp only
    rw [sub_eq_add_neg, Real.exp_add, mul_comm (2 : ℝ), Real.exp_mul, Real.exp_log h']
    congr 1
    rw [one_mul]
    congr 1
    · rw [show g.1 ^ 2 + g.2 ^ 2 = g.1 * g.1 + g.2 * g.2 by ring]; exact Real.rpow_two _
    · congr 1
      by_cases hs : sigma = 0
      · simp [hs]
      · field_simp; norm_num; ring
  · rw [if_pos (by nlinarith), if_neg h, ENNReal.ofReal_zero]

theorem law_ba2d {s : BaState} {sigma A : ℝ} (hs : BaAt s sigma A) (hA : 0 < A) (m : ℝ) (hm : 0 < m)
    (hmax : ∀ g, 0 ≤ g → g ≤ 1 - 1.0e-4 → baDensity sigma A g ≤ 1.1 * m) :
    IsLawOf (cutTo {g : ℝ × ℝ | Real.sqrt (g.1 ^ 2 + g.2 ^ 2) < 1 - 1.0e-4} fun g => (PriorG.ba sigma A).lnprob g.1 g.2)
      (((cond (uniform01.prod uniform01) {d : ℝ × ℝ | s.keeps m d.1 d.2}).prod uniform01).map
        fun p => polarDraw ((1 - 1.0e-4) * p.1.1) p.2) := by
  obtain ⟨hprob, c, hc, he⟩ := law_ba1d hs hA m hm hmax
  have := cond_isProbabilityMeasure (ba_part_pos hs hA m hm)
  have hpm : Measurable fun p : ℝ × ℝ => polarDraw p.1 p.2 := by unfold polarDraw; fun_prop
  have hrm : Measurable fun d : ℝ × ℝ => (1 - 1.0e-4) * d.1 := by fun_prop
  let q : ℝ → ENNReal := fun x => ENNReal.ofReal c * (Set.Ico 0 (1 - 1.0e-4 : ℝ)).indicator
    (fun x => ENNReal.ofReal (baDensity sigma A x)) x
  have hq : (fun x => ENNReal.ofReal c * densityOf (cutTo (Set.Ico 0 (1 - 1.0e-4)) fun g => .ok (logFl (s.prob1d g))) x) = q := by
    funext x
    have e : (fun g => Except.ok (logFl (s.prob1d g)) : ℝ → Except PyErr Fl) =
        fun g => .ok (logFl (.fin (baDensity sigma A g))) := by funext g; rw [prob1d_at hs]
    rw [e, cutTo_density]
    congr 1
    congr 1
    funext x; exact ofProb_density _ x
  rw [hq] at he
  have hqm : Measurable q :=
    (Measurable.indicator (baDensity_measurable sigma A).ennreal_ofReal measurableSet_Ico).const_mul _
  have : IsProbabilityMeasure (volume.withDensity q) := he ▸ hprob
  have hpolar := polar_law 2 two_pos q hqm (by
    intro r hr
    simp only [q]
    by_cases h : r ∈ Set.Ico (0 : ℝ) (1 - 1.0e-4)
    · have : r = 0 := le_antisymm hr h.1
      subst this
      rw [Set.indicator_of_mem h]
      simp [baDensity]
    · rw [Set.indicator_of_notMem h, mul_zero])
  have e : ((cond (uniform01.prod uniform01) {d : ℝ × ℝ | s.keeps m d.1 d.2}).prod uniform01).map
        (fun p => polarDraw ((1 - 1.0e-4) * p.1.1) p.2) =
      ((volume.withDensity q).prod uniform01).map
      (fun p => (p.1 * Real.cos (2 * Real.pi * (2 : ℕ) * p.2), p.1 * Real.sin (2 * Real.pi * (2 : ℕ) * p.2))) := by
    have h2 : (volume.withDensity q).prod uniform01 =
        ((cond (uniform01.prod uniform01) {d : ℝ × ℝ | s.keeps m d.1 d.2}).prod uniform01).map
          (Prod.map (fun d : ℝ × ℝ => (1 - 1.0e-4) * d.1) id) := by
      rw [← he, ← Measure.map_prod_map _ _ hrm measurable_id, Measure.map_id]
    rw [h2, Measure.map_map (by fun_prop) (hrm.prodMap measurable_id)]
    congr 1
    funext p
    simp only [polarDraw, Function.comp, Prod.map, id]
    have : 2 * (p.2 * 2 * Real.pi) = 2 * Real.pi * (2 : ℕ) * p.2 := by push_cast; ring
    rw [this]
  refine isLawOf_ae (Measure.isProbabilityMeasure_map (hpm.comp ((hrm.comp measurable_fst).prodMk measurable_snd)).aemeasurable)
    (ENNReal.ofReal (c * A)) ENNReal.ofReal_ne_top _ (e.trans hpolar) ?_
  have : ∀ᵐ x : ℝ × ℝ, x ≠ 0 := by
    rw [ae_iff]; simp
  filter_upwards [this] with x hx
  rw [cutTo_density]
  have hpos : 0 < x.1 ^ 2 + x.2 ^ 2 := by
    by_contra h
    have h1 : x.1 ^ 2 = 0 := by nlinarith [sq_nonneg x.1, sq_nonneg x.2]
    have h2 : x.2 ^ 2 = 0 := by nlinarith [sq_nonneg x.1, sq_nonneg x.2]
    exact hx (Prod.ext (by simpa using h1) (by simpa using h2))
  have hsp := Real.sqrt_pos.2 hpos
  have hsq : Real.sqrt (x.1 ^ 2 + x.2 ^ 2) ^ 2 = x.1 ^ 2 + x.2 ^ 2 := Real.sq_sqrt hpos.le
  simp only [q]
  by_cases h : Real.sqrt (x.1 ^ 2 + x.2 ^ 2) < 1 - 1.0e-4
  · rw [Set.indicator_of_mem (show x ∈ {g : ℝ × ℝ | Real.sqrt (g.1 ^ 2 + g.2 ^ 2) < 1 - 1.0e-4} from h),
      Set.indicator_of_mem (show Real.sqrt (x.1 ^ 2 + x.2 ^ 2) ∈ Set.Ico (0 : ℝ) (1 - 1.0e-4) from ⟨hsp.le, h⟩), ba_density2d,
      ENNReal.ofReal_mul hc.le, mul_assoc (ENNReal.ofReal c), mul_assoc (ENNReal.ofReal c)]
    refine congrArg (fun t => ENNReal.ofReal c * t) ?_
    have h1 : x.1 ^ 2 + x.2 ^ 2 < 1 := by
      rw [← hsq]; norm_num at h; nlinarith
    unfold baDensity baDensity2d
    rw [hsq, if_pos h1, if_pos h1, ← ENNReal.ofReal_mul' (by positivity), ← ENNReal.ofReal_mul hA.le]
    congr 1
    generalize Real.sqrt (x.1 ^ 2 + x.2 ^ 2) = r at hsp
    generalize x.1 ^ 2 + x.2 ^ 2 = t
    generalize Real.exp (-(t / (2 * sigma ^ 2))) = E
    have := Real.pi_pos
    field_simp
  · rw [Set.indicator_of_notMem (show x ∉ {g : ℝ × ℝ | Real.sqrt (g.1 ^ 2 + g.2 ^ 2) < 1 - 1.0e-4} from h),
      Set.indicator_of_notMem (fun h' => h h'.2)]
    simp

/-! ### Brute force -/

theorem isLawOf_congr [MeasureSpace α] {p q : α → Except PyErr Fl} {ν : Measure α} (h : ∀ x, densityOf p x = densityOf q x)
    (hp : IsLawOf p ν) : IsLawOf q ν := by
  obtain ⟨h1, c, hc, he⟩ := hp
  refine ⟨h1, c, hc, he.trans ?_⟩
  congr 1; funext x; rw [h]

theorem baDensity2d_measurable (sigma A : ℝ) : Measurable fun g : ℝ × ℝ => baDensity2d sigma A g.1 g.2 := by
  unfold baDensity2d
  exact Measurable.ite (measurableSet_lt (by fun_prop) measurable_const) (by fun_prop) measurable_const

theorem baDensity2d_le (sigma : ℝ) (g1 g2 : ℝ) : baDensity2d sigma 1 g1 g2 ≤ 1 := by
  unfold baDensity2d
  split_ifs with h
  · rw [one_mul]
    have h0 : 0 ≤ g1 ^ 2 + g2 ^ 2 := by positivity
    refine mul_le_one₀ ?_ (Real.exp_pos _).le ?_
    · nlinarith
    · rw [Real.exp_le_one_iff]
      have : 0 ≤ (g1 ^ 2 + g2 ^ 2) / (2 * sigma ^ 2) := by positivity
      linarith
  · exact zero_le_one

theorem cube_law : uniform01.map BaState.cube =
    volume.withDensity fun x => ENNReal.ofReal (1 / 2) * (Set.Ico (-1 : ℝ) 1).indicator 1 x := by
  have := affine_law (-1) 2 two_pos
  have e : BaState.cube = fun u => -1 + 2 * u := by funext u; unfold BaState.cube; norm_num
  rw [e, this]
  norm_num

theorem ba_keeps2d {s : BaState} {sigma A : ℝ} (hs : BaAt s sigma A) (hA : 0 < A) (g1 g2 v : ℝ) :
    s.keeps2d g1 g2 v ↔ v < baDensity2d sigma 1 g1 g2 := by
  rw [keeps2d_iff hs]
  have : baDensity2d sigma A g1 g2 = A * baDensity2d sigma 1 g1 g2 := by
    unfold baDensity2d; split_ifs <;> ring
  rw [this, mul_lt_mul_iff_right₀ hA]

theorem square_law : (uniform01.prod uniform01).map (fun u => (BaState.cube u.1, BaState.cube u.2)) =
    volume.withDensity fun x : ℝ × ℝ => ENNReal.ofReal (1 / 4) * (Set.Ico (-1 : ℝ) 1 ×ˢ Set.Ico (-1 : ℝ) 1).indicator 1 x := by
  have hc : Measurable BaState.cube := by unfold BaState.cube; fun_prop
  have e : (uniform01.prod uniform01).map (fun u => (BaState.cube u.1, BaState.cube u.2)) =
      (uniform01.map BaState.cube).prod (uniform01.map BaState.cube) := by
    rw [Measure.map_prod_map _ _ hc hc]; rfl
  have hi : Measurable fun x : ℝ => ENNReal.ofReal (1 / 2) * (Set.Ico (-1 : ℝ) 1).indicator 1 x :=
    (measurable_one.indicator measurableSet_Ico).const_mul _
  rw [e, cube_law, prod_withDensity hi hi, Measure.volume_eq_prod]
  congr 1
  funext x
  have h4 : ENNReal.ofReal (1 / 4) = ENNReal.ofReal (1 / 2) * ENNReal.ofReal (1 / 2) := by
    rw [← ENNReal.ofReal_mul (by norm_num)]; norm_num
  rw [h4]
  by_cases h1 : x.1 ∈ Set.Ico (-1 : ℝ) 1
  · by_cases h2 : x.2 ∈ Set.Ico (-1 : ℝ) 1
    · rw [Set.indicator_of_mem h1, Set.indicator_of_mem h2, Set.indicator_of_mem (Set.mk_mem_prod h1 h2)]; simp
    · rw [Set.indicator_of_notMem h2, Set.indicator_of_notMem (s := Set.Ico (-1 : ℝ) 1 ×ˢ Set.Ico (-1 : ℝ) 1) (fun h => h2 h.2)]; simp
  · rw [Set.indicator_of_notMem h1, Set.indicator_of_notMem (s := Set.Ico (-1 : ℝ) 1 ×ˢ Set.Ico (-1 : ℝ) 1) (fun h => h1 h.1)]; simp

theorem law_ba_brute {s : BaState} {sigma A : ℝ} (hs : BaAt s sigma A) (hA : 0 < A) :
    (uniform01.prod (uniform01.prod uniform01)) {d : ℝ × ℝ × ℝ | s.keeps2d (BaState.cube d.1) (BaState.cube d.2.1) d.2.2} ≠ 0 ∧
    IsLawOf (fun g : ℝ × ℝ => (PriorG.ba sigma A).lnprob g.1 g.2)
      ((cond (uniform01.prod (uniform01.prod uniform01))
        {d : ℝ × ℝ × ℝ | s.keeps2d (BaState.cube d.1) (BaState.cube d.2.1) d.2.2}).map
        fun d => (BaState.cube d.1, BaState.cube d.2.1)) := by
  have hc : Measurable BaState.cube := by unfold BaState.cube; fun_prop
  have hX : Measurable fun u : ℝ × ℝ => (BaState.cube u.1, BaState.cube u.2) :=
    (hc.comp measurable_fst).prodMk (hc.comp measurable_snd)
  have hS : MeasurableSet {d : ℝ × ℝ × ℝ | s.keeps2d (BaState.cube d.1) (BaState.cube d.2.1) d.2.2} := by
    have : {d : ℝ × ℝ × ℝ | s.keeps2d (BaState.cube d.1) (BaState.cube d.2.1) d.2.2} =
        {d | d.2.2 < baDensity2d sigma 1 (BaState.cube d.1) (BaState.cube d.2.1)} := by
      ext d; exact ba_keeps2d hs hA _ _ _
    rw [this]
    exact measurableSet_lt (measurable_snd.comp measurable_snd) ((baDensity2d_measurable sigma 1).comp
      (hX.comp (measurable_fst.prodMk (measurable_fst.comp measurable_snd))))
  have hassoc : uniform01.prod (uniform01.prod uniform01) =
      ((uniform01.prod uniform01).prod uniform01).map (MeasurableEquiv.prodAssoc (α := ℝ) (β := ℝ) (γ := ℝ)) :=
    Measure.prodAssoc_prod.symm
  have hset : (MeasurableEquiv.prodAssoc (α := ℝ) (β := ℝ) (γ := ℝ)) ⁻¹'
      {d : ℝ × ℝ × ℝ | s.keeps2d (BaState.cube d.1) (BaState.cube d.2.1) d.2.2} =
      {p : (ℝ × ℝ) × ℝ | p.2 < baDensity2d sigma 1 (BaState.cube p.1.1) (BaState.cube p.1.2)} := by
    ext p; exact ba_keeps2d hs hA _ _ _
  have hpos : ((uniform01.prod uniform01).prod uniform01)
      {p : (ℝ × ℝ) × ℝ | p.2 < baDensity2d sigma 1 (BaState.cube p.1.1) (BaState.cube p.1.2)} ≠ 0 := by
    refine height_pos (uniform01.prod uniform01) (fun u => (BaState.cube u.1, BaState.cube u.2)) hX
      (fun g => baDensity2d sigma 1 g.1 g.2) (baDensity2d_measurable sigma 1) (fun g => baDensity2d_le sigma g.1 g.2)
      (Set.Ioo 0 (1 / 2) ×ˢ Set.Ioo 0 (1 / 2)) ?_ ?_
    · rw [square_law, withDensity_apply _ (measurableSet_Ioo.prod measurableSet_Ioo),
        setLIntegral_congr_fun (g := fun _ => ENNReal.ofReal (1 / 4)) (measurableSet_Ioo.prod measurableSet_Ioo)]
      · rw [setLIntegral_const, Measure.volume_eq_prod, Measure.prod_prod, Real.volume_Ioo]
        refine mul_ne_zero ?_ (mul_ne_zero ?_ ?_) <;> rw [Ne, ENNReal.ofReal_eq_zero, not_le] <;> norm_num
      · rintro x ⟨h1, h2⟩
        have hin : x ∈ Set.Ico (-1 : ℝ) 1 ×ˢ Set.Ico (-1 : ℝ) 1 := by
          constructor <;> constructor <;> [linarith [h1.1]; linarith [h1.2]; linarith [h2.1]; linarith [h2.2]]
        simp only [Set.indicator_of_mem hin, Pi.one_apply, mul_one]
    · rintro x ⟨h1, h2⟩
      have hlt : x.1 ^ 2 + x.2 ^ 2 < 1 := by nlinarith [h1.1, h1.2, h2.1, h2.2]
      unfold baDensity2d
      rw [if_pos hlt]
      have : 0 < 1 - (x.1 ^ 2 + x.2 ^ 2) := by linarith
      positivity
  constructor
  · rw [hassoc, Measure.map_apply (MeasurableEquiv.measurable _) hS, hset]
    exact hpos
  · have hlaw := law_height (uniform01.prod uniform01) (fun u => (BaState.cube u.1, BaState.cube u.2)) hX _
      (measurableSet_Ico.prod measurableSet_Ico) (ENNReal.ofReal (1 / 4)) ENNReal.ofReal_ne_top square_law
      (fun g => baDensity2d sigma 1 g.1 g.2) (baDensity2d_measurable sigma 1) (fun g => baDensity2d_le sigma g.1 g.2)
      (fun g : ℝ × ℝ => (PriorG.ba sigma A).lnprob g.1 g.2) 1 ENNReal.one_ne_top
      (fun g _ => by rw [ba_density2d, one_mul]) hpos
    have hmap : (cond (uniform01.prod (uniform01.prod uniform01))
        {d : ℝ × ℝ × ℝ | s.keeps2d (BaState.cube d.1) (BaState.cube d.2.1) d.2.2}).map
        (fun d => (BaState.cube d.1, BaState.cube d.2.1)) =
        (cond ((uniform01.prod uniform01).prod uniform01)
          {p : (ℝ × ℝ) × ℝ | p.2 < baDensity2d sigma 1 (BaState.cube p.1.1) (BaState.cube p.1.2)}).map
        fun p => (BaState.cube p.1.1, BaState.cube p.1.2) := by
      rw [hassoc, ← map_cond _ _ (MeasurableEquiv.measurable _) _ hS, hset, Measure.map_map (g := fun d : ℝ × ℝ × ℝ => (BaState.cube d.1, BaState.cube d.2.1))
        (hX.comp (measurable_fst.prodMk (measurable_fst.comp measurable_snd))) (MeasurableEquiv.measurable _)]
      rfl
    rw [hmap]
    refine isLawOf_congr (fun g => ?_) hlaw
    rw [cutTo_density]
    by_cases h : g ∈ Set.Ico (-1 : ℝ) 1 ×ˢ Set.Ico (-1 : ℝ) 1
    · rw [Set.indicator_of_mem h]
    · rw [Set.indicator_of_notMem h, ba_density2d]
      have : ¬ g.1 ^ 2 + g.2 ^ 2 < 1 := by
        intro hlt
        refine h ⟨⟨?_, ?_⟩, ⟨?_, ?_⟩⟩ <;> nlinarith [sq_nonneg g.1, sq_nonneg g.2]
      unfold baDensity2d
      rw [if_neg this, ENNReal.ofReal_zero]

end

end Ngmix.Props
