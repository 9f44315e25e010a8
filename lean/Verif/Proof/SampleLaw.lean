import Verif.Spec.SampleLaw
import Verif.Props.Samplers
import Mathlib.MeasureTheory.Measure.Prod
import Mathlib.Tactic.FieldSimp

/-! # Independent trials and the values kept of them -/

namespace Ngmix.Props

open Ngmix Ngmix.Spec MeasureTheory ProbabilityTheory

noncomputable section

variable {α β : Type}

/-- The values kept of the first trials are exactly `n`. -/
def KeptN (accept : α → Bool) (ω : ℕ → α) (n : ℕ) (l : List α) : Prop :=
  l.length = n ∧ ∃ N, l = (firsts ω N).filter accept

theorem firsts_add (ω : ℕ → α) (a b : ℕ) : firsts ω (a + b) = firsts ω a ++ (List.range b).map fun i => ω (a + i) := by
  unfold firsts
  rw [List.range_add, List.map_append, List.map_map]; rfl

theorem firsts_filter_mono (accept : α → Bool) (ω : ℕ → α) {a b : ℕ} (h : a ≤ b) :
    ((firsts ω a).filter accept) <+: ((firsts ω b).filter accept) := by
  obtain ⟨c, rfl⟩ := Nat.exists_eq_add_of_le h
  rw [firsts_add, List.filter_append]
  exact List.prefix_append _ _

theorem keptN_unique {accept : α → Bool} {ω : ℕ → α} {n : ℕ} {l l' : List α} (h : KeptN accept ω n l)
    (h' : KeptN accept ω n l') : l = l' := by
  obtain ⟨h1, N, h2⟩ := h
  obtain ⟨h1', N', h2'⟩ := h'
  rcases le_total N N' with hn | hn
  · have := firsts_filter_mono accept ω hn
    rw [← h2, ← h2'] at this
    exact this.eq_of_length (by rw [h1, h1'])
  · have := firsts_filter_mono accept ω hn
    rw [← h2, ← h2'] at this
    exact (this.eq_of_length (by rw [h1, h1'])).symm

theorem batches_length (accept : α → Bool) (n : ℕ) (ω : ℕ → α) (k m : ℕ) : (batches accept n ω k m).length = m := by
  simp [batches]

theorem drawn_batches (accept : α → Bool) (n : ℕ) (ω : ℕ → α) (sizes : ℕ → ℕ) (m : ℕ)
    (h : ∀ j < m, sizes j + ((drawn (batches accept n ω) sizes j).filter accept).length = n) :
    ∀ j ≤ m, drawn (batches accept n ω) sizes j = firsts ω (batchStart accept n ω j) := by
  intro j
  induction j with
  | zero => intro _; simp [drawn, firsts, batchStart]
  | succ j ih =>
    intro hj
    have e := ih (by omega)
    have hs := h j (by omega)
    rw [drawn_succ, e, batchStart, firsts_add]
    rw [e] at hs
    have : sizes j = n - ((firsts ω (batchStart accept n ω j)).filter accept).length := by omega
    rw [this]; rfl

/-- The loop on consecutive parts of a sequence of trials: it ends with the first `n` values kept, if there are as many. -/
theorem rejLoop_stream (accept : α → Bool) (zero : α) (n : ℕ) (ω : ℕ → α) (l : List α) :
    (∃ fuel, rejLoop accept n (batches accept n ω) fuel 0 (rejInit zero n) = some l) ↔ KeptN accept ω n l := by
  have fwd : ∀ l, (∃ fuel, rejLoop accept n (batches accept n ω) fuel 0 (rejInit zero n) = some l) → KeptN accept ω n l := by
    rintro l ⟨fuel, hl⟩
    obtain ⟨h1, -, m, sizes, -, h2, h3⟩ := C45_rejection accept zero n _ (batches_length accept n ω) fuel l hl
    refine ⟨h1, batchStart accept n ω m, ?_⟩
    rw [h2, drawn_batches accept n ω sizes m (fun j hj => (h3 j hj).2) m le_rfl]
  refine ⟨fwd l, ?_⟩
  rintro ⟨h1, N, h2⟩
  rcases hr : rejLoop accept n (batches accept n ω) N 0 (rejInit zero n) with _ | l'
  · exfalso
    obtain ⟨m, sizes, hm, -, hsz, hres⟩ := rejLoop_spec accept zero n _ (batches_length accept n ω) N 0 (rejInit zero n)
      (fun _ => 0) (rejInv_init accept zero n _ _) (by simp)
    rcases hres with ⟨h3, -⟩ | ⟨-, h3, h4⟩
    · rw [hr] at h3; exact absurd h3 (by simp)
    · obtain rfl : m = N := by omega
      have hd := drawn_batches accept n ω sizes m (fun j hj => (hsz j hj).1)
      have hge : ∀ j ≤ m, j ≤ batchStart accept n ω j := by
        intro j
        induction j with
        | zero => simp
        | succ j ih =>
          intro hj
          have a := ih (by omega)
          have b := hsz j (by omega)
          have c := b.2 (Nat.zero_le _)
          have d := b.1
          rw [hd j (by omega)] at d
          rw [batchStart]; omega
      have := (firsts_filter_mono accept ω (hge m le_rfl)).length_le
      rw [← h2, h1, ← hd m le_rfl] at this
      omega
  · have := keptN_unique (fwd l' ⟨N, hr⟩) ⟨h1, N, h2⟩
    exact ⟨N, by rw [hr, this]⟩

/-! ### Sequences with a first deviate -/

/-- A sequence with one more deviate before it. -/
def scons (x : α) (ω : ℕ → α) : ℕ → α
  | 0 => x
  | n + 1 => ω n

variable [MeasurableSpace α]

theorem measurable_scons : Measurable fun p : α × (ℕ → α) => scons p.1 p.2 := by
  rw [measurable_pi_iff]
  intro i
  cases i with
  | zero => exact measurable_fst
  | succ i => exact (measurable_pi_apply i).comp measurable_snd

theorem stream_scons (μ : Measure α) [IsProbabilityMeasure μ] :
    (μ.prod (stream μ)).map (fun p => scons p.1 p.2) = stream μ := by
  haveI : IsProbabilityMeasure (stream μ) := by unfold stream; infer_instance
  refine Measure.eq_infinitePi _ ?_
  intro s t ht
  obtain ⟨N, hN⟩ : ∃ N, s ⊆ Finset.range (N + 1) := by
    obtain ⟨N, hN⟩ := s.exists_nat_subset_range
    exact ⟨N, hN.trans (Finset.range_subset_range.2 (Nat.le_succ N))⟩
  classical
  let t' : ℕ → Set α := fun i => if i ∈ s then t i else Set.univ
  have ht' : ∀ i, MeasurableSet (t' i) := by
    intro i
    by_cases h : i ∈ s
    · simp only [t', if_pos h]; exact ht i
    · simp only [t', if_neg h]; exact MeasurableSet.univ
  have e1 : Set.pi (s : Set ℕ) t = {ω | ∀ i < N + 1, ω i ∈ t' i} := by
    ext ω
    simp only [Set.mem_pi, Finset.mem_coe, Set.mem_setOf_eq]
    constructor
    · intro h i _
      by_cases hi : i ∈ s
      · simp only [t', if_pos hi]; exact h i hi
      · simp only [t', if_neg hi]; trivial
    · intro h i hi
      have := h i (Finset.mem_range.1 (hN hi))
      simpa only [t', if_pos hi] using this
  have e2 : ∏ i ∈ s, μ (t i) = ∏ i ∈ Finset.range (N + 1), μ (t' i) := by
    rw [← Finset.prod_subset hN (f := fun i => μ (t' i))]
    · refine Finset.prod_congr rfl fun i hi => ?_
      simp only [t', if_pos hi]
    · intro i _ hi
      simp only [t', if_neg hi, measure_univ]
  have hm : MeasurableSet (Set.pi (s : Set ℕ) t) := MeasurableSet.pi s.countable_toSet fun i _ => ht i
  rw [Measure.map_apply measurable_scons hm, e1, e2, Finset.prod_range_succ']
  have e3 : (fun p : α × (ℕ → α) => scons p.1 p.2) ⁻¹' {ω | ∀ i < N + 1, ω i ∈ t' i} =
      t' 0 ×ˢ Set.pi (Finset.range N : Set ℕ) fun i => t' (i + 1) := by
    ext ⟨x, ω⟩
    simp only [Set.mem_preimage, Set.mem_setOf_eq, Set.mem_prod, Set.mem_pi, Finset.mem_coe, Finset.mem_range]
    constructor
    · intro h
      exact ⟨h 0 (by omega), fun i hi => h (i + 1) (by omega)⟩
    · rintro ⟨h0, h⟩ i hi
      cases i with
      | zero => exact h0
      | succ i => exact h i (by omega)
  rw [e3, Measure.prod_prod]
  unfold stream
  rw [Measure.infinitePi_pi _ fun i _ => ht' (i + 1), mul_comm]

/-! ### The kept values -/

/-- The values kept of the first trials lie in the sets, one by one. -/
def keptIn (accept : α → Bool) (As : List (Set α)) : Set (ℕ → α) :=
  {ω | ∃ N, List.Forall₂ (fun x A => x ∈ A) ((firsts ω N).filter accept) As}

theorem firsts_scons (x : α) (ω : ℕ → α) (N : ℕ) : firsts (scons x ω) (N + 1) = x :: firsts ω N := by
  unfold firsts
  rw [List.range_succ_eq_map, List.map_cons, List.map_map]; rfl

theorem firsts_shift (ω : ℕ → α) (N : ℕ) : firsts ω (N + 1) = ω 0 :: firsts (fun n => ω (n + 1)) N := by
  unfold firsts
  rw [List.range_succ_eq_map, List.map_cons, List.map_map]; rfl

theorem keptIn_nil (accept : α → Bool) : keptIn accept [] = (Set.univ : Set (ℕ → α)) := by
  ext ω
  simp only [keptIn, Set.mem_setOf_eq, Set.mem_univ, iff_true]
  exact ⟨0, by simp [firsts]⟩

theorem keptIn_scons (accept : α → Bool) (A : Set α) (As : List (Set α)) (x : α) (ω : ℕ → α) :
    scons x ω ∈ keptIn accept (A :: As) ↔
      (accept x = true ∧ x ∈ A ∧ ω ∈ keptIn accept As) ∨ (accept x = false ∧ ω ∈ keptIn accept (A :: As)) := by
  simp only [keptIn, Set.mem_setOf_eq]
  have key : ∀ N, List.Forall₂ (fun x A => x ∈ A) ((firsts (scons x ω) (N + 1)).filter accept) (A :: As) ↔
      (accept x = true ∧ x ∈ A ∧ List.Forall₂ (fun x A => x ∈ A) ((firsts ω N).filter accept) As) ∨
      (accept x = false ∧ List.Forall₂ (fun x A => x ∈ A) ((firsts ω N).filter accept) (A :: As)) := by
    intro N
    rw [firsts_scons]
    cases hx : accept x
    · rw [List.filter_cons_of_neg (by simp [hx])]; simp
    · rw [List.filter_cons_of_pos hx, List.forall₂_cons]; simp
  constructor
  · rintro ⟨N, h⟩
    cases N with
    | zero => simp [firsts] at h
    | succ N =>
      rcases (key N).1 h with ⟨a, b, c⟩ | ⟨a, b⟩
      · exact .inl ⟨a, b, N, c⟩
      · exact .inr ⟨a, N, b⟩
  · rintro (⟨a, b, N, c⟩ | ⟨a, N, b⟩)
    · exact ⟨N + 1, (key N).2 (.inl ⟨a, b, c⟩)⟩
    · exact ⟨N + 1, (key N).2 (.inr ⟨a, b⟩)⟩

theorem keptIn_measurable (accept : α → Bool) (ha : MeasurableSet {x | accept x = true}) (As : List (Set α))
    (hA : ∀ A ∈ As, MeasurableSet A) : MeasurableSet (keptIn accept As) := by
  have : keptIn accept As = ⋃ N, {ω | List.Forall₂ (fun x A => x ∈ A) ((firsts ω N).filter accept) As} := by
    ext ω; simp [keptIn]
  rw [this]
  refine MeasurableSet.iUnion fun N => ?_
  clear this
  induction N generalizing As with
  | zero => simp [firsts]
  | succ N ih =>
    have hs : Measurable fun ω : ℕ → α => fun n => ω (n + 1) := by
      rw [measurable_pi_iff]; intro i; exact measurable_pi_apply (i + 1)
    have h0 : Measurable fun ω : ℕ → α => ω 0 := measurable_pi_apply 0
    have e : {ω : ℕ → α | List.Forall₂ (fun x A => x ∈ A) ((firsts ω (N + 1)).filter accept) As} =
        ({ω | accept (ω 0) = true} ∩ {ω | List.Forall₂ (fun x A => x ∈ A) (ω 0 :: (firsts (fun n => ω (n + 1)) N).filter accept) As}) ∪
        ({ω | accept (ω 0) = true}ᶜ ∩ (fun ω : ℕ → α => fun n => ω (n + 1)) ⁻¹'
          {ω | List.Forall₂ (fun x A => x ∈ A) ((firsts ω N).filter accept) As}) := by
      ext ω
      simp only [Set.mem_setOf_eq, Set.mem_union, Set.mem_inter_iff, Set.mem_compl_iff, Set.mem_preimage, firsts_shift]
      cases hx : accept (ω 0)
      · rw [List.filter_cons_of_neg (by simp [hx])]; simp
      · rw [List.filter_cons_of_pos hx]; simp
    rw [e]
    refine ((h0 ha).inter ?_).union ((h0 ha).compl.inter (hs (ih As hA)))
    cases As with
    | nil => simp
    | cons A As =>
      have e2 : {ω : ℕ → α | List.Forall₂ (fun x A => x ∈ A) (ω 0 :: (firsts (fun n => ω (n + 1)) N).filter accept) (A :: As)} =
          (fun ω : ℕ → α => ω 0) ⁻¹' A ∩ (fun ω : ℕ → α => fun n => ω (n + 1)) ⁻¹'
            {ω | List.Forall₂ (fun x A => x ∈ A) ((firsts ω N).filter accept) As} := by
        ext ω; simp
      rw [e2]
      exact (h0 (hA A (by simp))).inter (hs (ih As fun B hB => hA B (by simp [hB])))

theorem keptIn_law (μ : Measure α) [IsProbabilityMeasure μ] (accept : α → Bool) (ha : MeasurableSet {x | accept x = true})
    (hp : μ {x | accept x = true} ≠ 0) (As : List (Set α)) (hA : ∀ A ∈ As, MeasurableSet A) :
    stream μ (keptIn accept As) = (As.map (cond μ {x | accept x = true})).prod := by
  haveI : IsProbabilityMeasure (stream μ) := by unfold stream; infer_instance
  induction As with
  | nil => rw [keptIn_nil]; simp
  | cons A As ih =>
    have hAm := hA A (by simp)
    have hm := keptIn_measurable accept ha (A :: As) hA
    have hr : stream μ (keptIn accept (A :: As)) = μ ({x | accept x = true} ∩ A) * stream μ (keptIn accept As) +
        μ {x | accept x = true}ᶜ * stream μ (keptIn accept (A :: As)) := by
      conv_lhs => rw [← stream_scons μ, Measure.map_apply measurable_scons hm, Measure.prod_apply (measurable_scons hm)]
      have : ∀ x, stream μ (Prod.mk x ⁻¹' ((fun p : α × (ℕ → α) => scons p.1 p.2) ⁻¹' keptIn accept (A :: As))) =
          ({x | accept x = true} ∩ A).indicator (fun _ => stream μ (keptIn accept As)) x +
          ({x | accept x = true}ᶜ).indicator (fun _ => stream μ (keptIn accept (A :: As))) x := by
        intro x
        have e : Prod.mk x ⁻¹' ((fun p : α × (ℕ → α) => scons p.1 p.2) ⁻¹' keptIn accept (A :: As)) =
            {ω | (accept x = true ∧ x ∈ A ∧ ω ∈ keptIn accept As) ∨ (accept x = false ∧ ω ∈ keptIn accept (A :: As))} := by
          ext ω
          simp only [Set.mem_preimage, Set.mem_setOf_eq]
          exact keptIn_scons accept A As x ω
        rw [e]
        cases hx : accept x
        · simp [hx, Set.indicator]
        · by_cases hxA : x ∈ A <;> simp [hx, hxA, Set.indicator]
      simp_rw [this]
      rw [lintegral_add_left (measurable_const.indicator (ha.inter hAm)), lintegral_indicator_const (ha.inter hAm),
        lintegral_indicator_const ha.compl, mul_comm, mul_comm (μ _)]
      ring
    have hF : stream μ (keptIn accept (A :: As)) ≠ ⊤ := measure_ne_top _ _
    have hsum : μ {x | accept x = true} + μ {x | accept x = true}ᶜ = 1 := by
      rw [measure_add_measure_compl ha, measure_univ]
    have hc : μ {x | accept x = true}ᶜ * stream μ (keptIn accept (A :: As)) ≠ ⊤ :=
      ENNReal.mul_ne_top (measure_ne_top _ _) hF
    have key : μ {x | accept x = true} * stream μ (keptIn accept (A :: As)) =
        μ ({x | accept x = true} ∩ A) * stream μ (keptIn accept As) := by
      refine (ENNReal.add_left_inj hc).1 ?_
      rw [← hr, ← add_mul, hsum, one_mul]
    rw [List.map_cons, List.prod_cons, ← ih fun B hB => hA B (by simp [hB]), cond_apply ha, mul_assoc, ← key, ← mul_assoc,
      ENNReal.inv_mul_cancel hp (measure_ne_top _ _), one_mul]

theorem keptN_forall (accept : α → Bool) (ω : ℕ → α) (n : ℕ) (As : List (Set α)) (h : As.length = n) :
    (∃ l, KeptN accept ω n l ∧ List.Forall₂ (fun x A => x ∈ A) l As) ↔ ω ∈ keptIn accept As := by
  constructor
  · rintro ⟨l, ⟨-, N, rfl⟩, hl⟩
    exact ⟨N, hl⟩
  · rintro ⟨N, hN⟩
    exact ⟨_, ⟨by rw [hN.length_eq, h], N, rfl⟩, hN⟩

/-- The values a rejection loop returns, computed from the trials by `f`: independent, with the law of `f` of a trial given
that it is kept. -/
theorem rejection_law [MeasurableSpace β] (μ : Measure α) [IsProbabilityMeasure μ] (accept : α → Bool)
    (ha : MeasurableSet {x | accept x = true}) (hp : μ {x | accept x = true} ≠ 0) (f : α → β) (hf : Measurable f) (zero : α)
    (n : ℕ) :
    IndepOfLaw (stream μ) (fun ω l => ∃ fuel l0, rejLoop accept n (batches accept n ω) fuel 0 (rejInit zero n) = some l0 ∧
      l = l0.map f) n ((cond μ {x | accept x = true}).map f) := by
  refine ⟨?_, ?_⟩
  · rintro ω l l' ⟨fuel, l0, h, rfl⟩ ⟨fuel', l0', h', rfl⟩
    rw [keptN_unique ((rejLoop_stream accept zero n ω l0).1 ⟨fuel, h⟩) ((rejLoop_stream accept zero n ω l0').1 ⟨fuel', h'⟩)]
  intro As hn hA
  have e : {ω : ℕ → α | ∃ l, (∃ fuel l0, rejLoop accept n (batches accept n ω) fuel 0 (rejInit zero n) = some l0 ∧
      l = l0.map f) ∧ List.Forall₂ (fun x A => x ∈ A) l As} = keptIn accept (As.map fun A => f ⁻¹' A) := by
    ext ω
    rw [← keptN_forall accept ω n _ (by simpa using hn)]
    simp only [Set.mem_setOf_eq, ← rejLoop_stream accept zero n ω]
    constructor
    · rintro ⟨l, ⟨fuel, l0, h1, rfl⟩, h2⟩
      refine ⟨l0, ⟨fuel, h1⟩, ?_⟩
      rw [List.forall₂_map_right_iff]
      rwa [List.forall₂_map_left_iff] at h2
    · rintro ⟨l0, ⟨fuel, h1⟩, h2⟩
      refine ⟨_, ⟨fuel, l0, h1, rfl⟩, ?_⟩
      rw [List.forall₂_map_right_iff] at h2
      rwa [List.forall₂_map_left_iff]
  have hAf : ∀ B ∈ As.map fun A => f ⁻¹' A, MeasurableSet B := by
    intro B hB
    obtain ⟨A, hAA, rfl⟩ := List.mem_map.1 hB
    exact hf (hA A hAA)
  rw [e, keptIn_law μ accept ha hp _ hAf]
  refine ⟨keptIn_measurable accept ha _ hAf, ?_⟩
  rw [List.map_map]
  congr 1
  refine List.map_congr_left fun A hAA => ?_
  rw [Measure.map_apply hf (hA A hAA)]; rfl

/-- Values each computed from its own deviate are independent. -/
theorem direct_law [MeasurableSpace β] (μ : Measure α) [IsProbabilityMeasure μ] (f : α → β) (hf : Measurable f) (n : ℕ) :
    IndepOfLaw (stream μ) (fun ω l => l = (firsts ω n).map f) n (μ.map f) := by
  refine ⟨fun ω l l' h h' => h.trans h'.symm, ?_⟩
  intro As hn hA
  have e : {ω : ℕ → α | ∃ l, l = (firsts ω n).map f ∧ List.Forall₂ (fun x A => x ∈ A) l As} =
      keptIn (fun _ => true) (As.map fun A => f ⁻¹' A) := by
    ext ω
    rw [← keptN_forall (fun _ => true) ω n _ (by simpa using hn)]
    simp only [Set.mem_setOf_eq, exists_eq_left]
    have hk : ∀ l, KeptN (fun _ => true) ω n l ↔ l = firsts ω n := by
      intro l
      have hf : (firsts ω n).filter (fun _ => true) = firsts ω n := List.filter_eq_self.2 fun _ _ => rfl
      have h0 : KeptN (fun _ => true) ω n (firsts ω n) := ⟨by simp [firsts], n, hf.symm⟩
      exact ⟨fun h => keptN_unique h h0, fun h => h ▸ h0⟩
    simp only [hk, exists_eq_left]
    rw [List.forall₂_map_left_iff, List.forall₂_map_right_iff]
    rfl
  have hu : {x : α | (fun _ : α => true) x = true} = Set.univ := by ext; simp
  have hAf : ∀ B ∈ As.map fun A => f ⁻¹' A, MeasurableSet B := by
    intro B hB
    obtain ⟨A, hAA, rfl⟩ := List.mem_map.1 hB
    exact hf (hA A hAA)
  have hm : MeasurableSet {x : α | (fun _ : α => true) x = true} := by rw [hu]; exact MeasurableSet.univ
  rw [e, keptIn_law μ (fun _ => true) hm (by rw [hu, measure_univ]; exact one_ne_zero) _ hAf]
  refine ⟨keptIn_measurable (fun _ => true) hm _ hAf, ?_⟩
  rw [hu, cond_univ, List.map_map]
  congr 1
  refine List.map_congr_left fun A hAA => ?_
  rw [Measure.map_apply hf (hA A hAA)]; rfl

end

end Ngmix.Props
