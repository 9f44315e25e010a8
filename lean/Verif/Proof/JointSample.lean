import Verif.Proof.SampleLaw
import Mathlib.MeasureTheory.Constructions.Pi
import Mathlib.MeasureTheory.Measure.WithDensity
import Mathlib.MeasureTheory.Measure.Lebesgue.Basic

/-! # Samples put together from those of independent sources -/

namespace Ngmix.Props

open Ngmix Ngmix.Spec MeasureTheory ProbabilityTheory

noncomputable section

variable {Ω α β : Type}

theorem forall₂_ofFn {n : ℕ} (x : Fin n → α) (s : Fin n → Set α) :
    List.Forall₂ (fun x A => x ∈ A) (List.ofFn x) (List.ofFn s) ↔ ∀ i, x i ∈ s i := by
  rw [List.forall₂_iff_get]
  simp only [List.length_ofFn, List.get_ofFn, true_and]
  constructor
  · intro h i; simpa using h i i.2 i.2
  · intro h i h1 h2; exact h _

/-- Independent values as a random vector. -/
theorem indep_vector [MeasurableSpace Ω] [MeasurableSpace β] [Nonempty β] {P : Measure Ω} [IsProbabilityMeasure P]
    {out : Ω → List β → Prop} {n : ℕ} {ν : Measure β} [IsProbabilityMeasure ν] (h : IndepOfLaw P out n ν) :
    ∃ (G : Set Ω) (X : Ω → Fin n → β), MeasurableSet G ∧ P Gᶜ = 0 ∧ Measurable X ∧
      (∀ ω l, l.length = n → (out ω l ↔ ω ∈ G ∧ l = List.ofFn (X ω))) ∧ P.map X = Measure.pi fun _ => ν := by
  classical
  obtain ⟨hu, hl⟩ := h
  let G : Set Ω := {ω | ∃ l, out ω l ∧ l.length = n}
  let x0 : Fin n → β := fun _ => Classical.arbitrary β
  let X : Ω → Fin n → β := fun ω => if hG : ∃ l, out ω l ∧ l.length = n then
    fun i => (Classical.choose hG).get (i.cast (Classical.choose_spec hG).2.symm) else x0
  have hX : ∀ ω ∈ G, out ω (List.ofFn (X ω)) := by
    intro ω hω
    have h1 : ∃ l, out ω l ∧ l.length = n := hω
    have : List.ofFn (X ω) = Classical.choose h1 := by
      simp only [X, dif_pos h1]
      apply List.ext_get
      · simp [(Classical.choose_spec h1).2]
      · intro k h2 h3
        simp
    rw [this]
    exact (Classical.choose_spec h1).1
  have hev : ∀ s : Fin n → Set β, {ω | ∃ l, out ω l ∧ List.Forall₂ (fun x A => x ∈ A) l (List.ofFn s)} =
      G ∩ X ⁻¹' Set.univ.pi s := by
    intro s
    ext ω
    simp only [Set.mem_ofPred_eq, Set.mem_inter_iff, Set.mem_preimage, Set.mem_univ_pi]
    constructor
    · rintro ⟨l, ho, hf⟩
      have hG : ω ∈ G := ⟨l, ho, by rw [hf.length_eq]; simp⟩
      refine ⟨hG, ?_⟩
      rw [hu ω _ _ ho (hX ω hG)] at hf
      exact (forall₂_ofFn _ _).1 hf
    · rintro ⟨hG, hs⟩
      exact ⟨_, hX ω hG, (forall₂_ofFn _ _).2 hs⟩
  have hbox : ∀ s : Fin n → Set β, (∀ i, MeasurableSet (s i)) → MeasurableSet (G ∩ X ⁻¹' Set.univ.pi s) ∧
      P (G ∩ X ⁻¹' Set.univ.pi s) = ∏ i, ν (s i) := by
    intro s hs
    have := hl (List.ofFn s) (by simp) (by
      intro A hA
      obtain ⟨i, rfl⟩ := (List.mem_ofFn' s A).1 hA
      exact hs i)
    rw [hev] at this
    refine ⟨this.1, this.2.trans ?_⟩
    rw [List.map_ofFn, List.prod_ofFn]; rfl
  have hG : MeasurableSet G ∧ P G = 1 := by
    have := hbox (fun _ => Set.univ) fun _ => MeasurableSet.univ
    have e : G ∩ X ⁻¹' Set.univ.pi (fun _ => Set.univ) = G := by ext; simp
    rw [e] at this
    exact ⟨this.1, by rw [this.2]; simp⟩
  have hXm : Measurable X := by
    rw [measurable_pi_iff]
    intro i A hA
    have h1 := (hbox (Function.update (fun _ => Set.univ) i A) (by
      intro j
      by_cases hj : j = i
      · subst hj; simpa using hA
      · simp [Function.update_of_ne hj])).1
    have e : G ∩ X ⁻¹' Set.univ.pi (Function.update (fun _ => Set.univ) i A) = G ∩ (fun ω => X ω i) ⁻¹' A := by
      ext ω
      simp only [Set.mem_inter_iff, Set.mem_preimage, Set.mem_univ_pi, and_congr_right_iff]
      intro _
      constructor
      · intro hh; simpa using hh i
      · intro hh j
        by_cases hj : j = i
        · subst hj; simpa using hh
        · simp [Function.update_of_ne hj]
    rw [e] at h1
    have hc : Gᶜ ∩ (fun ω => X ω i) ⁻¹' A = if Classical.arbitrary β ∈ A then Gᶜ else ∅ := by
      ext ω
      by_cases hω : ω ∈ G
      · split_ifs <;> simp [hω]
      · have hxx : X ω = x0 := by
          have h2 : ¬ ∃ l, out ω l ∧ l.length = n := hω
          simp only [X, dif_neg h2]
        split_ifs with h3
        · simp [hω, hxx, x0, h3]
        · simp [hω, hxx, x0, h3]
    have : (fun ω => X ω i) ⁻¹' A = (G ∩ (fun ω => X ω i) ⁻¹' A) ∪ (Gᶜ ∩ (fun ω => X ω i) ⁻¹' A) := by
      rw [← Set.union_inter_distrib_right]; simp
    rw [this, hc]
    refine h1.union ?_
    split_ifs
    · exact hG.1.compl
    · exact MeasurableSet.empty
  have hGc : P Gᶜ = 0 := by rw [prob_compl_eq_zero_iff hG.1]; exact hG.2
  refine ⟨G, X, hG.1, hGc, hXm, ?_, ?_⟩
  · intro ω l hln
    constructor
    · intro ho
      have : ω ∈ G := ⟨l, ho, hln⟩
      exact ⟨this, hu ω _ _ ho (hX ω this)⟩
    · rintro ⟨h1, rfl⟩; exact hX ω h1
  · refine (Measure.pi_eq fun s hs => ?_).symm
    rw [Measure.map_apply hXm (MeasurableSet.univ_pi hs), ← (hbox s hs).2]
    refine measure_congr ?_
    have := ae_eq_set_inter (ae_eq_univ.2 hGc) (Filter.EventuallyEq.refl (ae P) (X ⁻¹' Set.univ.pi s))
    rw [Set.univ_inter] at this
    exact this.symm

/-- The converse: a random vector of independent values. -/
theorem indep_of_vector [MeasurableSpace Ω] [MeasurableSpace β] {P : Measure Ω} {out : Ω → List β → Prop} {n : ℕ} {ν : Measure β}
    [IsProbabilityMeasure ν] (G : Set Ω) (X : Ω → Fin n → β) (hG : MeasurableSet G) (hGc : P Gᶜ = 0) (hX : Measurable X)
    (ho : ∀ ω l, out ω l ↔ ω ∈ G ∧ l = List.ofFn (X ω)) (hl : P.map X = Measure.pi fun _ => ν) : IndepOfLaw P out n ν := by
  refine ⟨fun ω l l' h h' => ((ho ω l).1 h).2.trans ((ho ω l').1 h').2.symm, fun As hn hA => ?_⟩
  subst hn
  have hev : {ω | ∃ l, out ω l ∧ List.Forall₂ (fun x A => x ∈ A) l As} = G ∩ X ⁻¹' Set.univ.pi As.get := by
    ext ω
    have e : List.ofFn As.get = As := List.ofFn_get As
    simp only [Set.mem_ofPred_eq, ho, Set.mem_inter_iff, Set.mem_preimage, Set.mem_univ_pi]
    constructor
    · rintro ⟨l, ⟨h1, rfl⟩, h2⟩
      exact ⟨h1, (forall₂_ofFn _ _).1 (e.symm ▸ h2 : List.Forall₂ (fun x A => x ∈ A) (List.ofFn (X ω)) (List.ofFn As.get))⟩
    · rintro ⟨h1, h2⟩
      refine ⟨_, ⟨h1, rfl⟩, ?_⟩
      have := (forall₂_ofFn _ _).2 h2
      rwa [e] at this
  have hAm : ∀ i, MeasurableSet (As.get i) := fun i => hA _ (List.get_mem _ _)
  rw [hev]
  refine ⟨hG.inter (hX (MeasurableSet.univ_pi hAm)), ?_⟩
  have : P (G ∩ X ⁻¹' Set.univ.pi As.get) = P (X ⁻¹' Set.univ.pi As.get) := by
    refine measure_congr ?_
    have := ae_eq_set_inter (ae_eq_univ.2 hGc) (Filter.EventuallyEq.refl (ae P) (X ⁻¹' Set.univ.pi As.get))
    rwa [Set.univ_inter] at this
  rw [this, ← Measure.map_apply hX (MeasurableSet.univ_pi hAm), hl, Measure.pi_pi, ← List.prod_ofFn]
  congr 1
  conv_rhs => rw [← List.ofFn_get As, List.map_ofFn]
  rfl

theorem pi_swap {β : Type} [MeasurableSpace β] {m n : ℕ} (ν : Fin m → Measure β) [∀ i, IsProbabilityMeasure (ν i)] :
    (Measure.pi fun i => Measure.pi fun _ : Fin n => ν i).map (fun x j i => x i j) = Measure.pi fun _ : Fin n => Measure.pi ν := by
  have h1 : (Measure.pi fun i => Measure.pi fun _ : Fin n => ν i) =
      (Measure.pi fun p : Fin m × Fin n => ν p.1).map (MeasurableEquiv.curry (Fin m) (Fin n) β) := by
    have := Measure.infinitePi_map_curry (fun (i : Fin m) (_ : Fin n) => ν i)
    simp only [Measure.infinitePi_eq_pi] at this
    exact this.symm
  have h2 : (Measure.pi fun _ : Fin n => Measure.pi ν) =
      (Measure.pi fun p : Fin n × Fin m => ν p.2).map (MeasurableEquiv.curry (Fin n) (Fin m) β) := by
    have := Measure.infinitePi_map_curry (fun (_ : Fin n) (i : Fin m) => ν i)
    simp only [Measure.infinitePi_eq_pi] at this
    exact this.symm
  have hsw : Measurable fun (x : Fin m × Fin n → β) (p : Fin n × Fin m) => x p.swap := by
    rw [measurable_pi_iff]; intro p; exact measurable_pi_apply _
  have h3 : (Measure.pi fun p : Fin m × Fin n => ν p.1).map (fun x (p : Fin n × Fin m) => x p.swap) =
      Measure.pi fun p : Fin n × Fin m => ν p.2 := by
    refine (Measure.pi_eq fun s hs => ?_).symm
    rw [Measure.map_apply hsw (MeasurableSet.univ_pi hs)]
    have : (fun (x : Fin m × Fin n → β) (p : Fin n × Fin m) => x p.swap) ⁻¹' Set.univ.pi s = Set.univ.pi fun p => s p.swap := by
      ext x
      simp only [Set.mem_preimage, Set.mem_univ_pi]
      exact ⟨fun h p => by simpa using h p.swap, fun h p => by simpa using h p.swap⟩
    rw [this, Measure.pi_pi]
    exact Fintype.prod_equiv (Equiv.prodComm _ _) _ _ fun p => rfl
  have ht : Measurable fun (x : Fin m → Fin n → β) (j : Fin n) (i : Fin m) => x i j := by
    rw [measurable_pi_iff]; intro j; rw [measurable_pi_iff]; intro i
    exact (measurable_pi_apply j).comp (measurable_pi_apply i)
  rw [h1, h2, ← h3, Measure.map_map ht (MeasurableEquiv.measurable _), Measure.map_map (MeasurableEquiv.measurable _) hsw]
  rfl

theorem pair_rows {α β : Type} [MeasurableSpace α] [MeasurableSpace β] {n : ℕ} (μ : Measure α) (ν : Measure β) [IsProbabilityMeasure μ]
    [IsProbabilityMeasure ν] :
    ((Measure.pi fun _ : Fin n => μ).prod (Measure.pi fun _ : Fin n => ν)).map (fun x j => (x.1 j, x.2 j)) =
      Measure.pi fun _ : Fin n => μ.prod ν := by
  have := (measurePreserving_arrowProdEquivProdArrow α β (Fin n) (fun _ => μ) (fun _ => ν)).symm.map_eq
  rw [← this]
  rfl

theorem rows_law {Ωc Ωg α β γ δ : Type} {m n : ℕ} {Ω : Fin m → Type} [MeasurableSpace Ωc] [MeasurableSpace Ωg] [∀ i, MeasurableSpace (Ω i)]
    [MeasurableSpace α] [MeasurableSpace β] [MeasurableSpace γ] [MeasurableSpace δ]
    {Pc : Measure Ωc} {Pg : Measure Ωg} {P : ∀ i, Measure (Ω i)} [IsProbabilityMeasure Pc] [IsProbabilityMeasure Pg]
    [∀ i, IsProbabilityMeasure (P i)] {νc : Measure α} {νg : Measure β} {ν : Fin m → Measure γ}
    [IsProbabilityMeasure νc] [IsProbabilityMeasure νg] [∀ i, IsProbabilityMeasure (ν i)]
    {Xc : Ωc → Fin n → α} {Xg : Ωg → Fin n → β} {X : ∀ i, Ω i → Fin n → γ} (hXc : Measurable Xc) (hXg : Measurable Xg)
    (hX : ∀ i, Measurable (X i)) (hc : Pc.map Xc = Measure.pi fun _ => νc) (hg : Pg.map Xg = Measure.pi fun _ => νg)
    (h : ∀ i, (P i).map (X i) = Measure.pi fun _ => ν i) (comb : α × β × (Fin m → γ) → δ) (hcomb : Measurable comb) :
    Measurable (fun ω : Ωc × Ωg × (∀ i, Ω i) => fun j : Fin n => comb (Xc ω.1 j, Xg ω.2.1 j, fun i => X i (ω.2.2 i) j)) ∧
    (Pc.prod (Pg.prod (Measure.pi P))).map (fun ω j => comb (Xc ω.1 j, Xg ω.2.1 j, fun i => X i (ω.2.2 i) j)) =
      Measure.pi fun _ => (νc.prod (νg.prod (Measure.pi ν))).map comb := by
  let V : (∀ i, Ω i) → Fin n → Fin m → γ := fun ω j i => X i (ω i) j
  have hV : Measurable V := by
    rw [measurable_pi_iff]; intro j; rw [measurable_pi_iff]; intro i
    exact (measurable_pi_apply j).comp ((hX i).comp (measurable_pi_apply i))
  have hVl : (Measure.pi P).map V = Measure.pi fun _ => Measure.pi ν := by
    have ht : Measurable fun (x : Fin m → Fin n → γ) (j : Fin n) (i : Fin m) => x i j := by
      rw [measurable_pi_iff]; intro j; rw [measurable_pi_iff]; intro i
      exact (measurable_pi_apply j).comp (measurable_pi_apply i)
    have hY : Measurable fun (ω : ∀ i, Ω i) (i : Fin m) => X i (ω i) := by
      rw [measurable_pi_iff]; intro i; exact (hX i).comp (measurable_pi_apply i)
    have hp : ∀ i, IsProbabilityMeasure ((P i).map (X i)) := fun i => Measure.isProbabilityMeasure_map (hX i).aemeasurable
    have e := Measure.pi_map_pi (μ := P) (f := X) fun i => (hX i).aemeasurable
    simp only [h] at e
    rw [← pi_swap, ← e, Measure.map_map ht hY]
    rfl
  let Q : (Fin n → α) × (Fin n → β) × (Fin n → Fin m → γ) → Fin n → α × β × (Fin m → γ) := fun x j => (x.1 j, x.2.1 j, x.2.2 j)
  have hQ1 : Measurable fun (x : (Fin n → β) × (Fin n → Fin m → γ)) (j : Fin n) => (x.1 j, x.2 j) := by
    rw [measurable_pi_iff]; intro j
    exact ((measurable_pi_apply j).comp measurable_fst).prodMk ((measurable_pi_apply j).comp measurable_snd)
  have hQ2 : Measurable fun (x : (Fin n → α) × (Fin n → β × (Fin m → γ))) (j : Fin n) => (x.1 j, x.2 j) := by
    rw [measurable_pi_iff]; intro j
    exact ((measurable_pi_apply j).comp measurable_fst).prodMk ((measurable_pi_apply j).comp measurable_snd)
  have hT : Measurable fun ω : Ωc × Ωg × (∀ i, Ω i) => (Xc ω.1, Xg ω.2.1, V ω.2.2) :=
    (hXc.comp measurable_fst).prodMk ((hXg.comp (measurable_fst.comp measurable_snd)).prodMk (hV.comp (measurable_snd.comp measurable_snd)))
  have hC : Measurable fun (x : Fin n → α × β × (Fin m → γ)) j => comb (x j) := by
    rw [measurable_pi_iff]; intro j; exact hcomb.comp (measurable_pi_apply j)
  have hQ : Measurable Q := hQ2.comp (measurable_fst.prodMk (hQ1.comp measurable_snd))
  have eT : (Pc.prod (Pg.prod (Measure.pi P))).map (fun ω => (Xc ω.1, Xg ω.2.1, V ω.2.2)) =
      (Measure.pi fun _ => νc).prod ((Measure.pi fun _ => νg).prod (Measure.pi fun _ => Measure.pi ν)) := by
    rw [← hc, ← hg, ← hVl, Measure.map_prod_map _ _ hXg hV, Measure.map_prod_map _ _ hXc (hXg.prodMap hV)]
    rfl
  have eQ : ((Measure.pi fun _ : Fin n => νc).prod ((Measure.pi fun _ : Fin n => νg).prod (Measure.pi fun _ => Measure.pi ν))).map Q =
      Measure.pi fun _ => νc.prod (νg.prod (Measure.pi ν)) := by
    rw [← pair_rows νc, ← pair_rows νg, ← Measure.map_id (μ := Measure.pi fun _ : Fin n => νc),
      Measure.map_prod_map _ _ measurable_id hQ1, Measure.map_map hQ2 (measurable_id.prodMap hQ1), Measure.map_id]
    rfl
  refine ⟨hC.comp (hQ.comp hT), ?_⟩
  have : (fun (ω : Ωc × Ωg × (∀ i, Ω i)) (j : Fin n) => comb (Xc ω.1 j, Xg ω.2.1 j, fun i => X i (ω.2.2 i) j)) =
      (fun (x : Fin n → α × β × (Fin m → γ)) j => comb (x j)) ∘ Q ∘ fun ω => (Xc ω.1, Xg ω.2.1, V ω.2.2) := rfl
  have hp : IsProbabilityMeasure ((νc.prod (νg.prod (Measure.pi ν))).map comb) := Measure.isProbabilityMeasure_map hcomb.aemeasurable
  rw [this, ← Measure.map_map hC (hQ.comp hT), ← Measure.map_map hQ hT, eT, eQ]
  exact Measure.pi_map_pi (f := fun _ => comb) fun _ => hcomb.aemeasurable

theorem lintegral_pi_prod {m : ℕ} (μ : Fin m → Measure ℝ) [∀ i, SigmaFinite (μ i)] (f : Fin m → ℝ → ENNReal)
    (hf : ∀ i, Measurable (f i)) : ∫⁻ x, ∏ i, f i (x i) ∂(Measure.pi μ) = ∏ i, ∫⁻ x, f i x ∂(μ i) := by
  induction m with
  | zero => simp
  | succ m ih =>
    have e := (measurePreserving_piFinSuccAbove μ 0).symm
    have hm : Measurable fun x : Fin (m + 1) → ℝ => ∏ i, f i (x i) :=
      Finset.measurable_prod _ fun i _ => (hf i).comp (measurable_pi_apply i)
    rw [← e.map_eq, lintegral_map hm e.measurable]
    have h1 : ∀ p : ℝ × (Fin m → ℝ), ∏ i, f i (((MeasurableEquiv.piFinSuccAbove (fun _ => ℝ) 0).symm p) i) =
        f 0 p.1 * ∏ i : Fin m, f i.succ (p.2 i) := by
      intro p
      rw [Fin.prod_univ_succ]
      rfl
    have h2 : ∀ p : ℝ × (Fin m → ℝ), (∏ i, f i (((MeasurableEquiv.piFinSuccAbove (fun _ : Fin (m + 1) => ℝ) 0).symm p) i)) =
        (fun a => f 0 a) p.1 * (fun v : Fin m → ℝ => ∏ i : Fin m, f i.succ (v i)) p.2 := h1
    have h3 : Measurable fun v : Fin m → ℝ => ∏ i : Fin m, f i.succ (v i) :=
      Finset.measurable_prod _ fun i _ => (hf i.succ).comp (measurable_pi_apply i)
    rw [lintegral_congr h2, lintegral_prod_mul (hf 0).aemeasurable h3.aemeasurable, Fin.prod_univ_succ]
    congr 1
    exact ih (fun i => μ i.succ) (fun i => f i.succ) fun i => hf i.succ

theorem pi_density {m : ℕ} (f : Fin m → ℝ → ENNReal) (hf : ∀ i, Measurable (f i))
    [∀ i, SigmaFinite ((volume : Measure ℝ).withDensity (f i))] :
    Measure.pi (fun i => (volume : Measure ℝ).withDensity (f i)) =
      (volume : Measure (Fin m → ℝ)).withDensity fun x => ∏ i, f i (x i) := by
  refine Measure.pi_eq fun s hs => ?_
  rw [withDensity_apply _ (MeasurableSet.univ_pi hs), ← lintegral_indicator (MeasurableSet.univ_pi hs)]
  have h1 : ∀ x : Fin m → ℝ, (Set.univ.pi s).indicator (fun x => ∏ i, f i (x i)) x = ∏ i, (s i).indicator (f i) (x i) := by
    intro x
    by_cases hx : x ∈ Set.univ.pi s
    · rw [Set.indicator_of_mem hx]
      exact Finset.prod_congr rfl fun i _ => by rw [Set.indicator_of_mem (hx i (Set.mem_univ i))]
    · rw [Set.indicator_of_notMem hx]
      simp only [Set.mem_univ_pi, not_forall] at hx
      obtain ⟨i, hi⟩ := hx
      exact (Finset.prod_eq_zero (Finset.mem_univ i) (Set.indicator_of_notMem hi _)).symm
  simp only [h1]
  have := lintegral_pi_prod (fun _ : Fin m => (volume : Measure ℝ)) (fun i => (s i).indicator (f i)) fun i => (hf i).indicator (hs i)
  rw [← volume_pi] at this
  rw [this]
  exact Finset.prod_congr rfl fun i _ => by rw [lintegral_indicator (hs i), withDensity_apply _ (hs i)]

/-- The parameters in the order of the joint priors. -/
def joinPars {m : ℕ} (x : (ℝ × ℝ) × (ℝ × ℝ) × (Fin m → ℝ)) : Fin (4 + m) → ℝ :=
  Fin.append ![x.1.1, x.1.2, x.2.1.1, x.2.1.2] x.2.2

theorem joinPars_measurable {m : ℕ} : Measurable (joinPars (m := m)) := by
  rw [measurable_pi_iff]
  intro k
  refine Fin.addCases (fun i => ?_) (fun i => ?_) k
  · simp only [joinPars, Fin.append_left]
    fin_cases i <;> simp <;> fun_prop
  · simp only [joinPars, Fin.append_right]
    fun_prop

theorem joinPars_volume {m : ℕ} :
    ((volume : Measure (ℝ × ℝ)).prod ((volume : Measure (ℝ × ℝ)).prod (volume : Measure (Fin m → ℝ)))).map joinPars = volume := by
  rw [volume_pi (α := fun _ : Fin (4 + m) => ℝ)]
  refine (Measure.pi_eq fun s hs => ?_).symm
  rw [Measure.map_apply joinPars_measurable (MeasurableSet.univ_pi hs)]
  have : joinPars ⁻¹' Set.univ.pi s = ((s (Fin.castAdd m 0) ×ˢ s (Fin.castAdd m 1)) ×ˢ ((s (Fin.castAdd m 2) ×ˢ s (Fin.castAdd m 3)) ×ˢ
      Set.univ.pi fun i : Fin m => s (Fin.natAdd 4 i)) : Set ((ℝ × ℝ) × (ℝ × ℝ) × (Fin m → ℝ))) := by
    ext x
    simp only [Set.mem_preimage, Set.mem_univ_pi, Set.mem_prod]
    constructor
    · intro h
      refine ⟨⟨?_, ?_⟩, ⟨?_, ?_⟩, ?_⟩
      · have := h (Fin.castAdd m 0); simp only [joinPars, Fin.append_left] at this; exact this
      · have := h (Fin.castAdd m 1); simp only [joinPars, Fin.append_left] at this; exact this
      · have := h (Fin.castAdd m 2); simp only [joinPars, Fin.append_left] at this; exact this
      · have := h (Fin.castAdd m 3); simp only [joinPars, Fin.append_left] at this; exact this
      · intro i; simpa only [joinPars, Fin.append_right] using h (Fin.natAdd 4 i)
    · rintro ⟨⟨h0, h1⟩, ⟨h2, h3⟩, h4⟩ k
      refine Fin.addCases (fun i => ?_) (fun i => ?_) k
      · simp only [joinPars, Fin.append_left]
        fin_cases i
        · exact h0
        · exact h1
        · exact h2
        · exact h3
      · simp only [joinPars, Fin.append_right]; exact h4 i
  rw [this, Measure.prod_prod, Measure.prod_prod, volume_pi, Measure.pi_pi, Measure.volume_eq_prod, Measure.prod_prod, Measure.prod_prod,
    Fin.prod_univ_add, Fin.prod_univ_four]
  ring

theorem map_density {α β : Type} [MeasurableSpace α] [MeasurableSpace β] (μ : Measure α) (e : α → β) (he : Measurable e)
    (f : β → ENNReal) (hf : Measurable f) : (μ.withDensity fun x => f (e x)).map e = (μ.map e).withDensity f := by
  ext A hA
  rw [Measure.map_apply he hA, withDensity_apply _ (he hA), withDensity_apply _ hA, setLIntegral_map hA hf he]

theorem join_density {m : ℕ} (fc fg : ℝ × ℝ → ENNReal) (f : Fin m → ℝ → ENNReal) (hc : Measurable fc) (hg : Measurable fg)
    (hf : ∀ i, Measurable (f i)) [SFinite ((volume : Measure (ℝ × ℝ)).withDensity fc)] [SFinite ((volume : Measure (ℝ × ℝ)).withDensity fg)]
    [∀ i, SigmaFinite ((volume : Measure ℝ).withDensity (f i))] :
    ((volume.withDensity fc).prod ((volume.withDensity fg).prod (Measure.pi fun i => volume.withDensity (f i)))).map joinPars =
      volume.withDensity fun x : Fin (4 + m) → ℝ => fc (x (Fin.castAdd m 0), x (Fin.castAdd m 1)) *
        (fg (x (Fin.castAdd m 2), x (Fin.castAdd m 3)) * ∏ i, f i (x (Fin.natAdd 4 i))) := by
  have hp : Measurable fun x : Fin m → ℝ => ∏ i, f i (x i) := Finset.measurable_prod _ fun i _ => (hf i).comp (measurable_pi_apply i)
  rw [pi_density f hf, prod_withDensity hg hp, prod_withDensity hc (by fun_prop)]
  have hD : Measurable fun x : Fin (4 + m) → ℝ => fc (x (Fin.castAdd m 0), x (Fin.castAdd m 1)) *
        (fg (x (Fin.castAdd m 2), x (Fin.castAdd m 3)) * ∏ i, f i (x (Fin.natAdd 4 i))) := by
    refine Measurable.mul (hc.comp ((measurable_pi_apply _).prodMk (measurable_pi_apply _))) (Measurable.mul
      (hg.comp ((measurable_pi_apply _).prodMk (measurable_pi_apply _))) ?_)
    exact Finset.measurable_prod _ fun i _ => (hf i).comp (measurable_pi_apply _)
  rw [← joinPars_volume, ← map_density _ _ joinPars_measurable _ hD]
  congr 2
  funext x
  simp only [joinPars, Fin.append_left, Fin.append_right]
  rfl

end

end Ngmix.Props
