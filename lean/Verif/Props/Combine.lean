import Verif.Spec.Combine
import Verif.Props.Order

/-!
# Observations measured together and apart (C112)
-/

namespace Ngmix.Props

open Ngmix Ngmix.Spec Ngmix.Proof.PSFFlux

noncomputable section

/-! ### Fluxes -/

theorem tPower_append (px px' : List (ℝ × ℝ × ℝ)) : tPower (px ++ px') = tPower px + tPower px' := by
  simp [tPower]
theorem tCorr_append (px px' : List (ℝ × ℝ × ℝ)) : tCorr (px ++ px') = tCorr px + tCorr px' := by
  simp [tCorr]
theorem tChi2_append (px px' : List (ℝ × ℝ × ℝ)) (f : ℝ) : tChi2 (px ++ px') f = tChi2 px f + tChi2 px' f := by
  simp [tChi2]

theorem tDof_pos (px : List (ℝ × ℝ × ℝ)) : tDof px ≠ 0 := by
  unfold tDof
  split
  · norm_num
  · rename_i h
    have : (2 : ℝ) ≤ nPositive px := by exact_mod_cast (by omega : 2 ≤ nPositive px)
    intro h0
    linarith

/-- No power: no correlation either. -/
theorem corr_zero (px : List (ℝ × ℝ × ℝ)) (hw : ∀ p ∈ px, 0 ≤ p.2.2) (h0 : tPower px = 0) : tCorr px = 0 := by
  induction px with
  | nil => simp [tCorr]
  | cons p px ih =>
      have h1 : 0 ≤ p.2.2 * p.1 ^ 2 := mul_nonneg (hw p (by simp)) (sq_nonneg _)
      have h2 := (nonneg_sums px fun q hq => hw q (by simp [hq])).1
      simp only [tPower, List.map_cons, List.sum_cons] at h0
      have h2' : 0 ≤ (px.map fun p => p.2.2 * p.1 ^ 2).sum := h2
      have h3 : tPower px = 0 := by unfold tPower; linarith
      have h4 : p.2.2 * p.1 ^ 2 = 0 := by linarith
      have h5 : p.2.2 * (p.1 * p.2.1) = 0 := by
        rcases mul_eq_zero.mp h4 with h | h
        · rw [h, zero_mul]
        · rw [pow_eq_zero_iff two_ne_zero |>.mp h]; ring
      have := ih (fun q hq => hw q (by simp [hq])) h3
      simp only [tCorr, List.map_cons, List.sum_cons] at this ⊢
      rw [h5, this, add_zero]

theorem pooled_of (px px' : List (ℝ × ℝ × ℝ)) (n n' N : ℕ) (r r' R : PFResult) (h : Outcome px n r) (h' : Outcome px' n' r')
    (H : Outcome (px ++ px') N R) (hw : ∀ p ∈ px ++ px', 0 ≤ p.2.2) : Pooled (tPower px) (tPower px') r r' R := by
  have hw1 : ∀ p ∈ px, 0 ≤ p.2.2 := fun p hp => hw p (by simp [hp])
  have hw2 : ∀ p ∈ px', 0 ≤ p.2.2 := fun p hp => hw p (by simp [hp])
  have hP := (nonneg_sums px hw1).1
  have hP' := (nonneg_sums px' hw2).1
  refine ⟨hP, hP', ?_, ?_, ?_, ?_⟩
  · intro h0 h0'
    have p1 : 0 < tPower px := lt_of_le_of_ne hP (Ne.symm h0)
    have p2 : 0 < tPower px' := lt_of_le_of_ne hP' (Ne.symm h0')
    have pS : 0 < tPower px + tPower px' := by linarith
    obtain ⟨f, a1, a2, a3, -⟩ := h.fit h0
    obtain ⟨f', b1, b2, b3, -⟩ := h'.fit h0'
    obtain ⟨F, c1, c2, c3, -⟩ := H.fit (by rw [tPower_append]; exact pS.ne')
    rw [tPower_append, tCorr_append, ← a2, ← b2] at c2
    have hF : F = (tPower px * f + tPower px' * f') / (tPower px + tPower px') := by
      rw [eq_div_iff pS.ne']; linarith
    refine ⟨f, f', F, _, _, _, a1, b1, c1, a3, b3, c3, hF, ?_, ?_, ?_⟩
    · rw [hF, le_div_iff₀ pS]
      nlinarith [mul_nonneg hP (sub_nonneg.2 (min_le_left f f')), mul_nonneg hP' (sub_nonneg.2 (min_le_right f f'))]
    · rw [hF, div_le_iff₀ pS]
      nlinarith [mul_nonneg hP (sub_nonneg.2 (le_max_left f f')), mul_nonneg hP' (sub_nonneg.2 (le_max_right f f'))]
    · rw [h.dof, h'.dof, H.dof, div_mul_cancel₀ _ (tDof_pos _), div_mul_cancel₀ _ (tDof_pos _), div_mul_cancel₀ _ (tDof_pos _),
        tChi2_append, chi2_expand px f F, chi2_expand px' f' F, ← a2, ← b2, hF]
      generalize tPower px = P at *
      generalize tPower px' = P' at *
      have := pS.ne'
      field_simp
      ring
  · intro h0 h0'
    obtain ⟨f, a1, a2, -⟩ := h.fit h0
    obtain ⟨F, c1, c2, -⟩ := H.fit (by rw [tPower_append, h0', add_zero]; exact h0)
    rw [tPower_append, tCorr_append, corr_zero px' hw2 h0', h0', ← a2, add_zero, add_zero] at c2
    rw [a1, c1, mul_right_cancel₀ h0 c2]
  · intro h0 h0'
    obtain ⟨f, a1, a2, -⟩ := h'.fit h0'
    obtain ⟨F, c1, c2, -⟩ := H.fit (by rw [tPower_append, h0, zero_add]; exact h0')
    rw [tPower_append, tCorr_append, corr_zero px hw1 h0, h0, ← a2, zero_add, zero_add] at c2
    rw [a1, c1, mul_right_cancel₀ h0' c2]
  · intro h0 h0'
    obtain ⟨c1, -, c3, -⟩ := H.noPower (by rw [tPower_append, h0, h0', add_zero])
    exact ⟨c3, c1⟩

theorem pixels_weight {obs : List PFObs} {ms : List (List ℝ)} (hw : ∀ o ∈ obs, ∀ w ∈ o.weight, 0 ≤ w) :
    ∀ p ∈ pixelsOf obs ms, 0 ≤ p.2.2 := by
  intro p hp
  simp only [pixelsOf, List.mem_flatMap] at hp
  obtain ⟨om, h1, h2⟩ := hp
  exact hw om.1 (List.of_mem_zip h1).1 _ (List.of_mem_zip (List.of_mem_zip h2).2).2

theorem pixelsOf_append (obs obs' : List PFObs) (ms ms' : List (List ℝ)) (h : obs.length = ms.length) :
    pixelsOf (obs ++ obs') (ms ++ ms') = pixelsOf obs ms ++ pixelsOf obs' ms' := by
  unfold pixelsOf
  rw [List.zip_append h, List.flatMap_append]

/-- C112.  Fluxes with template images of two sets of observations and of all of them. -/
theorem C112_templates (obs obs' : List PFObs) (ts ts' : List (List ℝ)) (doPsf nz : Bool) (hne : obs ≠ []) (hne' : obs' ≠ [])
    (hfirst : ∀ o ∈ obs.head?, ∀ s, pfSource doPsf o = .ok s → s.gmix = none)
    (hfirst' : ∀ o ∈ obs'.head?, ∀ s, pfSource doPsf o = .ok s → s.gmix = none)
    (h : List.Forall₂ (fun o (t : List ℝ) => (∃ s, pfSource doPsf o = .ok s ∧ s.template = some t) ∧ t.sum ≠ 0 ∧
      t.length = o.image.length ∧ o.weight.length = o.image.length) obs ts)
    (h' : List.Forall₂ (fun o (t : List ℝ) => (∃ s, pfSource doPsf o = .ok s ∧ s.template = some t) ∧ t.sum ≠ 0 ∧
      t.length = o.image.length ∧ o.weight.length = o.image.length) obs' ts')
    (hw : ∀ o ∈ obs ++ obs', ∀ w ∈ o.weight, 0 ≤ w) :
    ∃ r r' R, psfFlux obs doPsf nz = .ok r ∧ psfFlux obs' doPsf nz = .ok r' ∧ psfFlux (obs ++ obs') doPsf nz = .ok R ∧
      Pooled (tPower (pixelsOf obs (ts.map (unitTemplate doPsf nz)))) (tPower (pixelsOf obs' (ts'.map (unitTemplate doPsf nz))))
        r r' R := by
  obtain ⟨r, h1, h2⟩ := C46_templates obs ts doPsf nz hne hfirst h
  obtain ⟨r', h1', h2'⟩ := C46_templates obs' ts' doPsf nz hne' hfirst' h'
  obtain ⟨R, h1c, h2c⟩ := C46_templates (obs ++ obs') (ts ++ ts') doPsf nz (by simp [hne])
    (by
      cases obs with
      | nil => exact absurd rfl hne
      | cons a l => simpa using hfirst)
    (List.rel_append h h')
  rw [List.map_append, pixelsOf_append _ _ _ _ (by rw [List.length_map]; exact h.length_eq)] at h2c
  refine ⟨r, r', R, h1, h1', h1c, pooled_of _ _ _ _ _ _ _ _ h2 h2' h2c ?_⟩
  rw [← pixelsOf_append _ _ _ _ (by rw [List.length_map]; exact h.length_eq)]
  exact pixels_weight hw

/-- C112.  The same with mixtures. -/
theorem C112_mixtures (obs obs' : List PFObs) (gs gs' : List GMixObj) (doPsf nz : Bool) (hne : obs ≠ []) (hne' : obs' ≠ [])
    (h : List.Forall₂ (fun o g => (∃ s, pfSource doPsf o = .ok s ∧ s.gmix = some g) ∧ Renderable g ∧
      o.coords.length = o.image.length ∧ o.weight.length = o.image.length) obs gs)
    (h' : List.Forall₂ (fun o g => (∃ s, pfSource doPsf o = .ok s ∧ s.gmix = some g) ∧ Renderable g ∧
      o.coords.length = o.image.length ∧ o.weight.length = o.image.length) obs' gs')
    (hw : ∀ o ∈ obs ++ obs', ∀ w ∈ o.weight, 0 ≤ w) :
    ∃ r r' R, psfFlux obs doPsf nz = .ok r ∧ psfFlux obs' doPsf nz = .ok r' ∧ psfFlux (obs ++ obs') doPsf nz = .ok R ∧
      Pooled (tPower (pixelsOf obs ((obs.zip gs).map fun og => unitImage doPsf nz og.2 og.1.coords)))
        (tPower (pixelsOf obs' ((obs'.zip gs').map fun og => unitImage doPsf nz og.2 og.1.coords))) r r' R := by
  obtain ⟨r, h1, h2⟩ := C46_mixtures obs gs doPsf nz hne h
  obtain ⟨r', h1', h2'⟩ := C46_mixtures obs' gs' doPsf nz hne' h'
  obtain ⟨R, h1c, h2c⟩ := C46_mixtures (obs ++ obs') (gs ++ gs') doPsf nz (by simp [hne]) (List.rel_append h h')
  have hl : obs.length = ((obs.zip gs).map fun og => unitImage doPsf nz og.2 og.1.coords).length := by
    simp [h.length_eq]
  rw [List.zip_append h.length_eq, List.map_append, pixelsOf_append _ _ _ _ hl] at h2c
  refine ⟨r, r', R, h1, h1', h1c, pooled_of _ _ _ _ _ _ _ _ h2 h2' h2c ?_⟩
  rw [← pixelsOf_append _ _ _ _ hl]
  exact pixels_weight hw

/-! ### Model fits -/

theorem forall2_split {α β : Type*} {R : α → β → Prop} : ∀ (a b : List α) (d : List β), List.Forall₂ R (a ++ b) d →
    ∃ d1 d2, d = d1 ++ d2 ∧ List.Forall₂ R a d1 ∧ List.Forall₂ R b d2
  | [], b, d, h => ⟨[], d, rfl, .nil, h⟩
  | x :: a, b, _, .cons h1 h2 => by
      obtain ⟨d1, d2, rfl, h3, h4⟩ := forall2_split a b _ h2
      exact ⟨_ :: d1, d2, rfl, .cons h1 h3, h4⟩

/-- The models of all the observations are those of the two sets. -/
theorem modelTogether (kind : FMKind) (dopsf : Bool) (pars : List ℝ) : ∀ (obs obs' : List (List Img)), obs.length = obs'.length →
    ∀ b,
    (∀ D, IsModelFrom kind dopsf pars b (together obs obs') D → ∃ D1 D2, IsModelFrom kind dopsf pars b obs D1 ∧
      IsModelFrom kind dopsf pars b obs' D2) ∧
    (∀ D1 D2, IsModelFrom kind dopsf pars b obs D1 → IsModelFrom kind dopsf pars b obs' D2 →
      ∃ D, IsModelFrom kind dopsf pars b (together obs obs') D ∧
        ((together obs obs').flatten.zip D.flatten).Perm (obs.flatten.zip D1.flatten ++ obs'.flatten.zip D2.flatten))
  | [], [], _, b => ⟨fun D h => ⟨D, D, h, h⟩, fun D1 D2 h1 h2 => ⟨D1, h1, by simp [together]⟩⟩
  | is :: obs, is' :: obs', hl, b => by
      obtain ⟨ih1, ih2⟩ := modelTogether kind dopsf pars obs obs' (by simpa using hl) (b + 1)
      constructor
      · intro D hD
        rcases D with _ | ⟨ds, D⟩
        · have := hD.1; simp [together] at this
        · obtain ⟨⟨bp, hb, hf⟩, hr⟩ := (isModelFrom_cons kind dopsf pars b _ _ ds D).1 hD
          obtain ⟨d1, d2, rfl, h1, h2⟩ := forall2_split _ _ _ hf
          obtain ⟨D1, D2, h3, h4⟩ := ih1 D hr
          exact ⟨d1 :: D1, d2 :: D2, (isModelFrom_cons _ _ _ _ _ _ _ _).2 ⟨⟨bp, hb, h1⟩, h3⟩,
            (isModelFrom_cons _ _ _ _ _ _ _ _).2 ⟨⟨bp, hb, h2⟩, h4⟩⟩
      · intro D1 D2 hD1 hD2
        rcases D1 with _ | ⟨d1, D1⟩
        · have := hD1.1; simp at this
        rcases D2 with _ | ⟨d2, D2⟩
        · have := hD2.1; simp at this
        obtain ⟨⟨bp, hb, hf⟩, hr⟩ := (isModelFrom_cons _ _ _ _ _ _ _ _).1 hD1
        obtain ⟨⟨bp', hb', hf'⟩, hr'⟩ := (isModelFrom_cons _ _ _ _ _ _ _ _).1 hD2
        rw [hb, Except.ok.injEq] at hb'
        subst hb'
        obtain ⟨D, h1, h2⟩ := ih2 D1 D2 hr hr'
        refine ⟨(d1 ++ d2) :: D, (isModelFrom_cons _ _ _ _ _ _ _ _).2 ⟨⟨bp, hb, List.rel_append hf hf'⟩, h1⟩, ?_⟩
        change (((is ++ is') :: together obs obs').flatten.zip _).Perm _
        simp only [List.flatten_cons]
        rw [List.zip_append (by rw [List.length_append, List.length_append, hf.length_eq, hf'.length_eq]),
          List.zip_append hf.length_eq, List.zip_append hf.length_eq, List.zip_append hf'.length_eq]
        refine (List.Perm.append_left _ h2).trans ?_
        simp only [List.append_assoc]
        refine List.Perm.append_left _ ?_
        rw [← List.append_assoc, ← List.append_assoc]
        exact List.Perm.append_right _ List.perm_append_comm

variable {kind : FMKind} {prior : Option JointPrior} {obs obs' : List (List Img)} {guess guess' guess'' : List ℝ}
  {fm fm' fmc : FitModel} {st st' stc : FMState}

/-- C112.  Two sets of observations (in the same bands) fitted apart without prior, and together with any prior, all with or
all without the psfs: parameters are in range for all the observations exactly if they are for both sets.  Then the log
probability is the sum of those of the two sets and the log prior; the sums for the signal to noise and the numbers of pixels
add.  Without prior the residuals are those of the two sets, in another order. -/
theorem C112_fits (h : newFitModel kind none obs guess = .ok (fm, st)) (h' : newFitModel kind none obs' guess' = .ok (fm', st'))
    (hc : newFitModel kind prior (together obs obs') guess'' = .ok (fmc, stc)) (hlen : obs.length = obs'.length)
    (hd : fm.dopsf = fmc.dopsf) (hd' : fm'.dopsf = fmc.dopsf) (calls calls' callsc : List Call) (pars : List ℝ)
    (hpars : pars.length = guess.length) :
    ((∃ D, IsModel fmc pars D) ↔ (∃ D, IsModel fm pars D) ∧ ∃ D, IsModel fm' pars D) ∧
    (∀ lnp, getPriors prior pars = .ok lnp → (∃ D, IsModel fmc pars D) → ∃ (l l' a a' b b' : ℝ) (n n' : ℕ),
      (calcLnprob fm (runCalls fm st calls) pars).2 = .ok ⟨.fin l, a, b, n⟩ ∧
      (calcLnprob fm' (runCalls fm' st' calls') pars).2 = .ok ⟨.fin l', a', b', n'⟩ ∧
      (calcLnprob fmc (runCalls fmc stc callsc) pars).2 = .ok ⟨.fin (l + l') + lnp, a + a', b + b', n + n'⟩) ∧
    (prior = none → (∃ D, IsModel fmc pars D) → ∃ x x' y, (calcFdiff fm (runCalls fm st calls) pars).2 = .ok x ∧
      (calcFdiff fm' (runCalls fm' st' calls') pars).2 = .ok x' ∧
      (calcFdiff fmc (runCalls fmc stc callsc) pars).2 = .ok y ∧ y.Perm (x ++ x')) := by
  obtain ⟨hk, hpr, hob, -, -, hnp, -⟩ := new_shape h
  obtain ⟨hk', hpr', hob', -, -, hnp', -⟩ := new_shape h'
  obtain ⟨hkc, hprc, hobc, -, -, hnpc, -⟩ := new_shape hc
  have hlc : (together obs obs').length = obs.length := by simp [together, hlen]
  have hpars' : pars.length = guess'.length := by
    rw [hlen, hnp', Except.ok.injEq] at hnp
    omega
  have hparsc : pars.length = guess''.length := by
    rw [hlc, hnp, Except.ok.injEq] at hnpc
    omega
  obtain ⟨t1, t2⟩ := modelTogether kind fmc.dopsf pars obs obs' hlen 0
  have hsplit : (∃ D, IsModel fmc pars D) → ∃ D1 D2 D, IsModel fm pars D1 ∧ IsModel fm' pars D2 ∧ IsModel fmc pars D ∧
      (pairs fmc D).Perm (pairs fm D1 ++ pairs fm' D2) := by
    rintro ⟨D, hD⟩
    rw [isModel_from, hkc, hobc] at hD
    obtain ⟨D1, D2, h1, h2⟩ := t1 D hD
    obtain ⟨D, h3, h4⟩ := t2 D1 D2 h1 h2
    refine ⟨D1, D2, D, by rw [isModel_from, hk, hob, hd]; exact h1, by rw [isModel_from, hk', hob', hd']; exact h2,
      by rw [isModel_from, hkc, hobc]; exact h3, ?_⟩
    unfold pairs
    rw [hob, hob', hobc]
    exact h4
  refine ⟨⟨fun hD => ?_, ?_⟩, ?_, ?_⟩
  · obtain ⟨D1, D2, -, h1, h2, -⟩ := hsplit hD
    exact ⟨⟨D1, h1⟩, D2, h2⟩
  · rintro ⟨⟨D1, h1⟩, D2, h2⟩
    rw [isModel_from, hk, hob, hd] at h1
    rw [isModel_from, hk', hob', hd'] at h2
    obtain ⟨D, h3, -⟩ := t2 D1 D2 h1 h2
    exact ⟨D, by rw [isModel_from, hkc, hobc]; exact h3⟩
  · intro lnp hlnp hD
    obtain ⟨D1, D2, D, h1, h2, h3, hp⟩ := hsplit hD
    have e1 := C47_lnprob kind none obs guess fm st h calls pars hpars D1 h1 (.fin 0) rfl
    have e2 := C47_lnprob kind none obs' guess' fm' st' h' calls' pars hpars' D2 h2 (.fin 0) rfl
    have e3 := C47_lnprob kind prior _ guess'' fmc stc hc callsc pars hparsc D h3 lnp hlnp
    have ht : fmc.totpix = fm.totpix + fm'.totpix := by
      rw [← residuals_length fmc pars D h3, ← residuals_length fm pars D1 h1, ← residuals_length fm' pars D2 h2]
      unfold residuals
      rw [(hp.flatMap_right _).length_eq, List.flatMap_append, List.length_append]
    have hs : ∀ f : Img × List Gauss → ℝ, ((pairs fmc D).map f).sum = ((pairs fm D1).map f).sum + ((pairs fm' D2).map f).sum :=
      fun f => by rw [(hp.map f).sum_eq, List.map_append, List.sum_append]
    have hz : ∀ x : ℝ, (Fl.fin x + Fl.fin 0) = Fl.fin x := fun x => by
      change Fl.fin (x + 0) = _
      rw [add_zero]
    rw [hz] at e1 e2
    refine ⟨_, _, _, _, _, _, _, _, e1, e2, ?_⟩
    rw [e3, hs, hs, hs, ht]
  · rintro rfl hD
    obtain ⟨D1, D2, D, h1, h2, h3, hp⟩ := hsplit hD
    refine ⟨_, _, _, (C41_no_prior kind obs guess fm st h calls pars hpars D1 h1).2,
      (C41_no_prior kind obs' guess' fm' st' h' calls' pars hpars' D2 h2).2,
      (C41_no_prior kind _ guess'' fmc stc hc callsc pars hparsc D h3).2, ?_⟩
    rw [← List.map_append]
    refine List.Perm.map _ ?_
    unfold residuals
    refine (hp.flatMap_right _).trans ?_
    rw [List.flatMap_append]

/-! ### A source added to the images -/

/-- The pixels with `c` times the template added. -/
theorem pixels_added (c : ℝ) (obs : List PFObs) (ms : List (List ℝ)) :
    pixelsOf (addSource c obs ms) ms = (pixelsOf obs ms).map fun p => (p.1, p.2.1 + c * p.1, p.2.2) := by
  have hz : ∀ (m y w : List ℝ), m.zip ((List.zipWith (fun y x => y + c * x) y m).zip w) =
      (m.zip (y.zip w)).map fun p => (p.1, p.2.1 + c * p.1, p.2.2) := by
    intro m
    induction m with
    | nil => intro y w; rfl
    | cons x m ih =>
      intro y w
      rcases y with _ | ⟨y, ys⟩
      · rfl
      rcases w with _ | ⟨w, ws⟩
      · simp
      · simp only [List.zipWith_cons_cons, List.zip_cons_cons, List.map_cons, ih]
  unfold pixelsOf addSource
  induction obs generalizing ms with
  | nil => simp
  | cons o obs ih =>
    rcases ms with _ | ⟨m, ms⟩
    · simp
    · simp only [List.zipWith_cons_cons, List.zip_cons_cons, List.flatMap_cons, List.map_append, ih, hz]

theorem added_of (c : ℝ) (px : List (ℝ × ℝ × ℝ)) (n : ℕ) (r r' : PFResult) (h : Outcome px n r)
    (h' : Outcome (px.map fun p => (p.1, p.2.1 + c * p.1, p.2.2)) n r') (h0 : tPower px ≠ 0) :
    ∃ f, r.flux = .fin f ∧ r' = { r with flux := .fin (f + c) } := by
  set px' := px.map fun p => (p.1, p.2.1 + c * p.1, p.2.2) with hpx'
  have e1 : tPower px' = tPower px := by simp [hpx', tPower, Function.comp_def]
  have e2 : tCorr px' = tCorr px + c * tPower px := by
    simp only [hpx', tCorr, tPower, List.map_map, Function.comp_def, ← List.sum_map_mul_left]
    rw [← List.sum_map_add]
    congr 1
    refine List.map_congr_left fun p _ => ?_
    ring
  have e3 : ∀ f, tChi2 px' (f + c) = tChi2 px f := by
    intro f
    simp only [hpx', tChi2, List.map_map, Function.comp_def]
    congr 1
    refine List.map_congr_left fun p _ => ?_
    ring
  have e4 : tDof px' = tDof px := by
    have : nPositive px' = nPositive px := by
      unfold nPositive
      rw [hpx', List.filter_map, List.length_map]
      rfl
    unfold tDof
    rw [this]
  have hdof : r.dof = r'.dof := by rw [h.dof, h'.dof, e4]
  obtain ⟨f0, c0, d0, x0, y0⟩ := r
  obtain ⟨f1, c1, d1, x1, y1⟩ := r'
  simp only at hdof
  obtain ⟨f, a1, a2, a3, a4, a5, a6⟩ := h.fit h0
  obtain ⟨f', b1, b2, b3, b4, b5, b6⟩ := h'.fit (by rw [e1]; exact h0)
  have : f' = f + c := by
    rw [e1, e2, ← a2] at b2
    refine mul_right_cancel₀ h0 ?_
    rw [b2]; ring
  subst this
  rw [e1, e3] at b5 b6
  rw [e3, e4] at b3
  simp only at a1 a3 a4 a5 a6 b1 b3 b4 b5 b6
  refine ⟨f, a1, ?_⟩
  rw [a3, b1, b3, hdof]
  by_cases hn : n = 1
  · rw [(a4 hn).1, (a4 hn).2, (b4 hn).1, (b4 hn).2]
  · by_cases hs : 0 ≤ tChi2 px f / tPower px / ((n : ℝ) - 1)
    · rw [(a5 hn hs).1, (a5 hn hs).2, (b5 hn hs).1, (b5 hn hs).2]
    · rw [(a6 hn (not_le.1 hs)).1, (a6 hn (not_le.1 hs)).2, (b6 hn (not_le.1 hs)).1, (b6 hn (not_le.1 hs)).2]

theorem addSource_rel {β : Type} {R R' : PFObs → β → Prop} (c : ℝ) (ms : β → List ℝ) (obs : List PFObs) (ts : List β)
    (h : List.Forall₂ R obs ts)
    (hR : ∀ o t, R o t → R' { o with image := List.zipWith (fun y x => y + c * x) o.image (ms t) } t) :
    List.Forall₂ R' (addSource c obs (ts.map ms)) ts := by
  induction h with
  | nil => exact .nil
  | cons h1 _ ih => exact .cons (hR _ _ h1) ih

/-- C112.  Adding `c` times the unit-flux templates to the images adds `c` to the flux and changes nothing else of the
result. -/
theorem C112_added_templates (obs : List PFObs) (ts : List (List ℝ)) (doPsf nz : Bool) (hne : obs ≠ []) (c : ℝ)
    (hfirst : ∀ o ∈ obs.head?, ∀ s, pfSource doPsf o = .ok s → s.gmix = none)
    (h : List.Forall₂ (fun o (t : List ℝ) => (∃ s, pfSource doPsf o = .ok s ∧ s.template = some t) ∧ t.sum ≠ 0 ∧
      t.length = o.image.length ∧ o.weight.length = o.image.length) obs ts)
    (h0 : tPower (pixelsOf obs (ts.map (unitTemplate doPsf nz))) ≠ 0) :
    ∃ r f, psfFlux obs doPsf nz = .ok r ∧ r.flux = .fin f ∧
      psfFlux (addSource c obs (ts.map (unitTemplate doPsf nz))) doPsf nz = .ok { r with flux := .fin (f + c) } := by
  have hul : ∀ t, (unitTemplate doPsf nz t).length = t.length := by
    intro t; unfold unitTemplate; split <;> simp
  obtain ⟨r, h1, h2⟩ := C46_templates obs ts doPsf nz hne hfirst h
  obtain ⟨r', h1', h2'⟩ := C46_templates (addSource c obs (ts.map (unitTemplate doPsf nz))) ts doPsf nz
    (by cases h with
      | nil => exact absurd rfl hne
      | cons _ _ => simp [addSource])
    (by cases h with
      | nil => exact absurd rfl hne
      | cons _ _ => simpa [addSource, pfSource] using hfirst)
    (addSource_rel c _ obs ts h fun o t ⟨⟨s, hs, ht⟩, a, b, d⟩ => ⟨⟨s, by simpa [pfSource] using hs, ht⟩, a,
      by simp [hul, b], by simp [hul, b, d]⟩)
  have hn : (addSource c obs (ts.map (unitTemplate doPsf nz))).map PFObs.npixels = obs.map PFObs.npixels := by
    clear h1 h2 h1' h2' h0 hfirst hne
    induction h with
    | nil => rfl
    | cons _ _ ih => simpa [addSource] using ih
  rw [hn, pixels_added] at h2'
  obtain ⟨f, hf, he⟩ := added_of c _ _ r r' h2 h2' h0
  exact ⟨r, f, h1, hf, by rw [h1', he]⟩

/-- C112.  The same with mixtures: adding `c` times their images of unit flux. -/
theorem C112_added_mixtures (obs : List PFObs) (gs : List GMixObj) (doPsf nz : Bool) (hne : obs ≠ []) (c : ℝ)
    (h : List.Forall₂ (fun o g => (∃ s, pfSource doPsf o = .ok s ∧ s.gmix = some g) ∧ Renderable g ∧
      o.coords.length = o.image.length ∧ o.weight.length = o.image.length) obs gs)
    (h0 : tPower (pixelsOf obs ((obs.zip gs).map fun og => unitImage doPsf nz og.2 og.1.coords)) ≠ 0) :
    ∃ r f, psfFlux obs doPsf nz = .ok r ∧ r.flux = .fin f ∧
      psfFlux (addSource c obs ((obs.zip gs).map fun og => unitImage doPsf nz og.2 og.1.coords)) doPsf nz =
        .ok { r with flux := .fin (f + c) } := by
  have hul : ∀ g cs, (unitImage doPsf nz g cs).length = cs.length := by
    intro g cs; unfold unitImage imageOf; split <;> simp
  set ms := (obs.zip gs).map fun og => unitImage doPsf nz og.2 og.1.coords with hms
  have hrel : List.Forall₂ (fun o g => (∃ s, pfSource doPsf o = .ok s ∧ s.gmix = some g) ∧ Renderable g ∧
      o.coords.length = o.image.length ∧ o.weight.length = o.image.length) (addSource c obs ms) gs ∧
      (addSource c obs ms).map PFObs.npixels = obs.map PFObs.npixels ∧
      ((addSource c obs ms).zip gs).map (fun og => unitImage doPsf nz og.2 og.1.coords) = ms := by
    rw [hms]
    clear_value ms
    clear hms h0 hne ms
    induction h with
    | nil => exact ⟨.nil, rfl, rfl⟩
    | @cons o g obs gs h1 _ ih =>
      obtain ⟨⟨s, hs, ht⟩, a, b, d⟩ := h1
      refine ⟨.cons ⟨⟨s, by simpa [pfSource] using hs, ht⟩, a, by simp [hul, b], by simp [hul, b, d]⟩ ih.1, ?_, ?_⟩
      · simpa [addSource] using ih.2.1
      · have := ih.2.2
        simp only [addSource, List.zip_cons_cons, List.map_cons, List.zipWith_cons_cons] at this ⊢
        rw [this]
  obtain ⟨r, h1, h2⟩ := C46_mixtures obs gs doPsf nz hne h
  obtain ⟨r', h1', h2'⟩ := C46_mixtures (addSource c obs ms) gs doPsf nz (by
    intro he
    rw [he] at hrel
    have := hrel.2.1
    simp at this
    exact hne (by simpa using this.symm)) hrel.1
  rw [hrel.2.1, hrel.2.2, pixels_added] at h2'
  obtain ⟨f, hf, he⟩ := added_of c _ _ r r' h2 h2' h0
  exact ⟨r, f, h1, hf, by rw [h1', he]⟩

/-! ### Galsim -/

theorem imagesTogether (G : GSLib) (kind : GSKind) (pars : List ℝ) : ∀ (kobs kobs' : List (List KObs)),
    kobs.length = kobs'.length → ∀ b,
    (∀ ms, ModelImages G kind pars b (together kobs kobs') ms → ∃ m1 m2, ModelImages G kind pars b kobs m1 ∧
      ModelImages G kind pars b kobs' m2) ∧
    (∀ m1 m2, ModelImages G kind pars b kobs m1 → ModelImages G kind pars b kobs' m2 →
      ∃ ms, ModelImages G kind pars b (together kobs kobs') ms ∧
        (ms.flatten.zip (together kobs kobs').flatten).Perm (m1.flatten.zip kobs.flatten ++ m2.flatten.zip kobs'.flatten))
  | [], [], _, b => ⟨fun _ _ => ⟨[], [], rfl, rfl⟩, fun m1 m2 h1 h2 => ⟨[], rfl, by
      obtain rfl : m1 = [] := h1
      obtain rfl : m2 = [] := h2
      simp [together]⟩⟩
  | ks :: kobs, ks' :: kobs', hl, b => by
      obtain ⟨ih1, ih2⟩ := imagesTogether G kind pars kobs kobs' (by simpa using hl) (b + 1)
      constructor
      · rintro _ ⟨m, ms, rfl, hf, hr⟩
        obtain ⟨d1, d2, rfl, h1, h2⟩ := forall2_split _ _ _ hf
        obtain ⟨m1, m2, h3, h4⟩ := ih1 ms hr
        exact ⟨_, _, ⟨d1, m1, rfl, h1, h3⟩, ⟨d2, m2, rfl, h2, h4⟩⟩
      · rintro _ _ ⟨d1, m1, rfl, hf, hr⟩ ⟨d2, m2, rfl, hf', hr'⟩
        obtain ⟨ms, h1, h2⟩ := ih2 m1 m2 hr hr'
        refine ⟨(d1 ++ d2) :: ms, ⟨d1 ++ d2, ms, rfl, List.rel_append hf hf', h1⟩, ?_⟩
        change (((d1 ++ d2) :: ms).flatten.zip ((ks ++ ks') :: together kobs kobs').flatten).Perm _
        simp only [List.flatten_cons]
        rw [List.zip_append (by rw [List.length_append, List.length_append, hf.length_eq, hf'.length_eq]),
          List.zip_append hf.length_eq.symm, List.zip_append hf.length_eq.symm, List.zip_append hf'.length_eq.symm]
        refine (List.Perm.append_left _ h2).trans ?_
        simp only [List.append_assoc]
        refine List.Perm.append_left _ ?_
        rw [← List.append_assoc, ← List.append_assoc]
        exact List.Perm.append_right _ List.perm_append_comm

/-- C112.  Galsim fits without prior: parameters are in range for all the observations exactly if they are for both sets, and
the residuals are those of the two sets in another order. -/
theorem C112_galsim (G : GSLib) (kd : GSKind) (kobs kobs' : List (List KObs)) (hlen : kobs.length = kobs'.length)
    (hm : OwnMeta (together kobs kobs')) (hm1 : OwnMeta kobs) (hm2 : OwnMeta kobs')
    (hk : ∀ k ∈ kobs.flatten ++ kobs'.flatten, KSized k) (g g' gc : List ℝ) (mem0 mem0' mem0c mem mem' memc : KMem) (f f' fc : GSFit)
    (h : newGSFit G kd none kobs g mem0 = (mem, .ok f)) (h' : newGSFit G kd none kobs' g' mem0' = (mem', .ok f'))
    (hc : newGSFit G kd none (together kobs kobs') gc mem0c = (memc, .ok fc)) (l l' lc : List GSOp) (pars : List ℝ)
    (hp : pars.length = g.length) :
    ((∃ ms, ModelImages G kd pars 0 (together kobs kobs') ms) ↔
      (∃ ms, ModelImages G kd pars 0 kobs ms) ∧ ∃ ms, ModelImages G kd pars 0 kobs' ms) ∧
    ((∃ ms, ModelImages G kd pars 0 (together kobs kobs') ms) → ∃ x x' y, (gsFdiff G f (gsCalls G f mem l) pars).2 = .ok x ∧
      (gsFdiff G f' (gsCalls G f' mem' l') pars).2 = .ok x' ∧ (gsFdiff G fc (gsCalls G fc memc lc) pars).2 = .ok y ∧
      y.Perm (x ++ x')) := by
  have hg := ((C80_construct G kd none kobs g mem0).1 ⟨_, _, h⟩).2.1
  have hg' := ((C80_construct G kd none kobs' g' mem0').1 ⟨_, _, h'⟩).2.1
  have hgc := ((C80_construct G kd none _ gc mem0c).1 ⟨_, _, hc⟩).2.1
  have hlc : (together kobs kobs').length = kobs.length := by simp [together, hlen]
  obtain ⟨t1, t2⟩ := imagesTogether G kd pars kobs kobs' hlen 0
  have hfl : ∀ (a b : List (List KObs)), a.length = b.length → ∀ k ∈ (together a b).flatten, k ∈ a.flatten ++ b.flatten := by
    intro a
    induction a with
    | nil => intro b hb k hk; simp [together] at hk
    | cons x a ih =>
      intro b hb k hk
      rcases b with _ | ⟨y, b⟩
      · simp at hb
      · have e : (together (x :: a) (y :: b)).flatten = (x ++ y) ++ (together a b).flatten := rfl
        rw [e, List.mem_append, List.mem_append] at hk
        have := ih b (by simpa using hb) k
        simp only [List.flatten_cons, List.mem_append] at this ⊢
        tauto
  refine ⟨⟨fun ⟨ms, hms⟩ => ?_, fun ⟨⟨m1, h1⟩, m2, h2⟩ => ?_⟩, fun ⟨ms, hms⟩ => ?_⟩
  · obtain ⟨m1, m2, h1, h2⟩ := t1 ms hms
    exact ⟨⟨m1, h1⟩, m2, h2⟩
  · obtain ⟨ms, h3, -⟩ := t2 m1 m2 h1 h2
    exact ⟨ms, h3⟩
  · obtain ⟨m1, m2, h1, h2⟩ := t1 ms hms
    obtain ⟨ms, h3, h4⟩ := t2 m1 m2 h1 h2
    refine ⟨_, _, _, C80_residuals h hm1 (fun k hk' => hk k (by simp [hk'])) l pars hp m1 h1,
      C80_residuals h' hm2 (fun k hk' => hk k (by simp [hk'])) l' pars (by rw [hp, hg, hg', hlen]) m2 h2,
      C80_residuals hc hm (fun k hk' => hk k (hfl _ _ hlen k hk')) lc pars (by rw [hp, hg, hgc, hlc]) ms h3, ?_⟩
    rw [← List.map_append]
    refine List.Perm.map _ ?_
    unfold kResids
    refine (h4.flatMap_right _).trans ?_
    rw [List.flatMap_append]

/-- C112.  Fluxes with galsim: the flux from all the observations is the mean of the two weighted by the power of the
templates, and lies between them. -/
theorem C112_galsim_flux (L : GPLib) (model : Option L.Obj) (obs obs' : List GPObs)
    (hmodel : ∀ m, model = some m → ∃ m1, L.unitFlux m = .ok m1) (ts ts' : List (List ℝ))
    (h : List.Forall₂ (fun o t => GPTemplate L model o t ∧ t.sum ≠ 0 ∧ t.length = o.img.data.length ∧
      o.weight.length = o.img.data.length) obs ts)
    (h' : List.Forall₂ (fun o t => GPTemplate L model o t ∧ t.sum ≠ 0 ∧ t.length = o.img.data.length ∧
      o.weight.length = o.img.data.length) obs' ts')
    (P P' : ℝ) (hP : P = tPower (gpPixels obs ts)) (hP' : P' = tPower (gpPixels obs' ts')) (h0 : 0 < P) (h0' : 0 < P') :
    ∃ r r' R f f' F, gpGo L model (.obsList obs) = .ok r ∧ gpGo L model (.obsList obs') = .ok r' ∧
      gpGo L model (.obsList (obs ++ obs')) = .ok R ∧ r.flux = .fin f ∧ r'.flux = .fin f' ∧ R.flux = .fin F ∧
      F = (P * f + P' * f') / (P + P') ∧ min f f' ≤ F ∧ F ≤ max f f' := by
  obtain ⟨r, hr, ho⟩ := C82_flux (L := L) (model := model) (.obsList obs) obs rfl ts hmodel h
  obtain ⟨r', hr', ho'⟩ := C82_flux (L := L) (model := model) (.obsList obs') obs' rfl ts' hmodel h'
  obtain ⟨R, hR, hO⟩ := C82_flux (L := L) (model := model) (.obsList (obs ++ obs')) (obs ++ obs') rfl (ts ++ ts') hmodel
    (List.rel_append h h')
  have ea : gpPixels (obs ++ obs') (ts ++ ts') = gpPixels obs ts ++ gpPixels obs' ts' := by
    unfold gpPixels
    rw [List.zip_append h.length_eq, List.flatMap_append]
  obtain ⟨f, a1, a2, -⟩ := ho.fit (by rw [← hP]; exact h0.ne')
  obtain ⟨f', b1, b2, -⟩ := ho'.fit (by rw [← hP']; exact h0'.ne')
  have pS : 0 < P + P' := by linarith
  obtain ⟨F, c1, c2, -⟩ := hO.fit (by rw [ea, tPower_append, ← hP, ← hP']; exact pS.ne')
  rw [ea, tPower_append, tCorr_append, ← a2, ← b2, ← hP, ← hP'] at c2
  have hF : F = (P * f + P' * f') / (P + P') := by
    rw [eq_div_iff pS.ne']; linarith
  refine ⟨r, r', R, f, f', F, hr, hr', hR, a1, b1, c1, hF, ?_, ?_⟩
  · rw [hF, le_div_iff₀ pS]
    nlinarith [mul_nonneg h0.le (sub_nonneg.2 (min_le_left f f')), mul_nonneg h0'.le (sub_nonneg.2 (min_le_right f f'))]
  · rw [hF, div_le_iff₀ pS]
    nlinarith [mul_nonneg h0.le (sub_nonneg.2 (le_max_left f f')), mul_nonneg h0'.le (sub_nonneg.2 (le_max_right f f'))]

/-! ### Examples -/

/-- Two observations with templates, of fluxes 2 and 2/3 apart and 16/14 together. -/
example : ∃ r r' R f f' F, psfFlux [⟨[2, 4], [1, 1], 2, [], ⟨none, none⟩, some ⟨none, some [1, 2]⟩⟩] true false = .ok r ∧
    psfFlux [⟨[2, 0], [1, 0], 1, [], ⟨none, none⟩, some ⟨none, some [3, 3]⟩⟩] true false = .ok r' ∧
    psfFlux [⟨[2, 4], [1, 1], 2, [], ⟨none, none⟩, some ⟨none, some [1, 2]⟩⟩,
     ⟨[2, 0], [1, 0], 1, [], ⟨none, none⟩, some ⟨none, some [3, 3]⟩⟩] true false = .ok R ∧
    r.flux = .fin f ∧ r'.flux = .fin f' ∧ R.flux = .fin F ∧ F = (5 * f + 9 * f') / (5 + 9) := by
  obtain ⟨r, r', R, h1, h2, h3, -, -, h4, -⟩ := C112_templates
    [⟨[2, 4], [1, 1], 2, [], ⟨none, none⟩, some ⟨none, some [1, 2]⟩⟩]
    [⟨[2, 0], [1, 0], 1, [], ⟨none, none⟩, some ⟨none, some [3, 3]⟩⟩] [[1, 2]] [[3, 3]] true false (by simp) (by simp)
    (by intro o ho s hs
        simp only [List.head?_cons, Option.mem_def, Option.some.injEq] at ho
        subst ho
        simp only [pfSource, if_true, Except.ok.injEq] at hs
        rw [← hs])
    (by intro o ho s hs
        simp only [List.head?_cons, Option.mem_def, Option.some.injEq] at ho
        subst ho
        simp only [pfSource, if_true, Except.ok.injEq] at hs
        rw [← hs])
    (.cons ⟨⟨_, rfl, rfl⟩, by norm_num, rfl, rfl⟩ .nil) (.cons ⟨⟨_, rfl, rfl⟩, by norm_num, rfl, rfl⟩ .nil)
    (by intro o ho w hw
        simp only [List.cons_append, List.nil_append, List.mem_cons, List.not_mem_nil, or_false] at ho
        rcases ho with rfl | rfl <;> simp at hw <;> rcases hw with rfl | rfl <;> norm_num)
  have p1 : tPower (pixelsOf [⟨[2, 4], [1, 1], 2, [], ⟨none, none⟩, some ⟨none, some [1, 2]⟩⟩]
      ([[1, 2]].map (unitTemplate true false))) = 5 := by
    norm_num [tPower, pixelsOf, unitTemplate]
  have p2 : tPower (pixelsOf [⟨[2, 0], [1, 0], 1, [], ⟨none, none⟩, some ⟨none, some [3, 3]⟩⟩]
      ([[3, 3]].map (unitTemplate true false))) = 9 := by
    norm_num [tPower, pixelsOf, unitTemplate]
  rw [p1, p2] at h4
  obtain ⟨f, f', F, -, -, -, e1, e2, e3, -, -, -, e4, -⟩ := h4 (by norm_num) (by norm_num)
  exact ⟨r, r', R, f, f', F, h1, h2, h3, e1, e2, e3, e4⟩

/-- Images with the psf of the example. -/
def exImgs (l : List (List Pixel)) : List Img := l.map fun a => ⟨a, .ok exPsf⟩

/-- An object of two bands with any number of images, with any joint prior or none, and its model at other parameters. -/
theorem ex_fit_bands (prior : Option JointPrior) (a : List Pixel) (A C : List (List Pixel)) : ∃ st D,
    newFitModel (.std "gauss") prior [exImgs (a :: A), exImgs C] [0, 0, 0, 0, 4, 1, 1] =
      .ok (⟨.std "gauss", prior, [exImgs (a :: A), exImgs C], true⟩, st) ∧
    IsModel ⟨.std "gauss", prior, [exImgs (a :: A), exImgs C], true⟩ [0, 0, 0, 0, 1, 2, 3] D := by
  have hb : ∀ (T F G : ℝ), getBandPars "gauss" [0, 0, 0, 0, T, F, G] 0 = .ok [0, 0, 0, 0, T, F] ∧
      getBandPars "gauss" [0, 0, 0, 0, T, F, G] 1 = .ok [0, 0, 0, 0, T, G] := by
    intro T F G
    have h6 := fun k => C47_band_pars "gauss" 6 rfl (by simp) [0, 0, 0, 0, T] [F, G] rfl k
    exact ⟨((h6 0).1 (by simp)).1, ((h6 1).1 (by simp)).1⟩
  have hone : ∀ (x : List Pixel), ∃ g, initOne (.std "gauss") true [0, 0, 0, 0, 4, 1] ⟨x, .ok exPsf⟩ = .ok g := by
    intro x
    unfold initOne
    simp only [FMKind.arg, ex_make, Except.bind, if_true, convolveObj, ex_convolve, Except.map]
    exact ⟨_, rfl⟩
  have hband : ∀ l, ∃ gs, initBand (.std "gauss") true [0, 0, 0, 0, 4, 1] (exImgs l) = .ok gs := by
    intro l
    induction l with
    | nil => exact ⟨[], rfl⟩
    | cons x l ih =>
      obtain ⟨gs, hgs⟩ := ih
      obtain ⟨g, hg⟩ := hone x
      refine ⟨g :: gs, ?_⟩
      change initBand (.std "gauss") true [0, 0, 0, 0, 4, 1] (⟨x, .ok exPsf⟩ :: exImgs l) = _
      simp only [initBand, hg, hgs, Except.bind, Except.map]
  obtain ⟨D2, hD2⟩ := ex_ready 1 2 one_pos
  obtain ⟨D3, hD3⟩ := ex_ready 1 3 one_pos
  have hmod : ∀ (F : ℝ) (D : List Gauss), ready [gauss2dSet F 0 0 (0.5 * 1 + 1) 0 (0.5 * 1 + 1)] = .ok D → ∀ l,
      List.Forall₂ (fun i d => modelFor (.std "gauss") true [0, 0, 0, 0, 1, F] i = .ok d) (exImgs l) (l.map fun _ => D) := by
    intro F D hD l
    induction l with
    | nil => exact .nil
    | cons x l ih =>
      refine .cons ?_ ih
      unfold modelFor
      simp only [FMKind.arg, ex_make, Except.bind, if_true, ex_convolve]
      exact hD
  obtain ⟨g1, h1⟩ := hband (a :: A)
  obtain ⟨g2, h2⟩ := hband C
  refine ⟨[g1, g2], [(a :: A).map fun _ => D2, C.map fun _ => D3], ?_, rfl, ?_⟩
  · have h1' : initBand (.std "gauss") true [0, 0, 0, 0, 4, 1] (⟨a, .ok exPsf⟩ :: exImgs A) = .ok g1 := h1
    change newFitModel (.std "gauss") prior [⟨a, .ok exPsf⟩ :: exImgs A, exImgs C] [0, 0, 0, 0, 4, 1, 1] =
      .ok (⟨.std "gauss", prior, [⟨a, .ok exPsf⟩ :: exImgs A, exImgs C], true⟩, _)
    unfold newFitModel
    rw [show FMKind.npars (.std "gauss") ([⟨a, .ok exPsf⟩ :: exImgs A, exImgs C] : List (List Img)).length = .ok 7 from rfl]
    cases prior <;> simp only [Except.bind, FMKind.nPriorPars, getLmNPriorPars]
    all_goals simp only [String.reduceEq, if_false, List.mem_cons, true_or, or_true, if_true, List.length_cons,
        List.length_nil, ne_eq, Nat.reduceAdd, not_true, Img.hasPsfGmix, initAll, FMKind.bandPars, (hb _ _ _).1,
        (hb _ _ _).2, Except.bind, h1', h2, Except.map]
  · intro k is ds hk hk'
    match k, hk, hk' with
    | 0, hk, hk' =>
      simp only [List.getElem?_cons_zero, Option.some.injEq] at hk hk'
      subst hk; subst hk'
      exact ⟨_, (hb 1 2 3).1, hmod 2 D2 hD2 _⟩
    | 1, hk, hk' =>
      simp only [List.getElem?_cons_succ, List.getElem?_cons_zero, Option.some.injEq] at hk hk'
      subst hk; subst hk'
      exact ⟨_, (hb 1 2 3).2, hmod 3 D3 hD3 _⟩
    | k + 2, hk, hk' => simp at hk

/-- Two sets of images in two bands: the first of two images and one, the second of one image and none. -/
example (a b c d : List Pixel) : ∃ fm st fm' st' fmc stc x x' y,
    newFitModel (.std "gauss") none [exImgs [a, b], exImgs [c]] [0, 0, 0, 0, 4, 1, 1] = .ok (fm, st) ∧
    newFitModel (.std "gauss") none [exImgs [d], exImgs []] [0, 0, 0, 0, 4, 1, 1] = .ok (fm', st') ∧
    newFitModel (.std "gauss") none [exImgs [a, b, d], exImgs [c]] [0, 0, 0, 0, 4, 1, 1] = .ok (fmc, stc) ∧
    (calcFdiff fm (runCalls fm st []) [0, 0, 0, 0, 1, 2, 3]).2 = .ok x ∧
    (calcFdiff fm' (runCalls fm' st' []) [0, 0, 0, 0, 1, 2, 3]).2 = .ok x' ∧
    (calcFdiff fmc (runCalls fmc stc []) [0, 0, 0, 0, 1, 2, 3]).2 = .ok y ∧ y.Perm (x ++ x') := by
  obtain ⟨st, D, h1, -⟩ := ex_fit_bands none a [b] [c]
  obtain ⟨st', D', h1', -⟩ := ex_fit_bands none d [] []
  obtain ⟨stc, Dc, h1c, h2c⟩ := ex_fit_bands none a [b, d] [c]
  obtain ⟨x, x', y, e1, e2, e3, e4⟩ := (C112_fits h1 h1' h1c rfl rfl rfl [] [] [] [0, 0, 0, 0, 1, 2, 3] rfl).2.2 rfl ⟨_, h2c⟩
  exact ⟨_, st, _, st', _, stc, x, x', y, h1, h1', h1c, e1, e2, e3, e4⟩

/-- One source of flux 7 added to the image. -/
example : ∃ r f, psfFlux [⟨[2, 5], [1, 1], 2, [], ⟨none, none⟩, some ⟨none, some [1, 2]⟩⟩] true false = .ok r ∧ r.flux = .fin f ∧
    psfFlux [⟨[2 + 7 * 1, 5 + 7 * 2], [1, 1], 2, [], ⟨none, none⟩, some ⟨none, some [1, 2]⟩⟩] true false =
      .ok { r with flux := .fin (f + 7) } := by
  have h := C112_added_templates [⟨[2, 5], [1, 1], 2, [], ⟨none, none⟩, some ⟨none, some [1, 2]⟩⟩] [[1, 2]] true false (by simp) 7
    (by intro o ho s hs
        simp only [List.head?_cons, Option.mem_def, Option.some.injEq] at ho
        subst ho
        simp only [pfSource, if_true, Except.ok.injEq] at hs
        rw [← hs])
    (.cons ⟨⟨_, rfl, rfl⟩, by norm_num, rfl, rfl⟩ .nil) (by norm_num [tPower, pixelsOf, unitTemplate])
  simpa [addSource, unitTemplate] using h

/-- Two galsim fits of one observation each. -/
example (mem0 : KMem) (l : List GSOp) : ∃ mem f mem' f' mem'' f'' x x' y,
    newGSFit toyGal (.simple "exp") none [[toyK 1 0]] [0, 0, 0.1, 0, 1, 2] mem0 = (mem, .ok f) ∧
    newGSFit toyGal (.simple "exp") none [[toyK 4 1]] [0, 0, 0.1, 0, 1, 2] mem0 = (mem', .ok f') ∧
    newGSFit toyGal (.simple "exp") none [[toyK 1 0, toyK 4 1]] [0, 0, 0.1, 0, 1, 2] mem0 = (mem'', .ok f'') ∧
    (gsFdiff toyGal f (gsCalls toyGal f mem l) [0, 0, 0.1, 0, 1, 3]).2 = .ok x ∧
    (gsFdiff toyGal f' (gsCalls toyGal f' mem' l) [0, 0, 0.1, 0, 1, 3]).2 = .ok x' ∧
    (gsFdiff toyGal f'' (gsCalls toyGal f'' mem'' l) [0, 0, 0.1, 0, 1, 3]).2 = .ok y ∧ y.Perm (x ++ x') := by
  have hnew : ∀ w a, ∃ mem' f, newGSFit toyGal (.simple "exp") none [[toyK w a]] [0, 0, 0.1, 0, 1, 2] mem0 = (mem', .ok f) := by
    intro w a
    rw [C80_construct]
    refine ⟨by intro name h; cases h; exact .inl rfl, rfl, ?_⟩
    intro b hb
    have : b = 0 := by simpa using hb
    subst this
    exact ⟨(2 : ℝ), toy_galaxy 2 (by norm_num)⟩
  obtain ⟨mem, f, h⟩ := hnew 1 0
  obtain ⟨mem', f', h'⟩ := hnew 4 1
  obtain ⟨mem'', f'', h''⟩ := toy_new none 1 4 0 1 mem0
  obtain ⟨x, x', y, e1, e2, e3, e4⟩ := (C112_galsim toyGal (.simple "exp") [[toyK 1 0]] [[toyK 4 1]] rfl
    (by simp [OwnMeta, toyK, together]) (by simp [OwnMeta, toyK]) (by simp [OwnMeta, toyK]) (by
      intro k hk
      simp only [List.flatten_cons, List.flatten_nil, List.append_nil, List.mem_append, List.mem_cons, List.not_mem_nil,
        or_false] at hk
      rcases hk with rfl | rfl <;> exact toyK_sized _ _) _ _ _ _ _ _ _ _ _ _ _ _ h h' h'' l l l [0, 0, 0.1, 0, 1, 3] rfl).2
    ⟨_, toy_images 3 (by norm_num) 1 4 0 1⟩
  exact ⟨mem, f, mem', f', mem'', f'', x, x', y, h, h', h'', e1, e2, e3, e4⟩

example : ∃ r r' R f f' F, gpGo (toyGP (1 / 4)) none (.obsList [toyGPObs 2]) = .ok r ∧
    gpGo (toyGP (1 / 4)) none (.obsList [toyGPObs 3]) = .ok r' ∧
    gpGo (toyGP (1 / 4)) none (.obsList [toyGPObs 2, toyGPObs 3]) = .ok R ∧ r.flux = .fin f ∧ r'.flux = .fin f' ∧
    R.flux = .fin F ∧ min f f' ≤ F ∧ F ≤ max f f' := by
  obtain ⟨r, r', R, f, f', F, h1, h2, h3, h4, h5, h6, -, h7, h8⟩ := C112_galsim_flux (toyGP (1 / 4)) none [toyGPObs 2] [toyGPObs 3]
    (fun m h => by cases h) _ _ (.cons ⟨toyGP_template _ 2, by norm_num, rfl, rfl⟩ .nil)
    (.cons ⟨toyGP_template _ 3, by norm_num, rfl, rfl⟩ .nil) _ _ rfl rfl
    (by norm_num [tPower, gpPixels, toyGPObs]) (by norm_num [tPower, gpPixels, toyGPObs])
  exact ⟨r, r', R, f, f', F, h1, h2, h3, h4, h5, h6, h7, h8⟩

end

end Ngmix.Props
