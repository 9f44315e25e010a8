import Verif.Spec.Order
import Verif.Props.FitSetup
import Verif.Props.PSFFlux
import Verif.Props.GalsimFit
import Verif.Props.GalsimFlux

/-!
# The order of the observations (C107)
-/

namespace Ngmix.Props

open Ngmix Ngmix.Spec Ngmix.Proof.PSFFlux

noncomputable section

theorem permZip {α β : Type*} {R : α → β → Prop} {l l' : List α} (h : l.Perm l') : ∀ m, List.Forall₂ R l m →
    ∃ m', List.Forall₂ R l' m' ∧ (l.zip m).Perm (l'.zip m') := by
  induction h with
  | nil => intro m hm; exact ⟨m, hm, .refl _⟩
  | cons a _ ih =>
    intro m hm
    cases hm with
    | cons h1 h2 =>
      obtain ⟨m', h3, h4⟩ := ih _ h2
      exact ⟨_ :: m', .cons h1 h3, by rw [List.zip_cons_cons, List.zip_cons_cons]; exact h4.cons _⟩
  | swap a b l =>
    intro m hm
    cases hm with
    | cons h1 h2 =>
      cases h2 with
      | cons h2 h3 =>
        exact ⟨_ :: _ :: _, .cons h2 (.cons h1 h3), by simp only [List.zip_cons_cons]; exact .swap _ _ _⟩
  | trans _ _ ih1 ih2 =>
    intro m hm
    obtain ⟨m1, h1, h2⟩ := ih1 m hm
    obtain ⟨m2, h3, h4⟩ := ih2 m1 h1
    exact ⟨m2, h3, h2.trans h4⟩

theorem modelPerm (kind : FMKind) (dopsf : Bool) (pars : List ℝ) {obs obs' : List (List Img)} (h : Reordered obs obs') :
    ∀ b D, IsModelFrom kind dopsf pars b obs D → ∃ D', IsModelFrom kind dopsf pars b obs' D' ∧
      (obs.flatten.zip D.flatten).Perm (obs'.flatten.zip D'.flatten) := by
  induction h with
  | nil => intro b D hD; exact ⟨D, hD, .refl _⟩
  | @cons is is' obs obs' h1 _ ih =>
    intro b D hD
    rcases D with _ | ⟨ds, D⟩
    · have := hD.1; simp at this
    · obtain ⟨⟨bp, hb, hf⟩, hr⟩ := (isModelFrom_cons kind dopsf pars b is obs ds D).1 hD
      obtain ⟨D', hD', hp'⟩ := ih (b + 1) D hr
      obtain ⟨ds', hf', hp⟩ := permZip h1 ds hf
      refine ⟨ds' :: D', (isModelFrom_cons kind dopsf pars b is' obs' ds' D').2 ⟨⟨bp, hb, hf'⟩, hD'⟩, ?_⟩
      simp only [List.flatten_cons]
      rw [List.zip_append hf.length_eq, List.zip_append hf'.length_eq]
      exact hp.append hp'

theorem isModel_from (fm : FitModel) (pars : List ℝ) (D : List (List (List Gauss))) :
    IsModel fm pars D ↔ IsModelFrom fm.kind fm.dopsf pars 0 fm.obs D := by
  unfold IsModel IsModelFrom
  simp only [Nat.zero_add]

theorem reordered_symm {obs obs' : List (List Img)} (h : Reordered obs obs') : Reordered obs' obs :=
  List.Forall₂.flip (h.imp fun _ _ p => p.symm)

variable {kind : FMKind} {prior : Option JointPrior} {obs obs' : List (List Img)} {guess guess' : List ℝ}
  {fm fm' : FitModel} {st st' : FMState}

/-- C107.  Two fits of the same observations, in each band in another order, of which both use the psfs or both do not: the
same parameters are in range, whatever the guesses and the history of calls.  When both evaluations return, the log
probability, the sums for the signal to noise and the number of pixels are the same.  Without prior the residuals are the same
numbers in another order. -/
theorem C107_order (h : newFitModel kind prior obs guess = .ok (fm, st))
    (h' : newFitModel kind prior obs' guess' = .ok (fm', st')) (ho : Reordered obs obs') (hd : fm.dopsf = fm'.dopsf)
    (calls calls' : List Call) (pars : List ℝ) (hpars : pars.length = guess.length) :
    ((∃ D, IsModel fm pars D) ↔ ∃ D, IsModel fm' pars D) ∧
    (∀ r r', (calcLnprob fm (runCalls fm st calls) pars).2 = .ok r →
      (calcLnprob fm' (runCalls fm' st' calls') pars).2 = .ok r' → r = r') ∧
    (prior = none → ∀ l l', (calcFdiff fm (runCalls fm st calls) pars).2 = .ok l →
      (calcFdiff fm' (runCalls fm' st' calls') pars).2 = .ok l' → l.Perm l') := by
  obtain ⟨hk, hpr, hob, -, -, hnp, -⟩ := new_shape h
  obtain ⟨hk', hpr', hob', -, -, hnp', -⟩ := new_shape h'
  have hlen : obs.length = obs'.length := ho.length_eq
  have hpars' : pars.length = guess'.length := by
    rw [hlen, hnp', Except.ok.injEq] at hnp
    omega
  have hmodel : ∀ D, IsModel fm pars D → ∃ D', IsModel fm' pars D' ∧ (pairs fm D).Perm (pairs fm' D') := by
    intro D hD
    rw [isModel_from, hk, hob] at hD
    obtain ⟨D', h1, h2⟩ := modelPerm kind fm.dopsf pars ho 0 D hD
    refine ⟨D', by rw [isModel_from, hk', hob', ← hd]; exact h1, ?_⟩
    unfold pairs
    rw [hob, hob']
    exact h2
  have hmodel' : ∀ D, IsModel fm' pars D → ∃ D', IsModel fm pars D' := by
    intro D hD
    rw [isModel_from, hk', hob'] at hD
    obtain ⟨D', h1, -⟩ := modelPerm kind fm'.dopsf pars (reordered_symm ho) 0 D hD
    exact ⟨D', by rw [isModel_from, hk, hob, hd]; exact h1⟩
  have hout := C47_out_of_range kind prior obs guess fm st h calls pars hpars
  have hout' := C47_out_of_range kind prior obs' guess' fm' st' h' calls' pars hpars'
  have hno : ∀ D lnp, IsModel fm pars D → getPriors prior pars = .ok lnp → ∀ r r',
      (calcLnprob fm (runCalls fm st calls) pars).2 = .ok r →
      (calcLnprob fm' (runCalls fm' st' calls') pars).2 = .ok r' → r = r' := by
    intro D lnp hD hlnp r r' hr hr'
    obtain ⟨D', hD', hp⟩ := hmodel D hD
    rw [C47_lnprob kind prior obs guess fm st h calls pars hpars D hD lnp hlnp, Except.ok.injEq] at hr
    rw [C47_lnprob kind prior obs' guess' fm' st' h' calls' pars hpars' D' hD' lnp hlnp, Except.ok.injEq] at hr'
    rw [← hr, ← hr']
    have ht : fm.totpix = fm'.totpix := by
      rw [← residuals_length fm pars D hD, ← residuals_length fm' pars D' hD']
      exact (hp.flatMap_right _).length_eq
    have hs : ∀ f : Img × List Gauss → ℝ, ((pairs fm D).map f).sum = ((pairs fm' D').map f).sum := fun f => (hp.map f).sum_eq
    rw [ht]
    simp only [hs]
  refine ⟨⟨fun ⟨D, hD⟩ => ?_, fun ⟨D, hD⟩ => hmodel' D hD⟩, ?_, ?_⟩
  · obtain ⟨D', h1, -⟩ := hmodel D hD
    exact ⟨D', h1⟩
  · intro r r' hr hr'
    rcases hout.2.1 r hr with ⟨⟨D, hD⟩, lnp, hlnp⟩ | h1
    · exact hno D lnp hD hlnp r r' hr hr'
    · rcases hout'.2.1 r' hr' with ⟨⟨D', hD'⟩, lnp, hlnp⟩ | h2
      · obtain ⟨D, hD⟩ := hmodel' D' hD'
        exact hno D lnp hD hlnp r r' hr hr'
      · rw [h1, h2]
  · rintro rfl l l' hl hl'
    by_cases hex : ∃ D, IsModel fm pars D
    · obtain ⟨D, hD⟩ := hex
      obtain ⟨D', hD', hp⟩ := hmodel D hD
      rw [(C41_no_prior kind obs guess fm st h calls pars hpars D hD).2, Except.ok.injEq] at hl
      rw [(C41_no_prior kind obs' guess' fm' st' h' calls' pars hpars' D' hD').2, Except.ok.injEq] at hl'
      rw [← hl, ← hl']
      exact (hp.flatMap_right _).map _
    · have hsz : fm.fdiffSize = fm'.fdiffSize := by
        have e1 : ∀ (o o' : List (List Img)), Reordered o o' →
            ((o.flatten).map fun i => i.pixels.length).sum = ((o'.flatten).map fun i => i.pixels.length).sum := by
          intro o o' h
          induction h with
          | nil => rfl
          | cons h1 _ ih =>
            simp only [List.flatten_cons, List.map_append, List.sum_append, ih, (h1.map _).sum_eq]
        unfold FitModel.fdiffSize FitModel.totpix
        rw [hk, hk', hpr, hpr', hob, hob', hlen, e1 obs obs' ho]
      rcases hout.1 l hl with ⟨h1, -⟩ | h1
      · exact absurd h1 hex
      rcases hout'.1 l' hl' with ⟨⟨D', hD'⟩, -⟩ | h2
      · exact absurd (hmodel' D' hD') hex
      rw [h1, h2, hsz]

/-- C107, violation.  Whether psfs are used is decided by the first observation of the first band: two observations of which
one has no psf mixture are fitted without any psf in one order, and refused with the exception of the missing psf in the
other. -/
theorem C107_first_decides (a b : List Pixel) :
    (∃ st, newFitModel (.std "gauss") none [[⟨a, .error .attribute⟩, ⟨b, .ok exPsf⟩]] [0, 0, 0, 0, 4, 1] =
      .ok (⟨.std "gauss", none, [[⟨a, .error .attribute⟩, ⟨b, .ok exPsf⟩]], false⟩, st)) ∧
    newFitModel (.std "gauss") none [[⟨b, .ok exPsf⟩, ⟨a, .error .attribute⟩]] [0, 0, 0, 0, 4, 1] = .error .attribute ∧
    Reordered [[⟨a, .error .attribute⟩, ⟨b, .ok exPsf⟩]] [[⟨b, .ok exPsf⟩, ⟨a, .error .attribute⟩]] := by
  have hk : CanFit (.std "gauss") := by simp [CanFit]
  have hf : Feasible (.std "gauss") [0, 0, 0, 0, 4, 1] := by
    simp [Feasible, InDisk]
  refine ⟨?_, ?_, .cons (.swap _ _ _) .nil⟩
  · exact (C92_setup (.std "gauss") hk none ⟨a, .error .attribute⟩ [⟨b, .ok exPsf⟩] [] [0, 0, 0, 0, 4, 1] 0 rfl rfl).2.1 hf
      ⟨_, rfl⟩
  · refine ((C92_setup (.std "gauss") hk none ⟨b, .ok exPsf⟩ [⟨a, .error .attribute⟩] [] [0, 0, 0, 0, 4, 1] 0 rfl rfl).2.2 hf
      ⟨_, rfl⟩).2 .attribute ?_
    simp [psfRefusal, exPsf, gauss2dSet, Flux]

/-! ### Template fluxes -/

theorem outcomeUnique {px px' : List (ℝ × ℝ × ℝ)} (hp : px.Perm px') {n : ℕ} {r r' : PFResult} (h : Outcome px n r)
    (h' : Outcome px' n r') : r = r' := by
  have e1 : tPower px = tPower px' := (hp.map _).sum_eq
  have e2 : tCorr px = tCorr px' := (hp.map _).sum_eq
  have e3 : ∀ f, tChi2 px f = tChi2 px' f := fun f => (hp.map _).sum_eq
  have e4 : tDof px = tDof px' := by
    unfold tDof nPositive
    rw [(hp.filter _).length_eq]
  have hdof : r.dof = r'.dof := by rw [h.dof, h'.dof, e4]
  obtain ⟨f0, c0, d0, x0, y0⟩ := r
  obtain ⟨f1, c1, d1, x1, y1⟩ := r'
  simp only at hdof
  by_cases h0 : tPower px = 0
  · obtain ⟨a1, a2, a3, a4⟩ := h.noPower h0
    obtain ⟨b1, b2, b3, b4⟩ := h'.noPower (by rw [← e1]; exact h0)
    simp only at a1 a2 a3 a4 b1 b2 b3 b4
    rw [a1, a2, a3, a4, b1, b2, b3, b4, hdof]
  · obtain ⟨f, a1, a2, a3, a4, a5, a6⟩ := h.fit h0
    obtain ⟨f', b1, b2, b3, b4, b5, b6⟩ := h'.fit (by rw [← e1]; exact h0)
    have : f = f' := by
      rw [← e1, ← e2, ← a2] at b2
      exact (mul_right_cancel₀ h0 b2).symm
    subst this
    rw [← e1, ← e3] at b5 b6
    rw [← e3, ← e4] at b3
    simp only at a1 a3 a4 a5 a6 b1 b3 b4 b5 b6
    rw [a1, a3, b1, b3, hdof]
    by_cases hn : n = 1
    · rw [(a4 hn).1, (a4 hn).2, (b4 hn).1, (b4 hn).2]
    · by_cases hs : 0 ≤ tChi2 px f / tPower px / ((n : ℝ) - 1)
      · rw [(a5 hn hs).1, (a5 hn hs).2, (b5 hn hs).1, (b5 hn hs).2]
      · rw [(a6 hn (not_le.1 hs)).1, (a6 hn (not_le.1 hs)).2, (b6 hn (not_le.1 hs)).1, (b6 hn (not_le.1 hs)).2]

/-- C107.  Template fluxes with template images do not depend on the order of the observations. -/
theorem C107_templates (obs obs' : List PFObs) (hp : obs.Perm obs') (doPsf nz : Bool) (hne : obs ≠ [])
    (h : ∀ o ∈ obs, ∃ s t, pfSource doPsf o = .ok s ∧ s.gmix = none ∧ s.template = some t ∧ t.sum ≠ 0 ∧
      t.length = o.image.length ∧ o.weight.length = o.image.length) :
    psfFlux obs doPsf nz = psfFlux obs' doPsf nz ∧ ∃ r, psfFlux obs doPsf nz = .ok r := by
  have hts : ∃ ts, List.Forall₂ (fun o (t : List ℝ) => (∃ s, pfSource doPsf o = .ok s ∧ s.template = some t) ∧ t.sum ≠ 0 ∧
      t.length = o.image.length ∧ o.weight.length = o.image.length) obs ts := by
    clear hp hne
    induction obs with
    | nil => exact ⟨[], .nil⟩
    | cons o obs ih =>
      obtain ⟨ts, hts⟩ := ih fun x hx => h x (List.mem_cons_of_mem _ hx)
      obtain ⟨s, t, h1, -, h2, h3, h4, h5⟩ := h o List.mem_cons_self
      exact ⟨t :: ts, .cons ⟨⟨s, h1, h2⟩, h3, h4, h5⟩ hts⟩
  obtain ⟨ts, hts⟩ := hts
  have hfirst : ∀ l : List PFObs, (∀ o ∈ l, o ∈ obs) → ∀ o ∈ l.head?, ∀ s, pfSource doPsf o = .ok s → s.gmix = none := by
    intro l hl o ho s hs
    obtain ⟨s', t, h1, h2, -⟩ := h o (hl o (List.mem_of_mem_head? ho))
    rw [h1, Except.ok.injEq] at hs
    rw [← hs]; exact h2
  obtain ⟨ts', hts', hz⟩ := permZip hp ts hts
  obtain ⟨r, hr, ho⟩ := C46_templates obs ts doPsf nz hne (hfirst obs fun _ => id) hts
  obtain ⟨r', hr', ho'⟩ := C46_templates obs' ts' doPsf nz (by
    rintro rfl; exact hne hp.eq_nil) (hfirst obs' fun o ho => hp.symm.subset ho) hts'
  have hpx : (pixelsOf obs (ts.map (unitTemplate doPsf nz))).Perm (pixelsOf obs' (ts'.map (unitTemplate doPsf nz))) := by
    unfold pixelsOf
    have e : ∀ (a : List PFObs) (b : List (List ℝ)), a.zip (b.map (unitTemplate doPsf nz)) =
        (a.zip b).map fun x => (x.1, unitTemplate doPsf nz x.2) := fun a b => by
      rw [List.zip_map_right]; rfl
    rw [e, e]
    exact (hz.map _).flatMap_right _
  rw [(hp.map PFObs.npixels).sum_eq] at ho
  have := outcomeUnique hpx ho ho'
  rw [hr, hr', this]
  exact ⟨rfl, _, rfl⟩

/-- C107.  Template fluxes with mixtures do not depend on the order of the observations. -/
theorem C107_mixtures (obs obs' : List PFObs) (hp : obs.Perm obs') (doPsf nz : Bool) (hne : obs ≠ [])
    (h : ∀ o ∈ obs, ∃ s g, pfSource doPsf o = .ok s ∧ s.gmix = some g ∧ Renderable g ∧
      o.coords.length = o.image.length ∧ o.weight.length = o.image.length) :
    psfFlux obs doPsf nz = psfFlux obs' doPsf nz ∧ ∃ r, psfFlux obs doPsf nz = .ok r := by
  have hts : ∃ gs, List.Forall₂ (fun o g => (∃ s, pfSource doPsf o = .ok s ∧ s.gmix = some g) ∧ Renderable g ∧
      o.coords.length = o.image.length ∧ o.weight.length = o.image.length) obs gs := by
    clear hp hne
    induction obs with
    | nil => exact ⟨[], .nil⟩
    | cons o obs ih =>
      obtain ⟨ts, hts⟩ := ih fun x hx => h x (List.mem_cons_of_mem _ hx)
      obtain ⟨s, t, h1, h2, h3, h4, h5⟩ := h o List.mem_cons_self
      exact ⟨t :: ts, .cons ⟨⟨s, h1, h2⟩, h3, h4, h5⟩ hts⟩
  obtain ⟨gs, hgs⟩ := hts
  obtain ⟨gs', hgs', hz⟩ := permZip hp gs hgs
  obtain ⟨r, hr, ho⟩ := C46_mixtures obs gs doPsf nz hne hgs
  obtain ⟨r', hr', ho'⟩ := C46_mixtures obs' gs' doPsf nz (by rintro rfl; exact hne hp.eq_nil) hgs'
  have hpx : (pixelsOf obs ((obs.zip gs).map fun og => unitImage doPsf nz og.2 og.1.coords)).Perm
      (pixelsOf obs' ((obs'.zip gs').map fun og => unitImage doPsf nz og.2 og.1.coords)) := by
    unfold pixelsOf
    have e : ∀ (a : List PFObs) (b : List GMixObj), a.length = b.length →
        a.zip ((a.zip b).map fun og => unitImage doPsf nz og.2 og.1.coords) =
        (a.zip b).map fun x => (x.1, unitImage doPsf nz x.2 x.1.coords) := by
      intro a
      induction a with
      | nil => intro b _; rfl
      | cons x a ih =>
        intro b hb
        rcases b with _ | ⟨y, b⟩
        · simp at hb
        · simp only [List.zip_cons_cons, List.map_cons]
          rw [ih b (by simpa using hb)]
    rw [e obs gs hgs.length_eq, e obs' gs' hgs'.length_eq]
    exact (hz.map _).flatMap_right _
  rw [(hp.map PFObs.npixels).sum_eq] at ho
  have := outcomeUnique hpx ho ho'
  rw [hr, hr', this]
  exact ⟨rfl, _, rfl⟩

/-! ### Galsim fits -/

theorem imagesPerm (G : GSLib) (kind : GSKind) (pars : List ℝ) {kobs kobs' : List (List KObs)}
    (h : List.Forall₂ List.Perm kobs kobs') : ∀ b ms, ModelImages G kind pars b kobs ms → ∃ ms',
      ModelImages G kind pars b kobs' ms' ∧ ms.flatten.length = kobs.flatten.length ∧
      (ms.flatten.zip kobs.flatten).Perm (ms'.flatten.zip kobs'.flatten) := by
  induction h with
  | nil => intro b ms hms; obtain rfl : ms = [] := hms; exact ⟨[], rfl, rfl, .refl _⟩
  | @cons ks ks' kobs kobs' h1 _ ih =>
    rintro b _ ⟨m, ms, rfl, hf, hr⟩
    obtain ⟨ms', h2, h4, h3⟩ := ih (b + 1) ms hr
    obtain ⟨m', hf', hp⟩ := permZip h1 m hf
    refine ⟨m' :: ms', ⟨m', ms', rfl, hf', h2⟩, ?_, ?_⟩
    · simp only [List.flatten_cons, List.length_append, h4, hf.length_eq]
    · simp only [List.flatten_cons]
      rw [List.zip_append hf.length_eq.symm, List.zip_append hf'.length_eq.symm]
      refine List.Perm.append ?_ h3
      have e : ∀ (a : List (List ℂ)) (k : List KObs), a.zip k = (k.zip a).map Prod.swap := fun a k => by
        rw [List.zip_swap]
      rw [e, e]
      exact hp.map _

theorem flatten_perm {α : Type*} {a b : List (List α)} (h : List.Forall₂ List.Perm a b) : a.flatten.Perm b.flatten := by
  induction h with
  | nil => exact .refl _
  | cons h1 _ ih => simp only [List.flatten_cons]; exact h1.append ih

/-- C107.  Galsim fits: with the observations of each band in another order the same guesses are accepted, the same
parameters are in range, and without prior the residuals are the same numbers in another order, after any histories. -/
theorem C107_galsim (G : GSLib) (kind : GSKind) (kobs kobs' : List (List KObs)) (ho : List.Forall₂ List.Perm kobs kobs')
    (hm : OwnMeta kobs) (hk : ∀ k ∈ kobs.flatten, KSized k) :
    (∀ prior guess mem, (∃ mem' f, newGSFit G kind prior kobs guess mem = (mem', .ok f)) ↔
      ∃ mem' f, newGSFit G kind prior kobs' guess mem = (mem', .ok f)) ∧
    ∀ guess guess' mem0 mem0' mem mem' f f', newGSFit G kind none kobs guess mem0 = (mem, .ok f) →
      newGSFit G kind none kobs' guess' mem0' = (mem', .ok f') → ∀ l l' pars, pars.length = guess.length →
      ((∃ ms, ModelImages G kind pars 0 kobs ms) ↔ ∃ ms, ModelImages G kind pars 0 kobs' ms) ∧
      ((∃ ms, ModelImages G kind pars 0 kobs ms) → ∃ r r',
        (gsFdiff G f (gsCalls G f mem l) pars).2 = .ok r ∧ (gsFdiff G f' (gsCalls G f' mem' l') pars).2 = .ok r' ∧
        r.Perm r') := by
  have hfl := flatten_perm ho
  have hm' : OwnMeta kobs' := (hfl.map _).nodup_iff.1 hm
  have hk' : ∀ k ∈ kobs'.flatten, KSized k := fun k h => hk k (hfl.symm.subset h)
  have hlen : kobs.length = kobs'.length := ho.length_eq
  have hs : List.Forall₂ List.Perm kobs' kobs := List.Forall₂.flip (ho.imp fun _ _ p => p.symm)
  refine ⟨?_, ?_⟩
  · intro prior guess mem
    rw [C80_construct, C80_construct, hlen]
  · intro guess guess' mem0 mem0' mem mem' f f' h h' l l' pars hp
    have hg := ((C80_construct G kind none kobs guess mem0).1 ⟨_, _, h⟩).2.1
    have hg' := ((C80_construct G kind none kobs' guess' mem0').1 ⟨_, _, h'⟩).2.1
    refine ⟨⟨?_, ?_⟩, ?_⟩
    · rintro ⟨ms, hms⟩
      obtain ⟨ms', h1, -⟩ := imagesPerm G kind pars ho 0 ms hms
      exact ⟨ms', h1⟩
    · rintro ⟨ms, hms⟩
      obtain ⟨ms', h1, -⟩ := imagesPerm G kind pars hs 0 ms hms
      exact ⟨ms', h1⟩
    · rintro ⟨ms, hms⟩
      obtain ⟨ms', h1, -, h2⟩ := imagesPerm G kind pars ho 0 ms hms
      refine ⟨_, _, C80_residuals h hm hk l pars hp ms hms,
        C80_residuals h' hm' hk' l' pars (by rw [hp, hg, hg', hlen]) ms' h1, ?_⟩
      exact (h2.flatMap_right _).map _

theorem mixedUnique {px px' qx qx' : List (ℝ × ℝ × ℝ)} (hp : px.Perm px') (hq : qx.Perm qx') {n : ℕ} {r r' : PFResult}
    (h : MixedOutcome px qx n r) (h' : MixedOutcome px' qx' n r') : r = r' := by
  have e1 : tPower px = tPower px' := (hp.map _).sum_eq
  have e2 : tCorr px = tCorr px' := (hp.map _).sum_eq
  have e3 : ∀ f, tChi2 qx f = tChi2 qx' f := fun f => (hq.map _).sum_eq
  have e4 : tDof px = tDof px' := by
    unfold tDof nPositive
    rw [(hp.filter _).length_eq]
  have hdof : r.dof = r'.dof := by rw [h.dof, h'.dof, e4]
  obtain ⟨f0, c0, d0, x0, y0⟩ := r
  obtain ⟨f1, c1, d1, x1, y1⟩ := r'
  simp only at hdof
  by_cases h0 : tPower px = 0
  · obtain ⟨a1, a2, a3, a4⟩ := h.noPower h0
    obtain ⟨b1, b2, b3, b4⟩ := h'.noPower (by rw [← e1]; exact h0)
    simp only at a1 a2 a3 a4 b1 b2 b3 b4
    rw [a1, a2, a3, a4, b1, b2, b3, b4, hdof]
  · obtain ⟨f, a1, a2, a3, a4, a5, a6⟩ := h.fit h0
    obtain ⟨f', b1, b2, b3, b4, b5, b6⟩ := h'.fit (by rw [← e1]; exact h0)
    have : f = f' := by
      rw [← e1, ← e2, ← a2] at b2
      exact (mul_right_cancel₀ h0 b2).symm
    subst this
    rw [← e1, ← e3] at b5 b6
    rw [← e3, ← e4] at b3
    simp only at a1 a3 a4 a5 a6 b1 b3 b4 b5 b6
    rw [a1, a3, b1, b3, hdof]
    by_cases hn : n = 1
    · rw [(a4 hn).1, (a4 hn).2, (b4 hn).1, (b4 hn).2]
    · by_cases hs : 0 ≤ tChi2 qx f / tPower px / ((n : ℝ) - 1)
      · rw [(a5 hn hs).1, (a5 hn hs).2, (b5 hn hs).1, (b5 hn hs).2]
      · rw [(a6 hn (not_le.1 hs)).1, (a6 hn (not_le.1 hs)).2, (b6 hn (not_le.1 hs)).1, (b6 hn (not_le.1 hs)).2]

/-- C107.  Template fluxes with galsim do not depend on the order of the observations. -/
theorem C107_galsim_flux (L : GPLib) (model : Option L.Obj) (obs obs' : List GPObs) (hp : obs.Perm obs')
    (hmodel : ∀ m, model = some m → ∃ m1, L.unitFlux m = .ok m1) (ts : List (List ℝ))
    (h : List.Forall₂ (fun o t => GPTemplate L model o t ∧ t.sum ≠ 0 ∧ t.length = o.img.data.length ∧
      o.weight.length = o.img.data.length) obs ts) :
    gpGo L model (.obsList obs) = gpGo L model (.obsList obs') ∧ ∃ r, gpGo L model (.obsList obs) = .ok r := by
  obtain ⟨ts', h', hz⟩ := permZip hp ts h
  obtain ⟨r, hr, ho⟩ := C82_flux (L := L) (model := model) (.obsList obs) obs rfl ts hmodel h
  obtain ⟨r', hr', ho'⟩ := C82_flux (L := L) (model := model) (.obsList obs') obs' rfl ts' hmodel h'
  have e : ∀ (a : List GPObs) (b : List (List ℝ)), a.zip (b.map unitSum) =
      (a.zip b).map fun x => (x.1, unitSum x.2) := fun a b => by
    rw [List.zip_map_right]; rfl
  have hq : (gpPixels obs (ts.map unitSum)).Perm (gpPixels obs' (ts'.map unitSum)) := by
    unfold gpPixels
    rw [e, e]
    exact (hz.map _).flatMap_right _
  rw [(hp.map GPObs.npixels).sum_eq] at ho
  rw [hr, hr', mixedUnique (hz.flatMap_right _) hq ho ho']
  exact ⟨rfl, _, rfl⟩

/-! ### Examples -/

/-- Two images of one band in both orders, with psf: the hypotheses of `C107_order` are met. -/
example (a b c : List Pixel) : ∃ st st' D, ∃ fm fm' : FitModel,
    newFitModel (.std "gauss") none [[⟨a, .ok exPsf⟩, ⟨b, .ok exPsf⟩], [⟨c, .ok exPsf⟩]] [0, 0, 0, 0, 4, 1, 1] = .ok (fm, st) ∧
    newFitModel (.std "gauss") none [[⟨b, .ok exPsf⟩, ⟨a, .ok exPsf⟩], [⟨c, .ok exPsf⟩]] [0, 0, 0, 0, 4, 1, 1] = .ok (fm', st') ∧
    Reordered [[⟨a, .ok exPsf⟩, ⟨b, .ok exPsf⟩], [⟨c, .ok exPsf⟩]] [[⟨b, .ok exPsf⟩, ⟨a, .ok exPsf⟩], [⟨c, .ok exPsf⟩]] ∧
    fm.dopsf = fm'.dopsf ∧ IsModel fm [0, 0, 0, 0, 1, 2, 3] D := by
  obtain ⟨st, D, h1, h2⟩ := ex_fit none a b c
  obtain ⟨st', -, h1', -⟩ := ex_fit none b a c
  exact ⟨st, st', D, _, _, h1, h1', .cons (.swap _ _ _) (.cons (.refl _) .nil), rfl, h2⟩

example : psfFlux
    [⟨[2, 4], [1, 1], 2, [], ⟨none, none⟩, some ⟨none, some [1, 2]⟩⟩,
     ⟨[2, 0], [1, 0], 1, [], ⟨none, none⟩, some ⟨none, some [3, 3]⟩⟩] true false =
    psfFlux [⟨[2, 0], [1, 0], 1, [], ⟨none, none⟩, some ⟨none, some [3, 3]⟩⟩,
      ⟨[2, 4], [1, 1], 2, [], ⟨none, none⟩, some ⟨none, some [1, 2]⟩⟩] true false := by
  refine (C107_templates _ _ (.swap _ _ _) true false (by simp) ?_).1
  intro o ho
  simp only [List.mem_cons, List.not_mem_nil, or_false] at ho
  rcases ho with rfl | rfl
  · exact ⟨_, _, rfl, rfl, rfl, by norm_num, rfl, rfl⟩
  · exact ⟨_, _, rfl, rfl, rfl, by norm_num, rfl, rfl⟩

/-- Two observations of different weight in both orders. -/
example (mem0 : KMem) (l l' : List GSOp) : ∃ mem f mem' f' r r',
    newGSFit toyGal (.simple "exp") none [[toyK 1 0, toyK 4 1]] [0, 0, 0.1, 0, 1, 2] mem0 = (mem, .ok f) ∧
    newGSFit toyGal (.simple "exp") none [[toyK 4 1, toyK 1 0]] [0, 0, 0.1, 0, 1, 2] mem0 = (mem', .ok f') ∧
    (gsFdiff toyGal f (gsCalls toyGal f mem l) [0, 0, 0.1, 0, 1, 3]).2 = .ok r ∧
    (gsFdiff toyGal f' (gsCalls toyGal f' mem' l') [0, 0, 0.1, 0, 1, 3]).2 = .ok r' ∧ r.Perm r' := by
  obtain ⟨mem, f, h⟩ := toy_new none 1 4 0 1 mem0
  obtain ⟨mem', f', h'⟩ := toy_new none 4 1 1 0 mem0
  obtain ⟨r, r', h1, h2, h3⟩ := ((C107_galsim toyGal (.simple "exp") [[toyK 1 0, toyK 4 1]] [[toyK 4 1, toyK 1 0]]
    (.cons (.swap _ _ _) .nil) (by simp [OwnMeta, toyK]) (by
      intro k hk
      simp only [List.flatten_cons, List.flatten_nil, List.append_nil, List.mem_cons, List.not_mem_nil, or_false] at hk
      rcases hk with rfl | rfl <;> exact toyK_sized _ _)).2 _ _ _ _ _ _ _ _ h h' l l' [0, 0, 0.1, 0, 1, 3] rfl).2
    ⟨_, toy_images 3 (by norm_num) 1 4 0 1⟩
  exact ⟨mem, f, mem', f', r, r', h, h', h1, h2, h3⟩

example : gpGo (toyGP (1 / 4)) none (.obsList [toyGPObs 2, toyGPObs 3]) =
    gpGo (toyGP (1 / 4)) none (.obsList [toyGPObs 3, toyGPObs 2]) :=
  (C107_galsim_flux (toyGP (1 / 4)) none _ _ (.swap _ _ _) (fun m h => by cases h) _
    (.cons ⟨toyGP_template _ 2, by norm_num, rfl, rfl⟩ (.cons ⟨toyGP_template _ 3, by norm_num, rfl, rfl⟩ .nil))).1

end

end Ngmix.Props
