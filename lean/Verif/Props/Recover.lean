import Verif.Spec.Recover
import Verif.Props.FitImage
import Verif.Props.PSFFlux
import Verif.Props.FastExp
import Verif.Props.GalsimFit

/-!
# Images without noise (C106)
-/

namespace Ngmix.Props

open Ngmix Ngmix.Spec Ngmix.Proof.PSFFlux

noncomputable section

/-! ### Template fluxes -/

theorem templatePixels {F : ℝ} {obs : List PFObs} {ms : List (List ℝ)} (h : TemplateImages F obs ms) :
    ∀ p ∈ pixelsOf obs ms, p.2.1 = F * p.1 := by
  have hz : ∀ (m w : List ℝ), ∀ p ∈ m.zip ((m.map fun x => F * x).zip w), p.2.1 = F * p.1 := by
    intro m
    induction m with
    | nil => intro w p hp; simp at hp
    | cons a m ih =>
      intro w p hp
      cases w with
      | nil => simp at hp
      | cons b w =>
        simp only [List.map_cons, List.zip_cons_cons, List.mem_cons] at hp
        rcases hp with rfl | hp
        · rfl
        · exact ih w p hp
  unfold pixelsOf
  induction h with
  | nil => intro p hp; simp at hp
  | @cons o m os ms h _ ih =>
    intro p hp
    rw [List.zip_cons_cons, List.flatMap_cons, List.mem_append] at hp
    rcases hp with hp | hp
    · rw [h] at hp; exact hz m o.weight p hp
    · exact ih p hp

theorem outcomeRecovers {px : List (ℝ × ℝ × ℝ)} {totpix : ℕ} {r : PFResult} (h : Outcome px totpix r) {F : ℝ}
    (hF : ∀ p ∈ px, p.2.1 = F * p.1) (h0 : tPower px ≠ 0) (h1 : totpix ≠ 1) :
    r.flags = 0 ∧ r.flux = .fin F ∧ r.fluxErr = .fin 0 ∧ r.chi2per = .fin 0 := by
  have hc : tCorr px = F * tPower px := by
    unfold tCorr tPower
    rw [← List.sum_map_mul_left]
    congr 1
    refine List.map_congr_left fun p hp => ?_
    rw [hF p hp]; ring
  have hx : tChi2 px F = 0 := by
    unfold tChi2
    refine List.sum_eq_zero fun x hx => ?_
    obtain ⟨p, hp, rfl⟩ := List.mem_map.1 hx
    rw [hF p hp]; ring
  obtain ⟨f, a1, a2, a3, -, a5, -⟩ := h.fit h0
  have : f = F := by
    rw [hc] at a2
    exact mul_right_cancel₀ h0 a2
  subst this
  rw [hx] at a3 a5
  obtain ⟨b1, b2⟩ := a5 h1 (by simp)
  exact ⟨b1, a1, by rw [b2]; simp, by rw [a3]; simp⟩

/-- C106.  Template flux fits with template images: if the images are the normalised templates at the flux `F`, whatever the
weights, the flux found is `F`, with error and chi squared zero and no flag, as long as the weighted power of the templates is
not zero and there is more than one pixel. -/
theorem C106_templates (obs : List PFObs) (ts : List (List ℝ)) (doPsf nz : Bool) (hne : obs ≠ []) (F : ℝ)
    (hfirst : ∀ o ∈ obs.head?, ∀ s, pfSource doPsf o = .ok s → s.gmix = none)
    (h : List.Forall₂ (fun o (t : List ℝ) => (∃ s, pfSource doPsf o = .ok s ∧ s.template = some t) ∧ t.sum ≠ 0 ∧
      t.length = o.image.length ∧ o.weight.length = o.image.length) obs ts)
    (hF : TemplateImages F obs (ts.map (unitTemplate doPsf nz)))
    (h0 : tPower (pixelsOf obs (ts.map (unitTemplate doPsf nz))) ≠ 0) (h1 : (obs.map PFObs.npixels).sum ≠ 1) :
    ∃ r, psfFlux obs doPsf nz = .ok r ∧ r.flags = 0 ∧ r.flux = .fin F ∧ r.fluxErr = .fin 0 ∧ r.chi2per = .fin 0 := by
  obtain ⟨r, hr, ho⟩ := C46_templates obs ts doPsf nz hne hfirst h
  exact ⟨r, hr, outcomeRecovers ho (templatePixels hF) h0 h1⟩

/-- C106.  Template flux fits with mixtures: the same, if the images are those `make_image` draws of the normalised mixtures,
at the flux `F`. -/
theorem C106_mixtures (obs : List PFObs) (gs : List GMixObj) (doPsf nz : Bool) (hne : obs ≠ []) (F : ℝ)
    (h : List.Forall₂ (fun o g => (∃ s, pfSource doPsf o = .ok s ∧ s.gmix = some g) ∧ Renderable g ∧
      o.coords.length = o.image.length ∧ o.weight.length = o.image.length) obs gs)
    (hF : TemplateImages F obs ((obs.zip gs).map fun og => unitImage doPsf nz og.2 og.1.coords))
    (h0 : tPower (pixelsOf obs ((obs.zip gs).map fun og => unitImage doPsf nz og.2 og.1.coords)) ≠ 0)
    (h1 : (obs.map PFObs.npixels).sum ≠ 1) :
    ∃ r, psfFlux obs doPsf nz = .ok r ∧ r.flags = 0 ∧ r.flux = .fin F ∧ r.fluxErr = .fin 0 ∧ r.chi2per = .fin 0 := by
  obtain ⟨r, hr, ho⟩ := C46_mixtures obs gs doPsf nz hne h
  exact ⟨r, hr, outcomeRecovers ho (templatePixels hF) h0 h1⟩

/-! ### Model fits -/

theorem loglikeLoop_nonpos (gm : List Gauss) (px : List Pixel) (d : List Gauss) (L : LogLike)
    (h : getLoglike gm px = (d, .ok L)) : L.loglike ≤ 0 := by
  obtain ⟨out, -, -, h2, -⟩ := (C27_loglike gm px 0 (List.replicate px.length 0) (by simp)).2 d L h
  exact h2

theorem loglikeBand_nonpos : ∀ (is : List Img) (gs gs' : List (GMixObj × GMixObj)) (a r : LogLike), a.loglike ≤ 0 →
    loglikeBand is gs a = (gs', .ok r) → r.loglike ≤ 0
  | [], gs, gs', a, r, ha, h => by
    unfold loglikeBand at h
    simp only [Prod.mk.injEq, Except.ok.injEq] at h
    rw [← h.2]; exact ha
  | _ :: _, [], gs', a, r, ha, h => by
    unfold loglikeBand at h
    simp only [Prod.mk.injEq, Except.ok.injEq] at h
    rw [← h.2]; exact ha
  | i :: is, g :: gs, gs', a, r, ha, h => by
    unfold loglikeBand at h
    rcases hg : getLoglike g.2.data i.pixels with ⟨d, e | L⟩
    · rw [hg] at h; simp at h
    · rw [hg] at h
      simp only at h
      rcases hb : loglikeBand is gs ⟨a.loglike + L.loglike, a.numer + L.numer, a.denom + L.denom, a.npix + L.npix⟩ with ⟨q, s⟩
      rw [hb] at h
      simp only [Prod.mk.injEq] at h
      rw [h.2] at hb
      refine loglikeBand_nonpos is gs q _ r ?_ hb
      have := loglikeLoop_nonpos _ _ _ _ hg
      simp only
      linarith

theorem loglikeAll_nonpos : ∀ (obs : List (List Img)) (st st' : FMState) (a r : LogLike), a.loglike ≤ 0 →
    loglikeAll obs st a = (st', .ok r) → r.loglike ≤ 0
  | [], st, st', a, r, ha, h => by
    unfold loglikeAll at h
    simp only [Prod.mk.injEq, Except.ok.injEq] at h
    rw [← h.2]; exact ha
  | _ :: _, [], st', a, r, ha, h => by
    unfold loglikeAll at h
    simp only [Prod.mk.injEq, Except.ok.injEq] at h
    rw [← h.2]; exact ha
  | is :: obs, gs :: st, st', a, r, ha, h => by
    unfold loglikeAll at h
    rcases hg : loglikeBand is gs a with ⟨d, e | L⟩
    · rw [hg] at h; simp at h
    · rw [hg] at h
      simp only at h
      rcases hb : loglikeAll obs st L with ⟨q, s⟩
      rw [hb] at h
      simp only [Prod.mk.injEq] at h
      rw [h.2] at hb
      exact loglikeAll_nonpos obs st q _ r (loglikeBand_nonpos is gs d a L ha hg) hb

theorem lnprob_nonpos (kind : FMKind) (obs : List (List Img)) (dopsf : Bool) (st : FMState) (pars : List ℝ) (r : LnprobRes)
    (h : (calcLnprob ⟨kind, none, obs, dopsf⟩ st pars).2 = .ok r) : NotAbove r.lnprob 0 := by
  unfold calcLnprob at h
  rcases ht : calcLnprobTry ⟨kind, none, obs, dopsf⟩ st pars with ⟨st', e | q⟩
  · rw [ht] at h
    cases e
    case gmixRange =>
      simp only [Except.ok.injEq] at h
      rw [← h]; exact Or.inl rfl
    all_goals simp at h
  · rw [ht] at h
    simp only [Except.ok.injEq] at h
    subst h
    unfold calcLnprobTry at ht
    simp only [getPriors] at ht
    rcases hf : fillAll kind dopsf pars 0 obs st with ⟨st1, e | _⟩
    · rw [hf] at ht; simp at ht
    rw [hf] at ht
    simp only at ht
    rcases hl : loglikeAll obs st1 ⟨0, 0, 0, 0⟩ with ⟨st2, e | a⟩
    · rw [hl] at ht; simp at ht
    rw [hl] at ht
    simp only [Prod.mk.injEq, Except.ok.injEq] at ht
    rw [← ht.2]
    exact Or.inr ⟨a.loglike, loglikeAll_nonpos obs st1 st2 _ a le_rfl hl, by simp [Fl.fin_add]⟩

/-- C106.  A model fit without prior of images without noise: at the true parameters all residuals are zero, the log
probability is zero, and it is not above zero at any other parameters, after any history of calls.  The true parameters are a
best fit. -/
theorem C106_fit (kind : FMKind) (obs : List (List Img)) (guess : List ℝ) (fm : FitModel) (st : FMState)
    (h : newFitModel kind none obs guess = .ok (fm, st)) (calls : List Call) (pars : List ℝ)
    (hpars : pars.length = guess.length) (D : List (List (List Gauss))) (hD : IsModel fm pars D) (hn : NoiseFree fm D) :
    (calcFdiff fm (runCalls fm st calls) pars).2 = .ok (List.replicate fm.totpix (.fin 0)) ∧
    (∃ r, (calcLnprob fm (runCalls fm st calls) pars).2 = .ok r ∧ r.lnprob = .fin 0) ∧
    ∀ other r, (calcLnprob fm (runCalls fm st calls) other).2 = .ok r → NotAbove r.lnprob 0 := by
  have hres : ∀ x ∈ pairs fm D, ∀ px ∈ x.1.pixels, (gmixEvalFast x.2 px.v px.u px.area - px.val) * px.ierr = 0 := by
    intro x hx px hpx
    rw [hn x hx px hpx, sub_self, zero_mul]
  have hf := (C41_no_prior kind obs guess fm st h calls pars hpars D hD).2
  refine ⟨?_, ?_, ?_⟩
  · have hz : ∀ y ∈ residuals fm D, y = 0 := by
      intro y hy
      obtain ⟨x, hx, hy⟩ := List.mem_flatMap.1 hy
      obtain ⟨px, hpx, rfl⟩ := List.mem_map.1 hy
      exact hres x hx px hpx
    rw [hf, ← residuals_length fm pars D hD, ← List.map_const', Except.ok.injEq]
    exact List.map_congr_left fun y hy => by rw [hz y hy]
  · have hl := C47_lnprob kind none obs guess fm st h calls pars hpars D hD (.fin 0) rfl
    refine ⟨_, hl, ?_⟩
    simp only [Fl.fin_add, add_zero, Fl.fin.injEq]
    refine List.sum_eq_zero fun y hy => ?_
    obtain ⟨x, hx, rfl⟩ := List.mem_map.1 hy
    have : (x.1.pixels.map fun px => ((gmixEvalFast x.2 px.v px.u px.area - px.val) * px.ierr) ^ 2).sum = 0 := by
      refine List.sum_eq_zero fun y hy => ?_
      obtain ⟨px, hpx, rfl⟩ := List.mem_map.1 hy
      rw [hres x hx px hpx]; norm_num
    rw [this, mul_zero]
  · intro other r hr
    obtain ⟨kind', prior', obs', dopsf'⟩ := fm
    obtain ⟨-, hp, -⟩ := new_shape h
    simp only at hp
    subst hp
    exact lnprob_nonpos kind' obs' dopsf' _ other r hr

/-- C106.  With a prior the log probability at the true parameters is that of the prior. -/
theorem C106_prior (kind : FMKind) (prior : Option JointPrior) (obs : List (List Img)) (guess : List ℝ) (fm : FitModel)
    (st : FMState) (h : newFitModel kind prior obs guess = .ok (fm, st)) (calls : List Call) (pars : List ℝ)
    (hpars : pars.length = guess.length) (D : List (List (List Gauss))) (hD : IsModel fm pars D) (hn : NoiseFree fm D)
    (lnp : Fl) (hp : getPriors prior pars = .ok lnp) :
    ∃ r, (calcLnprob fm (runCalls fm st calls) pars).2 = .ok r ∧ r.lnprob = .fin 0 + lnp := by
  have hl := C47_lnprob kind prior obs guess fm st h calls pars hpars D hD lnp hp
  refine ⟨_, hl, ?_⟩
  simp only
  congr 2
  refine List.sum_eq_zero fun y hy => ?_
  obtain ⟨x, hx, rfl⟩ := List.mem_map.1 hy
  have : (x.1.pixels.map fun px => ((gmixEvalFast x.2 px.v px.u px.area - px.val) * px.ierr) ^ 2).sum = 0 := by
    refine List.sum_eq_zero fun y hy => ?_
    obtain ⟨px, hpx, rfl⟩ := List.mem_map.1 hy
    rw [hn x hx px hpx, sub_self, zero_mul]; norm_num
  rw [this, mul_zero]

/-! ### Images drawn with the exact exponential -/

theorem exp_cut : Real.exp (-12.5) ≤ 4e-5 := by
  have h1 : (2.7 : ℝ) < Real.exp 1 := by have := Real.exp_one_gt_d9; linarith
  have h2 : (2.7 : ℝ) ^ 12 ≤ Real.exp 12.5 := by
    calc (2.7 : ℝ) ^ 12 ≤ Real.exp 1 ^ 12 := pow_le_pow_left₀ (by norm_num) h1.le 12
      _ = Real.exp 12 := by rw [← Real.exp_nat_mul]; norm_num
      _ ≤ _ := Real.exp_le_exp.2 (by norm_num)
  rw [Real.exp_neg, inv_le_comm₀ (Real.exp_pos _) (by norm_num)]
  refine le_trans ?_ h2
  norm_num

theorem gaussClose (g : Gauss) (h : NormsCurrent g) (hT : 0 < g.irr + g.icc) (v u area y : ℝ) (ha : 0 ≤ area)
    (hy : gaussEval g v u area = some y) : |gaussEvalFast g v u area - y| ≤
      4e-5 * (|g.p| / (2 * Real.pi * Real.sqrt (g.irr * g.icc - g.irc * g.irc))) * area := by
  obtain ⟨d, hd, hdet, h1, h2, h3, h4, h5⟩ := id h
  obtain ⟨-, c1, -⟩ := C21_chi2 g d hd h hT v u
  have hpn : |d.pnorm| = |g.p| / (2 * Real.pi * Real.sqrt (g.irr * g.icc - g.irc * g.irc)) := by
    rw [h5, abs_div]
    congr 1
    refine abs_of_nonneg ?_
    have := Real.pi_pos
    positivity
  rw [← hpn]
  have hy' : y = d.pnorm * Real.exp (-0.5 * gaussChi2 g d v u) * area := by
    unfold gaussEval at hy
    rw [hd] at hy
    simpa using hy.symm
  have he : Real.exp (-0.5 * gaussChi2 g d v u) ≤ 1 := Real.exp_le_one_iff.2 (by linarith)
  unfold gaussEvalFast
  rw [hd]
  simp only
  rw [hy']
  have key : ∀ f : ℝ, |f - Real.exp (-0.5 * gaussChi2 g d v u)| ≤ 4e-5 →
      |d.pnorm * f * area - d.pnorm * Real.exp (-0.5 * gaussChi2 g d v u) * area| ≤ 4e-5 * |d.pnorm| * area := by
    intro f hf
    rw [show d.pnorm * f * area - d.pnorm * Real.exp (-0.5 * gaussChi2 g d v u) * area =
      d.pnorm * (f - Real.exp (-0.5 * gaussChi2 g d v u)) * area by ring, abs_mul, abs_mul, abs_of_nonneg ha,
      mul_comm (4e-5 : ℝ)]
    exact mul_le_mul_of_nonneg_right (mul_le_mul_of_nonneg_left hf (abs_nonneg _)) ha
  by_cases hc : gaussChi2 g d v u < fastexpMaxChi2 ∧ gaussChi2 g d v u ≥ 0
  · rw [if_pos hc]
    obtain ⟨z, -, hz, hb⟩ := C26_exp5 (-0.5 * gaussChi2 g d v u)
      (by have := hc.1; norm_num [fastexpMaxChi2] at this ⊢; linarith) (by linarith)
    rw [hz]
    refine key z (hb.trans ?_)
    nlinarith
  · rw [if_neg hc]
    have hbig : 25 ≤ gaussChi2 g d v u := by
      by_contra hlt
      exact hc ⟨by norm_num [fastexpMaxChi2]; linarith, c1⟩
    have := key 0 (by
      rw [zero_sub, abs_neg, abs_of_pos (Real.exp_pos _)]
      refine le_trans (Real.exp_le_exp.2 ?_) exp_cut
      linarith)
    simpa using this

theorem mixClose (gm : List Gauss) (h : ∀ g ∈ gm, NormsCurrent g ∧ 0 < g.irr + g.icc) (v u area : ℝ) (ha : 0 ≤ area) :
    ∀ (s t y : ℝ), gm.foldl (fun acc g => acc.bind fun a => (gaussEval g v u area).map fun b => a + b) (some t) = some y →
      |gm.foldl (fun acc g => acc + gaussEvalFast g v u area) s - y| ≤ |s - t| + 4e-5 * centralSum gm * area := by
  induction gm with
  | nil =>
    intro s t y hy
    simp only [List.foldl_nil, Option.some.injEq] at hy
    subst hy
    simp [centralSum]
  | cons g gm ih =>
    intro s t y hy
    obtain ⟨h1, h2⟩ := h g List.mem_cons_self
    rw [List.foldl_cons] at hy
    obtain ⟨d, hd, -⟩ := id h1
    obtain ⟨z, hz⟩ : ∃ z, gaussEval g v u area = some z := by unfold gaussEval; rw [hd]; exact ⟨_, rfl⟩
    rw [hz] at hy
    have hi := ih (fun x hx => h x (List.mem_cons_of_mem _ hx)) (s + gaussEvalFast g v u area) (t + z) y hy
    have hg := gaussClose g h1 h2 v u area z ha hz
    rw [List.foldl_cons]
    refine hi.trans ?_
    have : |s + gaussEvalFast g v u area - (t + z)| ≤ |s - t| + |gaussEvalFast g v u area - z| := by
      rw [show s + gaussEvalFast g v u area - (t + z) = (s - t) + (gaussEvalFast g v u area - z) by ring]
      exact abs_add_le _ _
    simp only [centralSum, List.map_cons, List.sum_cons] at *
    linarith

/-- The gaussians of the mixtures of a fit have current norms and positive sizes. -/
theorem model_current {kind : FMKind} {prior : Option JointPrior} {obs : List (List Img)} {guess : List ℝ} {fm : FitModel}
    {st : FMState} (h : newFitModel kind prior obs guess = .ok (fm, st)) (bp : List ℝ)
    (hl : bp.length = bandN kind) (i : Img) (d : List Gauss)
    (hd : modelFor kind fm.dopsf bp i = .ok d) : ∀ g ∈ d, NormsCurrent g ∧ 0 < g.irr + g.icc := by
  obtain ⟨-, -, -, -, -, -, ⟨gk, ng, hF, -⟩, -⟩ := new_shape h
  have key : ∀ q, (∀ g ∈ q, DetCurrent g ∧ g.normSet = false) → ready q = .ok d → ∀ g ∈ d, NormsCurrent g ∧ 0 < g.irr + g.icc := by
    intro q hq hr
    have hs := ready_set hr
    rcases q with _ | ⟨a, q⟩
    · simp only [setNormsIfNeeded, Prod.mk.injEq, and_true] at hs
      subst hs; simp
    · have h0 : ¬ a.normSet = true := by rw [(hq a List.mem_cons_self).2]; simp
      unfold setNormsIfNeeded at hs
      simp only at hs
      rw [if_neg h0] at hs
      have hdc : ∀ g ∈ a :: q, DetCurrent g := fun g hg => (hq g hg).1
      have hok : (gmixSetNorms (a :: q)).2 = .ok () := by rw [hs]
      have hu := setNorms_ok_usable (a :: q) hdc hok
      obtain ⟨-, hf⟩ := (C20_set_norms (a :: q) hdc).1 hu
      rw [hs] at hf
      intro g hg
      obtain ⟨n, hn, rfl⟩ := List.getElem_of_mem hg
      have hn' : n < (a :: q).length := by rw [hf.length_eq]; exact hn
      obtain ⟨⟨q1, q2, q3, q4, q5, q6⟩, -, h3, -⟩ := (List.forall₂_iff_get.mp hf).2 n hn' hn
      simp only [List.get_eq_getElem] at *
      refine ⟨h3, ?_⟩
      rw [← q4, ← q6]
      exact lt_trans lowDet_pos (hu _ (List.getElem_mem hn')).2
  have hmake : ∀ o, makeGmixModel bp kind.arg = .ok o → ∀ g ∈ o.data, DetCurrent g ∧ g.normSet = false := by
    intro o ho
    rw [hF bp hl] at ho
    obtain ⟨d, hd, rfl⟩ := exMap_ok ho
    exact fillFunc_fresh gk bp d hd
  unfold modelFor at hd
  split_ifs at hd
  · obtain ⟨q, hq, hd⟩ := exBind_ok hd
    obtain ⟨o, ho, hd⟩ := exBind_ok hd
    obtain ⟨cv, hcv, hd⟩ := exBind_ok hd
    refine key cv ?_ hd
    unfold gmixConvolve at hcv
    obtain ⟨c, -, rfl⟩ := exMap_ok hcv
    intro g hg
    obtain ⟨a, -, hg⟩ := List.mem_flatMap.1 hg
    obtain ⟨b, -, rfl⟩ := List.mem_map.1 hg
    exact ⟨rfl, rfl⟩
  · obtain ⟨o, ho, hd⟩ := exBind_ok hd
    exact key _ (hmake o ho) hd

theorem forall₂_flatten {α β : Type*} {R : α → β → Prop} {l : List (List α)} {m : List (List β)}
    (h : List.Forall₂ (List.Forall₂ R) l m) : List.Forall₂ R l.flatten m.flatten := by
  induction h with
  | nil => exact .nil
  | cons h _ ih => rw [List.flatten_cons, List.flatten_cons]; exact List.rel_append h ih

theorem forall₂_zip {α β : Type*} {R : α → β → Prop} {l : List α} {m : List β} (h : List.Forall₂ R l m) :
    ∀ x ∈ l.zip m, R x.1 x.2 := by
  induction h with
  | nil => intro x hx; simp at hx
  | cons h _ ih =>
    intro x hx
    rw [List.zip_cons_cons, List.mem_cons] at hx
    rcases hx with rfl | hx
    · exact h
    · exact ih x hx

theorem pairs_current {kind : FMKind} {prior : Option JointPrior} {obs : List (List Img)} {guess : List ℝ} {fm : FitModel}
    {st : FMState} (h : newFitModel kind prior obs guess = .ok (fm, st)) {pars : List ℝ} (hpars : pars.length = guess.length)
    {D : List (List (List Gauss))} (hD : IsModel fm pars D) :
    ∀ x ∈ pairs fm D, ∀ g ∈ x.2, NormsCurrent g ∧ 0 < g.irr + g.icc := by
  obtain ⟨hk, -, -, -, -, hnp, -⟩ := new_shape h
  obtain ⟨hl, hall⟩ := hD
  unfold pairs
  refine forall₂_zip (R := fun _ d => ∀ g ∈ d, NormsCurrent g ∧ 0 < g.irr + g.icc) (forall₂_flatten ?_)
  rw [List.forall₂_iff_get]
  refine ⟨hl.symm, fun n h1 h2 => ?_⟩
  obtain ⟨bp, hb, hm⟩ := hall n _ _ (List.getElem?_eq_getElem h1) (List.getElem?_eq_getElem h2)
  rw [hk] at hb hm
  have hbl : bp.length = bandN kind := bandPars_length hb (by
    rintro k rfl
    rw [hpars]
    simp only [FMKind.npars, Except.ok.injEq] at hnp
    omega)
  exact hm.imp fun i d hd => model_current h bp hbl i d hd

/-- C106.  If the images are instead drawn by `make_image`, with the exact exponential, every residual at the true parameters
is at most 4e-5 times the sum of the central brightnesses of the gaussians of the mixture, times pixel area and inverse error;
the log probability without prior is at least minus half the sum of their squares. -/
theorem C106_drawn (kind : FMKind) (obs : List (List Img)) (guess : List ℝ) (fm : FitModel) (st : FMState)
    (h : newFitModel kind none obs guess = .ok (fm, st)) (calls : List Call) (pars : List ℝ)
    (hpars : pars.length = guess.length) (D : List (List (List Gauss))) (hD : IsModel fm pars D) (hn : DrawnExactly fm D)
    (ha : ∀ x ∈ pairs fm D, ∀ px ∈ x.1.pixels, 0 ≤ px.area) :
    (∃ res : List ℝ, (calcFdiff fm (runCalls fm st calls) pars).2 = .ok (res.map Fl.fin) ∧
      List.Forall₂ (fun y b => |y| ≤ b) res
        ((pairs fm D).flatMap fun x => x.1.pixels.map fun px => 4e-5 * centralSum x.2 * px.area * |px.ierr|)) ∧
    ∃ r L, (calcLnprob fm (runCalls fm st calls) pars).2 = .ok r ∧ r.lnprob = .fin L ∧
      -(1 / 2) * ((pairs fm D).map fun x => (x.1.pixels.map fun px =>
        (4e-5 * centralSum x.2 * px.area * |px.ierr|) ^ 2).sum).sum ≤ L := by
  have hres : ∀ x ∈ pairs fm D, ∀ px ∈ x.1.pixels,
      |(gmixEvalFast x.2 px.v px.u px.area - px.val) * px.ierr| ≤ 4e-5 * centralSum x.2 * px.area * |px.ierr| := by
    intro x hx px hpx
    have := mixClose x.2 (pairs_current h hpars hD x hx) px.v px.u px.area (ha x hx px hpx) 0 0 px.val (hn x hx px hpx)
    rw [sub_self, abs_zero, zero_add] at this
    rw [abs_mul]
    exact mul_le_mul_of_nonneg_right this (abs_nonneg _)
  constructor
  · refine ⟨residuals fm D, (C41_no_prior kind obs guess fm st h calls pars hpars D hD).2, ?_⟩
    unfold residuals
    clear hn ha hD
    generalize pairs fm D = l at hres
    induction l with
    | nil => exact .nil
    | cons x l ih =>
      rw [List.flatMap_cons, List.flatMap_cons]
      refine List.rel_append ?_ (ih fun y hy => hres y (List.mem_cons_of_mem _ hy))
      rw [List.forall₂_map_left_iff, List.forall₂_map_right_iff, List.forall₂_same]
      exact hres x List.mem_cons_self
  · have hl := C47_lnprob kind none obs guess fm st h calls pars hpars D hD (.fin 0) rfl
    refine ⟨_, _, hl, by simp only [Fl.fin_add, add_zero]; rfl, ?_⟩
    rw [← List.sum_map_mul_left]
    refine List.sum_le_sum fun x hx => ?_
    have : (x.1.pixels.map fun px => ((gmixEvalFast x.2 px.v px.u px.area - px.val) * px.ierr) ^ 2).sum ≤
        (x.1.pixels.map fun px => (4e-5 * centralSum x.2 * px.area * |px.ierr|) ^ 2).sum := by
      refine List.sum_le_sum fun px hpx => ?_
      rw [← sq_abs]
      exact pow_le_pow_left₀ (abs_nonneg _) (hres x hx px hpx) 2
    linarith

/-! ### Fits with galsim -/

theorem kResid_self (k : KObs) : ∀ y ∈ kResid k.kimage.data k, y = 0 := by
  have hz : ∀ (m : List ℂ) (w : List ℝ), ∀ x ∈ m.zip (m.zip w), x.1 = x.2.1 := by
    intro m
    induction m with
    | nil => intro w x hx; simp at hx
    | cons a m ih =>
      intro w x hx
      cases w with
      | nil => simp at hx
      | cons b w =>
        simp only [List.zip_cons_cons, List.mem_cons] at hx
        rcases hx with rfl | hx
        · rfl
        · exact ih w x hx
  intro y hy
  unfold kResid at hy
  rw [List.mem_append] at hy
  rcases hy with hy | hy <;>
  · obtain ⟨x, hx, rfl⟩ := List.mem_map.1 hy
    rw [hz _ _ x hx, sub_self, zero_mul]

/-- C106.  Galsim fits without prior: if the k images are those of the model at the true parameters, all residuals there, two
for each mode, are zero, after any history of calls. -/
theorem C106_galsim {G : GSLib} {kind : GSKind} {kobs : List (List KObs)} {guess : List ℝ} {mem0 mem : KMem} {f : GSFit}
    (hnew : newGSFit G kind none kobs guess mem0 = (mem, .ok f)) (ho : OwnMeta kobs)
    (hk : ∀ k ∈ kobs.flatten, KSized k) (l : List GSOp) (pars : List ℝ) (hlen : pars.length = guess.length)
    (hm : ModelImages G kind pars 0 kobs (kobs.map fun ks => ks.map fun k => k.kimage.data)) :
    (gsFdiff G f (gsCalls G f mem l) pars).2 =
      .ok (List.replicate (kobs.flatten.map fun k => 2 * k.kimage.grid.size).sum (.fin 0)) := by
  have h := C80_residuals hnew ho hk l pars hlen _ hm
  have hn : ∀ ks : List KObs, (∀ k ∈ ks, KSized k) → (kResids (ks.map fun k => k.kimage.data) ks).length =
      (ks.map fun k => 2 * k.kimage.grid.size).sum := by
    intro ks
    induction ks with
    | nil => intro _; rfl
    | cons k ks ih =>
      intro hks
      have h1 := hks k List.mem_cons_self
      have := ih fun x hx => hks x (List.mem_cons_of_mem _ hx)
      unfold kResids at this ⊢
      rw [List.map_cons, List.zip_cons_cons, List.flatMap_cons, List.length_append, this, List.map_cons, List.sum_cons]
      unfold kResid
      simp only [List.length_append, List.length_map, List.length_zip, h1.image, h1.weight, min_self]
      omega
  rw [h, ← hn _ hk, List.map_flatten (f := fun k : KObs => k.kimage.data), ← List.map_const', Except.ok.injEq]
  refine List.map_congr_left fun y hy => ?_
  unfold kResids at hy
  obtain ⟨x, hx, hy⟩ := List.mem_flatMap.1 hy
  have hf : (kobs.map fun ks => ks.map fun k => k.kimage.data).flatten = kobs.flatten.map fun k => k.kimage.data :=
    List.map_flatten.symm
  rw [hf] at hx
  have hx1 : x.1 = x.2.kimage.data := by
    refine forall₂_zip (R := fun (a : List ℂ) (k : KObs) => a = k.kimage.data) ?_ x hx
    rw [List.forall₂_map_left_iff, List.forall₂_same]
    exact fun _ _ => rfl
  rw [hx1] at hy
  rw [kResid_self x.2 y hy]

/-! ### Examples -/

/-- A gaussian galaxy behind a psf, any pixels: images without noise, and drawn images, exist, and the hypotheses are met. -/
theorem ex_noise_free (place : List Pixel) (val : List Gauss → Pixel → ℝ) : ∃ D fm st,
    newFitModel (.std "gauss") none [[⟨place.map fun p => { p with val := val D p }, .ok exPsf⟩]] [0, 0, 0, 0, 4, 1] =
      .ok (fm, st) ∧ IsModel fm [0, 0, 0, 0, 4, 1] [[D]] ∧
    pairs fm [[D]] = [(⟨place.map fun p => { p with val := val D p }, .ok exPsf⟩, D)] := by
  obtain ⟨D, hD⟩ := ex_ready 4 1 (by norm_num)
  set pix := place.map fun p => { p with val := val D p }
  have hone : ∃ g, initOne (.std "gauss") true [0, 0, 0, 0, 4, 1] ⟨pix, .ok exPsf⟩ = .ok g := by
    unfold initOne
    simp only [FMKind.arg, ex_make, Except.bind, if_true, convolveObj, ex_convolve, Except.map]
    exact ⟨_, rfl⟩
  obtain ⟨g, hg⟩ := hone
  have hnew := ex_new [] [g] ⟨pix, .ok exPsf⟩ true rfl (by simp only [initBand, hg, Except.bind, Except.map])
  refine ⟨D, _, _, hnew, ⟨rfl, ?_⟩, rfl⟩
  intro k is ds hk hk'
  match k, hk, hk' with
  | 0, hk, hk' =>
    simp only [List.getElem?_cons_zero, Option.some.injEq] at hk hk'
    subst hk; subst hk'
    refine ⟨_, ex_band, .cons ?_ .nil⟩
    unfold modelFor
    simp only [FMKind.arg, ex_make, Except.bind, if_true, ex_convolve]
    exact hD
  | k + 1, hk, hk' => simp at hk

example (place : List Pixel) : ∃ D fm st obs, newFitModel (.std "gauss") none obs [0, 0, 0, 0, 4, 1] = .ok (fm, st) ∧
    IsModel fm [0, 0, 0, 0, 4, 1] [[D]] ∧ NoiseFree fm [[D]] ∧ fm.totpix = place.length := by
  obtain ⟨D, fm, st, h1, h2, h3⟩ := ex_noise_free place fun d p => gmixEvalFast d p.v p.u p.area
  refine ⟨D, fm, st, _, h1, h2, ?_, ?_⟩
  · intro x hx px hpx
    rw [h3, List.mem_singleton] at hx
    subst hx
    obtain ⟨p, -, rfl⟩ := List.mem_map.1 hpx
    rfl
  · rw [← residuals_length fm _ _ h2]
    unfold residuals
    rw [h3]
    simp

example (place : List Pixel) (ha : ∀ p ∈ place, 0 ≤ p.area) : ∃ D fm st obs,
    newFitModel (.std "gauss") none obs [0, 0, 0, 0, 4, 1] = .ok (fm, st) ∧
    IsModel fm [0, 0, 0, 0, 4, 1] [[D]] ∧ DrawnExactly fm [[D]] ∧
    ∀ x ∈ pairs fm [[D]], ∀ px ∈ x.1.pixels, 0 ≤ px.area := by
  obtain ⟨D, fm, st, h1, h2, h3⟩ := ex_noise_free place fun d p => (gmixEval d p.v p.u p.area).getD 0
  have hc := pairs_current h1 rfl h2
  refine ⟨D, fm, st, _, h1, h2, ?_, ?_⟩
  · intro x hx px hpx
    have hcx := hc x hx
    rw [h3, List.mem_singleton] at hx
    subst hx
    obtain ⟨p, -, rfl⟩ := List.mem_map.1 hpx
    simp only at hcx ⊢
    rw [gmixEval_kern D (fun g hg => (hcx g hg).1) ⟨p.u, p.v, p.area⟩]
    rfl
  · intro x hx px hpx
    rw [h3, List.mem_singleton] at hx
    subst hx
    obtain ⟨p, hp, rfl⟩ := List.mem_map.1 hpx
    exact ha p hp

/-- Two observations with template images at flux 3. -/
example : ∃ r, psfFlux
    [⟨[3, 6], [1, 2], 2, [], ⟨none, none⟩, some ⟨none, some [1, 2]⟩⟩,
     ⟨[9, 9], [1, 0], 1, [], ⟨none, none⟩, some ⟨none, some [3, 3]⟩⟩] true false = .ok r ∧
    r.flags = 0 ∧ r.flux = .fin 3 ∧ r.fluxErr = .fin 0 ∧ r.chi2per = .fin 0 := by
  refine C106_templates _ [[1, 2], [3, 3]] true false (by simp) 3 ?_ ?_ ?_ ?_ ?_
  · intro o ho s hs
    simp only [List.head?_cons, Option.mem_def, Option.some.injEq] at ho
    subst ho
    simp only [pfSource, if_true, Except.ok.injEq] at hs
    rw [← hs]
  · exact .cons ⟨⟨_, rfl, rfl⟩, by norm_num, rfl, rfl⟩ (.cons ⟨⟨_, rfl, rfl⟩, by norm_num, rfl, rfl⟩ .nil)
  · refine .cons ?_ (.cons ?_ .nil) <;> norm_num [unitTemplate]
  · norm_num [tPower, pixelsOf, unitTemplate]
  · norm_num

end

end Ngmix.Props
