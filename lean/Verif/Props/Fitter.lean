import Verif.Proof.Fitter

/-!
# The fitters and their results (C77, C78)
-/

namespace Ngmix.Props

open Ngmix Ngmix.Spec

noncomputable section

variable {kind : FMKind} {prior : Option JointPrior}
  {lm : (guess : List ℝ) → Option (List BEntry) → Proc (LmTup guess.length)}
  {eig : (n : ℕ) → (Fin n → Fin n → Fl) → Option (List Fl)}
  {nanEval : List (Option ℝ) → Except LmErr (List Fl)} {nanStats : Except PyErr FitStats}
  {obs : List (List Img)} {guess : List ℝ}

/-- C77: the fit is the minimisation of a function of the parameters alone: although every evaluation changes the
mixtures inside the object, the minimiser sees at each point, and the result is computed from, what a newly
constructed object gives there.  And the object returned evaluates as the new one does. -/
theorem C77_pure (fm : FitModel) (st : FMState) (h : newFitModel kind prior obs guess = .ok (fm, st))
    (npp : ℕ) (hn : kind.nPriorPars prior obs.length = .ok npp) :
    (fitterGo kind prior lm eig nanEval nanStats obs guess).map (fun r => r.2.2) =
      (runLeastsq guess.length (fun y => (evalS fm nanEval st y).2) (eig guess.length) npp false
        ((lm guess (fitBounds prior)).run fun y => (evalS fm nanEval st y).2)).bind
        (fun r => (setFitResult fm nanStats st r).2) ∧
    ∀ fm' st' res, fitterGo kind prior lm eig nanEval nanStats obs guess = .ok (fm', st', res) → fm' = fm ∧
      ∀ pars, (calcFdiff fm' st' pars).2 = (calcFdiff fm st pars).2 ∧
        (calcLnprob fm' st' pars).2 = (calcLnprob fm st pars).2 := by
  obtain ⟨-, -, ho, -, -, -, ⟨gk, ng, hF, hC⟩, hsh⟩ := new_shape h
  replace hsh := hsh gk ng hF hC
  have hf : Fits fm.obs st := by rw [ho]; exact fits_of_map _ obs st hsh
  obtain ⟨h1, h2⟩ := runS_pure (evalS fm nanEval) (fun y => (evalS fm nanEval st y).2) (fun s => shape s = shape st)
    (evalS_pure fm nanEval st hf) (lm guess (fitBounds prior)) st rfl
  have hgo : fitterGo kind prior lm eig nanEval nanStats obs guess =
      (runLeastsq guess.length (fun y => (evalS fm nanEval
        (Proc.runS (evalS fm nanEval) st (lm guess (fitBounds prior))).1 y).2) (eig guess.length) npp false
        (Proc.runS (evalS fm nanEval) st (lm guess (fitBounds prior))).2).bind fun r =>
          (setFitResult fm nanStats (match finalEval (Proc.runS (evalS fm nanEval) st (lm guess (fitBounds prior))).2 with
            | none => (Proc.runS (evalS fm nanEval) st (lm guess (fitBounds prior))).1
            | some y => (evalS fm nanEval (Proc.runS (evalS fm nanEval) st (lm guess (fitBounds prior))).1 y).1) r).2.map
          fun res => (fm, (setFitResult fm nanStats
            (match finalEval (Proc.runS (evalS fm nanEval) st (lm guess (fitBounds prior))).2 with
            | none => (Proc.runS (evalS fm nanEval) st (lm guess (fitBounds prior))).1
            | some y => (evalS fm nanEval (Proc.runS (evalS fm nanEval) st (lm guess (fitBounds prior))).1 y).1) r).1,
            res) := by
    unfold fitterGo
    rw [h]
    simp only [Except.bind]
    rw [hn]
    rfl
  have hfun : (fun y => (evalS fm nanEval (Proc.runS (evalS fm nanEval) st (lm guess (fitBounds prior))).1 y).2) =
      fun y => (evalS fm nanEval st y).2 := funext fun y => (evalS_pure fm nanEval st hf _ h2 y).1
  rw [hfun, h1] at hgo
  have hst : ∀ t : Except LmErr (LmTup guess.length), shape (match finalEval t with
            | none => (Proc.runS (evalS fm nanEval) st (lm guess (fitBounds prior))).1
            | some y => (evalS fm nanEval (Proc.runS (evalS fm nanEval) st (lm guess (fitBounds prior))).1 y).1) =
            shape st := by
    intro t
    cases finalEval t with
    | none => exact h2
    | some y => exact (evalS_pure fm nanEval st hf _ h2 y).2
  constructor
  · rw [hgo]
    cases hr : runLeastsq guess.length (fun y => (evalS fm nanEval st y).2) (eig guess.length) npp false
        ((lm guess (fitBounds prior)).run fun y => (evalS fm nanEval st y).2) with
    | error e => rfl
    | ok r =>
      simp only [Except.bind]
      rw [(setFitResult_pure fm nanStats st hf r _ (hst _)).1]
      cases (setFitResult fm nanStats st r).2 <;> rfl
  · intro fm' st' res hres
    rw [hgo] at hres
    cases hr : runLeastsq guess.length (fun y => (evalS fm nanEval st y).2) (eig guess.length) npp false
        ((lm guess (fitBounds prior)).run fun y => (evalS fm nanEval st y).2) with
    | error e => rw [hr] at hres; simp [Except.bind] at hres
    | ok r =>
      rw [hr] at hres
      simp only [Except.bind] at hres
      obtain ⟨res', -, hx⟩ := exMap_ok hres
      simp only [Prod.mk.injEq] at hx
      obtain ⟨rfl, rfl, -⟩ := hx
      refine ⟨rfl, fun pars => ?_⟩
      have hs := (setFitResult_pure fm nanStats st hf r _ (hst ((lm guess (fitBounds prior)).run
        fun y => (evalS fm nanEval st y).2))).2
      rw [(calcFdiff_pure fm st hf pars).1, (calcFdiff_pure fm _ (fits_of_shape hf hs) pars).1,
        (calcLnprob_pure fm st hf pars).1, (calcLnprob_pure fm _ (fits_of_shape hf hs) pars).1, hs]
      exact ⟨rfl, rfl⟩

/-- The fit of a constructed object, inverted. -/
theorem go_inv {fm : FitModel} {st' : FMState} {res : FitResult guess.length}
    (h : fitterGo kind prior lm eig nanEval nanStats obs guess = .ok (fm, st', res)) :
    ∃ st npp r, newFitModel kind prior obs guess = .ok (fm, st) ∧ kind.nPriorPars prior obs.length = .ok npp ∧
      runLeastsq guess.length (fun y => (evalS fm nanEval st y).2) (eig guess.length) npp false
        ((lm guess (fitBounds prior)).run fun y => (evalS fm nanEval st y).2) = .ok r ∧
      (setFitResult fm nanStats st r).2 = .ok res := by
  cases hnew : newFitModel kind prior obs guess with
  | error e =>
    unfold fitterGo at h
    rw [hnew] at h
    simp [Except.bind] at h
  | ok x =>
    obtain ⟨fm', st⟩ := x
    obtain ⟨-, -, -, -, ⟨npp, hn⟩, -⟩ := new_shape hnew
    obtain ⟨h1, h2⟩ := C77_pure (lm := lm) (eig := eig) (nanEval := nanEval) (nanStats := nanStats) fm' st hnew npp hn
    obtain ⟨rfl, -⟩ := h2 fm st' res h
    rw [h] at h1
    simp only [Except.map] at h1
    obtain ⟨r, hr, hs⟩ := exBind_ok h1.symm
    exact ⟨st, npp, r, rfl, hn, hr, hs⟩

/-- C77: the work done after the minimisation.  When the minimiser raises, stops without converging or returns no
covariance, the object is left exactly as its last evaluation left it; otherwise the function is evaluated once more at
the solution; and with flags zero the last thing evaluated is the log probability at the returned parameters. -/
theorem C77_left_behind (fm : FitModel) (st st' : FMState) (res : FitResult guess.length)
    (hnew : newFitModel kind prior obs guess = .ok (fm, st))
    (h : fitterGo kind prior lm eig nanEval nanStats obs guess = .ok (fm, st', res)) :
    ∀ st1 out, Proc.runS (evalS fm nanEval) st (lm guess (fitBounds prior)) = (st1, out) →
      ((∃ e, out = .error e) → st' = st1) ∧
      (∀ t, out = .ok t → 4 < t.info ∨ t.cov = none → st' = st1) ∧
      (∀ t c, out = .ok t → t.info ≤ 4 → t.cov = some c →
        (res.lm.flags ≠ 0 → st' = (evalS fm nanEval st1 t.x).1) ∧
        (res.lm.flags = 0 → ∀ p, allReal res.lm.pars = some p →
          st' = (calcLnprob fm (evalS fm nanEval st1 t.x).1 p).1)) := by
  intro st1 out hrun
  obtain ⟨-, -, -, -, ⟨npp, hn⟩, -⟩ := new_shape hnew
  unfold fitterGo at h
  rw [hnew] at h
  simp only [Except.bind] at h
  rw [hn] at h
  simp only [hrun] at h
  cases hr : runLeastsq guess.length (fun y => (evalS fm nanEval st1 y).2) (eig guess.length) npp false out with
  | error e => rw [hr] at h; simp at h
  | ok r =>
    rw [hr] at h
    simp only at h
    obtain ⟨res', hs, hx⟩ := exMap_ok h
    simp only [Prod.mk.injEq, true_and] at hx
    obtain ⟨hst, rfl⟩ := hx
    have hlm : res'.lm = r := by
      unfold setFitResult at hs
      split_ifs at hs with h0
      · cases hp : allReal r.pars with
        | none =>
          rw [hp] at hs
          obtain ⟨s, -, rfl⟩ := exMap_ok hs
          rfl
        | some p =>
          rw [hp] at hs
          simp only at hs
          split at hs
          · simp at hs
          · obtain ⟨np, -, hs⟩ := exBind_ok hs
            split at hs
            · simp at hs
            · obtain ⟨s, -, rfl⟩ := exMap_ok hs
              rfl
      · simp only [Except.ok.injEq] at hs
        rw [← hs]
    rw [hlm]
    have key0 : ∀ s, r.flags ≠ 0 → (setFitResult fm nanStats s r).1 = s := by
      intro s h0
      unfold setFitResult
      rw [if_neg h0]
    have key1 : ∀ s p, r.flags = 0 → allReal r.pars = some p →
        (setFitResult fm nanStats s r).1 = (calcLnprob fm s p).1 := by
      intro s p h0 hp
      unfold setFitResult
      rw [if_pos h0, hp]
      simp only
      split <;> rename_i hc <;> rw [hc]
    refine ⟨?_, ?_, ?_⟩
    · rintro ⟨e, rfl⟩
      rw [← hst]
      refine key0 _ ?_
      intro h0
      unfold runLeastsq runLeastsqTry runLeastsqCatch at hr
      simp only at hr
      split at hr <;> simp_all
      all_goals (subst hr; simp [Flags.LM_FUNC_NOTFINITE, Flags.DIV_ZERO] at h0)
    · rintro t rfl hor
      have hfe : finalEval (.ok t : Except LmErr (LmTup guess.length)) = none := by
        unfold finalEval
        simp only
        rw [if_neg]
        rintro ⟨-, h4, hc⟩
        rcases hor with ho | ho
        · omega
        · rw [ho] at hc; simp at hc
      rw [hfe] at hst
      simp only at hst
      rw [← hst]
      refine key0 _ ?_
      intro h0
      unfold runLeastsq runLeastsqTry runLeastsqCatch at hr
      simp only at hr
      by_cases hi : t.info = 0
      · simp [hi] at hr
      rw [if_neg hi] at hr
      by_cases h4 : t.info > 4
      · rw [if_pos h4] at hr
        simp only [Except.ok.injEq] at hr
        subst hr
        simp at h0
      · rw [if_neg h4] at hr
        have hc : t.cov = none := hor.resolve_left h4
        rw [hc] at hr
        simp only [Except.ok.injEq] at hr
        subst hr
        simp [Flags.LM_SINGULAR_MATRIX] at h0
    · rintro t c rfl h4 hc
      by_cases hi : t.info = 0
      · unfold runLeastsq runLeastsqTry runLeastsqCatch at hr
        simp [hi] at hr
      have hfe : finalEval (.ok t : Except LmErr (LmTup guess.length)) = some t.x := by
        unfold finalEval
        simp only
        rw [if_pos ⟨hi, h4, by rw [hc]; rfl⟩]
      rw [hfe] at hst
      simp only at hst
      rw [← hst]
      exact ⟨key0 _, fun h0 p => key1 _ p h0⟩

/-- C77: the entries of the minimisation are in the result, and the statistics are there exactly when its flags are
zero. -/
theorem C77_entries (fm : FitModel) (st' : FMState) (res : FitResult guess.length)
    (h : fitterGo kind prior lm eig nanEval nanStats obs guess = .ok (fm, st', res)) :
    (res.stats.isSome ↔ res.lm.flags = 0) ∧
    ∃ st npp, newFitModel kind prior obs guess = .ok (fm, st) ∧ kind.nPriorPars prior obs.length = .ok npp ∧
      runLeastsq guess.length (fun y => (evalS fm nanEval st y).2) (eig guess.length) npp false
        ((lm guess (fitBounds prior)).run fun y => (evalS fm nanEval st y).2) = .ok res.lm := by
  obtain ⟨st, npp, r, hnew, hn, hr, hs⟩ := go_inv h
  unfold setFitResult at hs
  split_ifs at hs with h0
  · cases hp : allReal r.pars with
    | none =>
      rw [hp] at hs
      obtain ⟨s, -, rfl⟩ := exMap_ok hs
      exact ⟨by simpa using h0, st, npp, hnew, hn, hr⟩
    | some p =>
      rw [hp] at hs
      dsimp only at hs
      rcases hx : calcLnprob fm st p with ⟨st1, c⟩
      rw [hx] at hs
      cases c with
      | error e => simp at hs
      | ok c =>
        dsimp only at hs
        obtain ⟨np, -, hs⟩ := exBind_ok hs
        cases he : r.parsErr with
        | none => rw [he] at hs; simp at hs
        | some err =>
          rw [he] at hs
          obtain ⟨s, -, rfl⟩ := exMap_ok hs
          exact ⟨by simpa using h0, st, npp, hnew, hn, hr⟩
  · simp only [Except.ok.injEq] at hs
    subst hs
    exact ⟨by simpa using h0, st, npp, hnew, hn, hr⟩

/-- Where the fluxes of a model start (`none`: the result has no flux entries). -/
def FluxesFrom (kind : FMKind) (start : ℕ) : Prop :=
  (kind = .std "bd" ∧ start = 7) ∨ (kind = .std "bdf" ∧ start = 6) ∨
  (∃ name, kind = .std name ∧ name ≠ "bd" ∧ name ≠ "bdf" ∧ start = 5)

/-- The flux entries of a result for these parameters and this covariance. -/
def FluxEntries {n : ℕ} (kind : FMKind) (nband : ℕ) (pars : List ℝ) (cov : Fin n → Fin n → Fl) (f : FluxRes) : Prop :=
  ((∃ k, kind = .coellip k) ∧ f = .absent) ∨
  ∃ start, FluxesFrom kind start ∧
    ((nband = 1 ∧ ∃ (h : start < n) (F : ℝ), pars[start]? = some F ∧
        f = .one F (Fl.sqrt (cov ⟨start, h⟩ ⟨start, h⟩))) ∨
     (nband ≠ 1 ∧ ∃ c e, f = .many (pars.drop start) c e ∧ c.length = n - start ∧ e.length = n - start ∧
        (∀ k (hk : start + k < n), e[k]? = some (Fl.sqrt (cov ⟨start + k, hk⟩ ⟨start + k, hk⟩))) ∧
        ∀ k l (hk : start + k < n) (hl : start + l < n),
          (c[k]?.bind fun row => row[l]?) = some (cov ⟨start + k, hk⟩ ⟨start + l, hl⟩)))

theorem fitSetFlux_entries {n : ℕ} {nband : ℕ} {pars : List ℝ} {cov : Fin n → Fin n → Fl}
    {f : FluxRes} (h : fitSetFlux kind nband pars cov = .ok f) : FluxEntries kind nband pars cov f := by
  unfold fitSetFlux at h
  cases kind with
  | coellip k =>
    simp only [Except.ok.injEq] at h
    exact .inl ⟨⟨k, rfl⟩, h.symm⟩
  | std name =>
    dsimp only at h
    split_ifs at h with hc hb
    · refine .inr ⟨fluxStart name, ?_, .inl ⟨hb, ?_⟩⟩
      · unfold FluxesFrom fluxStart
        split_ifs with h1 h2
        · exact .inl ⟨by rw [h1], rfl⟩
        · exact .inr (.inl ⟨by rw [h2], rfl⟩)
        · exact .inr (.inr ⟨name, rfl, h1, h2, rfl⟩)
      · obtain ⟨F, hF, h⟩ := exBind_ok h
        obtain ⟨v, hv, rfl⟩ := exMap_ok h
        unfold covDiag at hv
        split_ifs at hv with hlt
        simp only [Except.ok.injEq] at hv
        subst hv
        unfold parEntry at hF
        cases hp : pars[fluxStart name]? with
        | none => rw [hp] at hF; simp at hF
        | some x =>
          rw [hp] at hF
          simp only [Except.ok.injEq] at hF
          subst hF
          exact ⟨hlt, x, rfl, rfl⟩
    · refine .inr ⟨fluxStart name, ?_, .inr ⟨hb, ?_⟩⟩
      · unfold FluxesFrom fluxStart
        split_ifs with h1 h2
        · exact .inl ⟨by rw [h1], rfl⟩
        · exact .inr (.inl ⟨by rw [h2], rfl⟩)
        · exact .inr (.inr ⟨name, rfl, h1, h2, rfl⟩)
      · simp only [Except.ok.injEq] at h
        obtain ⟨s1, s2⟩ := slice_tail n (fluxStart name)
        refine ⟨_, _, h.symm, by simp [covSlice, s1], by simp [vecSlice, s1], ?_, ?_⟩
        · intro k hk
          simp [vecSlice, s2 k hk]
        · intro k l hk hl
          simp [covSlice, s2 k hk, s2 l hl]

/-- C77: the statistics of a fit that succeeded are those of the data and the model at the returned parameters, which
are `v, u, g1, g2, T, rest`: the log probability and the sums over the pixels as in `calc_lnprob`; `dof` the number of
pixels less that of parameters; chi squared per degree of freedom; the signal to noise ratio; shape, size and fluxes
with their errors, cut from the parameters and their covariance matrix. -/
theorem C77_statistics (fm : FitModel) (st' : FMState) (res : FitResult guess.length)
    (h : fitterGo kind prior lm eig nanEval nanStats obs guess = .ok (fm, st', res)) (hf : res.lm.flags = 0)
    (v u g1 g2 T : ℝ) (rest : List ℝ) (hp : res.lm.pars = (v :: u :: g1 :: g2 :: T :: rest).map some)
    (hlen : (v :: u :: g1 :: g2 :: T :: rest).length = guess.length)
    (D : List (List (List Gauss))) (hD : IsModel fm (v :: u :: g1 :: g2 :: T :: rest) D)
    (lnp : Fl) (hpr : getPriors prior (v :: u :: g1 :: g2 :: T :: rest) = .ok lnp) :
    ∃ (s : FitStats) (err : Fin guess.length → Fl) (h2 : 2 < guess.length) (h3 : 3 < guess.length)
      (h4 : 4 < guess.length),
      res.stats = some s ∧ res.lm.parsErr = some err ∧
      s.lnprob = .fin (-(1 / 2) * ((residuals fm D).map fun r => r ^ 2).sum) + lnp ∧
      s.npix = fm.totpix ∧ s.dof = (fm.totpix : ℤ) - guess.length ∧ s.dof ≠ 0 ∧
      (∀ L, s.lnprob = .fin L → s.chi2per = .fin (-2 * L / s.dof)) ∧
      s.s2nNumer = ((pairs fm D).map fun x => (x.1.pixels.map fun px =>
          px.val * gmixEvalFast x.2 px.v px.u px.area * (px.ierr * px.ierr)).sum).sum ∧
      s.s2nDenom = ((pairs fm D).map fun x => (x.1.pixels.map fun px =>
          gmixEvalFast x.2 px.v px.u px.area ^ 2 * (px.ierr * px.ierr)).sum).sum ∧
      (0 < s.s2nDenom → s.s2n = s.s2nNumer / Real.sqrt s.s2nDenom) ∧ (s.s2nDenom ≤ 0 → s.s2n = 0) ∧ s.s2nW = s.s2n ∧
      s.g = [g1, g2] ∧ s.gErr = [err ⟨2, h2⟩, err ⟨3, h3⟩] ∧
      s.gCov = [[res.lm.parsCov ⟨2, h2⟩ ⟨2, h2⟩, res.lm.parsCov ⟨2, h2⟩ ⟨3, h3⟩],
        [res.lm.parsCov ⟨3, h3⟩ ⟨2, h2⟩, res.lm.parsCov ⟨3, h3⟩ ⟨3, h3⟩]] ∧
      s.T = T ∧ s.TErr = Fl.sqrt (res.lm.parsCov ⟨4, h4⟩ ⟨4, h4⟩) ∧
      FluxEntries kind obs.length (v :: u :: g1 :: g2 :: T :: rest) res.lm.parsCov s.flux := by
  obtain ⟨st, npp, r, hnew, hn, hr, hs⟩ := go_inv h
  obtain ⟨hk, hprior, ho, -, -, hnp, -⟩ := new_shape hnew
  generalize hpe : (v :: u :: g1 :: g2 :: T :: rest) = p at *
  have hl := C47_lnprob kind prior obs guess fm st hnew [] p hlen D hD lnp hpr
  change (calcLnprob fm st p).2 = _ at hl
  have hlm : res.lm = r ∧ r.flags = 0 := by
    unfold setFitResult at hs
    split_ifs at hs with h0
    · refine ⟨?_, h0⟩
      cases hq : allReal r.pars with
      | none =>
        rw [hq] at hs
        obtain ⟨s, -, rfl⟩ := exMap_ok hs
        rfl
      | some p' =>
        rw [hq] at hs
        dsimp only at hs
        rcases hx : calcLnprob fm st p' with ⟨st1, c⟩
        rw [hx] at hs
        cases c with
        | error e => simp at hs
        | ok c =>
          dsimp only at hs
          obtain ⟨np, -, hs⟩ := exBind_ok hs
          cases he : r.parsErr with
          | none => rw [he] at hs; simp at hs
          | some err =>
            rw [he] at hs
            obtain ⟨s, -, rfl⟩ := exMap_ok hs
            rfl
    · simp only [Except.ok.injEq] at hs
      subst hs
      exact absurd hf h0
  obtain ⟨rfl, h0⟩ := hlm
  unfold setFitResult at hs
  rw [if_pos h0, hp, allReal_map] at hs
  dsimp only at hs
  rcases hx : calcLnprob fm st p with ⟨st1, c⟩
  rw [hx] at hs hl
  dsimp only at hl
  subst hl
  dsimp only at hs
  rw [hk, ho, hnp] at hs
  simp only [Except.bind] at hs
  cases he : res.lm.parsErr with
  | none => rw [he] at hs; simp at hs
  | some err =>
    rw [he] at hs
    dsimp only at hs
    obtain ⟨s, hst, hre⟩ := exMap_ok hs
    have h5 : 4 < guess.length := by rw [← hlen, ← hpe]; simp
    unfold fitStats at hst
    dsimp only at hst
    by_cases hd : (fm.totpix : ℤ) - guess.length = 0
    · rw [if_pos hd] at hst
      simp at hst
    rw [if_neg hd] at hst
    obtain ⟨T', hT, hst⟩ := exBind_ok hst
    obtain ⟨vT, hvT, hst⟩ := exBind_ok hst
    obtain ⟨fl, hfl, hst⟩ := exMap_ok hst
    have hT' : T' = T := by
      rw [← hpe] at hT
      simpa [parEntry] using hT.symm
    have hvT' : vT = res.lm.parsCov ⟨4, h5⟩ ⟨4, h5⟩ := by
      unfold covDiag at hvT
      rw [dif_pos h5] at hvT
      simpa using hvT.symm
    refine ⟨s, err, by omega, by omega, h5, by rw [← hre], rfl, ?_⟩
    subst hst
    dsimp only
    refine ⟨?_, rfl, rfl, hd, ?_, rfl, rfl, ?_, ?_, rfl, ?_, ?_, ?_, hT', by rw [hvT'], fitSetFlux_entries hfl⟩
    · rw [sum_flatMap_sq]
      rfl
    · intro L hL
      rw [hL, Fl.fin_div _ _ (by norm_num), Fl.fin_div _ _ (by exact_mod_cast hd)]
      congr 2
      norm_num
      ring
    · intro hpos; rw [if_pos hpos]
    · intro hneg; rw [if_neg (not_lt.mpr hneg)]
    · rw [← hpe]; rfl
    · simp [vecSlice, slice_two_four h5]
    · simp [covSlice, slice_two_four h5]

theorem evalS_map (fm : FitModel) (st : FMState) (p : List ℝ) :
    (evalS fm nanEval st (p.map some)).2 = toLm (calcFdiff fm st p).2 := by
  unfold evalS
  rw [allReal_map]

theorem toLm_ok {α : Type} {x : Except PyErr α} {a : α} (h : toLm x = .ok a) : x = .ok a := by
  cases x with
  | error e => simp [toLm] at h
  | ok b => simpa [toLm] using h

/-- What a fit with flags zero evaluated last. -/
theorem go_zero {fm : FitModel} {st' : FMState} {res : FitResult guess.length}
    (h : fitterGo kind prior lm eig nanEval nanStats obs guess = .ok (fm, st', res)) (hf : res.lm.flags = 0)
    (p : List ℝ) (hp : res.lm.pars = p.map some) :
    ∃ st npp c fdiff, newFitModel kind prior obs guess = .ok (fm, st) ∧
      kind.nPriorPars prior obs.length = .ok npp ∧ (calcFdiff fm st p).2 = .ok fdiff ∧
      (fdiff.length : ℤ) - npp - guess.length ≠ 0 ∧
      testCov (eig guess.length)
        (scaledCov guess.length npp c fdiff ((fdiff.length : ℤ) - npp - guess.length)) = 0 ∧
      res.lm.parsCov0 = some c ∧
      res.lm.parsCov = scaledCov guess.length npp c fdiff ((fdiff.length : ℤ) - npp - guess.length) ∧
      res.lm.parsErr = some (fun i => Fl.sqrt (res.lm.parsCov i i)) := by
  obtain ⟨-, st, npp, hnew, hn, hr⟩ := C77_entries fm st' res h
  obtain ⟨t, c, fdiff, -, -, -, -, hfd, hdof, ht, hres⟩ := leastsq_zero hr hf
  have hx : t.x = p.map some := by rw [← hp, hres]
  rw [hx, evalS_map] at hfd
  refine ⟨st, npp, c, fdiff, hnew, hn, toLm_ok hfd, hdof, ht, by rw [hres], by rw [hres], by rw [hres]⟩

/-- C77: without a prior, the covariance matrix of the parameters is the one the minimiser returned times the chi
squared per degree of freedom that is reported; the reported errors are the square roots of its diagonal. -/
theorem C77_covariance_no_prior (fm : FitModel) (st' : FMState) (res : FitResult guess.length)
    (h : fitterGo kind none lm eig nanEval nanStats obs guess = .ok (fm, st', res)) (hf : res.lm.flags = 0)
    (v u g1 g2 T : ℝ) (rest : List ℝ) (hp : res.lm.pars = (v :: u :: g1 :: g2 :: T :: rest).map some)
    (hlen : (v :: u :: g1 :: g2 :: T :: rest).length = guess.length)
    (D : List (List (List Gauss))) (hD : IsModel fm (v :: u :: g1 :: g2 :: T :: rest) D) :
    ∃ (s : FitStats) (c : Fin guess.length → Fin guess.length → Fl) (x : ℝ), res.stats = some s ∧
      res.lm.parsCov0 = some c ∧ s.chi2per = .fin x ∧
      x = ((residuals fm D).map fun r => r ^ 2).sum / ((fm.totpix : ℝ) - guess.length) ∧
      (∀ i j, res.lm.parsCov i j = c i j * .fin x) ∧
      res.lm.parsErr = some (fun i => Fl.sqrt (res.lm.parsCov i i)) := by
  obtain ⟨st, npp, c, fdiff, hnew, hn, hfd, hdof, -, hc0, hc, herr⟩ := go_zero h hf _ hp
  obtain ⟨s, err, -, -, -, hs, -, hln, -, hd, hd0, hchi, -⟩ := C77_statistics fm st' res h hf v u g1 g2 T rest hp hlen
    D hD (.fin 0) rfl
  obtain ⟨h0, hcf⟩ := C41_no_prior kind obs guess fm st hnew [] _ hlen D hD
  change (calcFdiff fm st _).2 = _ at hcf
  rw [hfd] at hcf
  simp only [Except.ok.injEq] at hcf
  subst hcf
  rw [h0] at hn
  simp only [Except.ok.injEq] at hn
  subst hn
  have hrl := residuals_length fm _ D hD
  have hdR : ((fm.totpix : ℝ) - guess.length) ≠ 0 := by
    rw [hd] at hd0
    exact_mod_cast hd0
  rw [Fl.fin_add, add_zero] at hln
  refine ⟨s, c, _, hs, hc0, hchi _ hln, ?_, ?_, herr⟩
  · rw [hd]
    push_cast
    congr 1
    ring
  · intro i j
    rw [hc]
    unfold scaledCov
    rw [List.drop_zero, flSumSq_map, List.length_map, hrl]
    push_cast
    rw [sub_zero, Fl.fin_div _ _ hdR, hd]
    congr 2
    push_cast
    congr 1
    ring

/-- C77: with the joint prior made for a model other than the simple ones (for these see C41), the covariance matrix is
scaled by the chi squared of the pixels per degree of freedom, while the one that is reported counts the prior too. -/
theorem C77_covariance_prior (q : JointPrior) (hno : ∀ name, kind = .std name → name ∉ ["exp", "dev", "gauss", "turb"])
    (hsh : Shaped q) (hm : MadeFor kind q obs.length)
    (fm : FitModel) (st' : FMState) (res : FitResult guess.length)
    (h : fitterGo kind (some q) lm eig nanEval nanStats obs guess = .ok (fm, st', res)) (hf : res.lm.flags = 0)
    (v u g1 g2 T : ℝ) (rest : List ℝ) (hp : res.lm.pars = (v :: u :: g1 :: g2 :: T :: rest).map some)
    (hlen : (v :: u :: g1 :: g2 :: T :: rest).length = guess.length)
    (D : List (List (List Gauss))) (hD : IsModel fm (v :: u :: g1 :: g2 :: T :: rest) D)
    (Lp : ℝ) (hpr : q.lnprob (v :: u :: g1 :: g2 :: T :: rest) = .ok (.fin Lp))
    (pre : List Fl) (n : ℕ) (hfill : q.fillFdiff (v :: u :: g1 :: g2 :: T :: rest)
      (List.replicate fm.fdiffSize (.fin 0)) = .ok (pre, n)) :
    ∃ (s : FitStats) (c : Fin guess.length → Fin guess.length → Fl) (x : ℝ), res.stats = some s ∧
      res.lm.parsCov0 = some c ∧
      x = ((residuals fm D).map fun r => r ^ 2).sum / ((fm.totpix : ℝ) - guess.length) ∧
      s.chi2per = .fin (x - 2 * Lp / ((fm.totpix : ℝ) - guess.length)) ∧
      (∀ i j, res.lm.parsCov i j = c i j * .fin x) ∧
      res.lm.parsErr = some (fun i => Fl.sqrt (res.lm.parsCov i i)) := by
  obtain ⟨st, npp, c, fdiff, hnew, hn, hfd, hdof, -, hc0, hc, herr⟩ := go_zero h hf _ hp
  obtain ⟨s, err, -, -, -, hs, -, hln, -, hd, hd0, hchi, -⟩ := C77_statistics fm st' res h hf v u g1 g2 T rest hp hlen
    D hD (.fin Lp) hpr
  obtain ⟨h0, out, hcf, hol, -, hdrop⟩ := C41_partition kind q obs guess hno hsh hm fm st hnew [] _ hlen D hD pre n hfill
  change (calcFdiff fm st _).2 = _ at hcf
  rw [hfd] at hcf
  simp only [Except.ok.injEq] at hcf
  subst hcf
  rw [h0] at hn
  simp only [Except.ok.injEq] at hn
  subst hn
  have hdR : ((fm.totpix : ℝ) - guess.length) ≠ 0 := by
    rw [hd] at hd0
    exact_mod_cast hd0
  rw [Fl.fin_add] at hln
  refine ⟨s, c, _, hs, hc0, rfl, ?_, ?_, herr⟩
  · rw [hchi _ hln, hd]
    push_cast
    congr 1
    field_simp
    ring
  · intro i j
    rw [hc]
    unfold scaledCov
    rw [hdrop, flSumSq_map, hol]
    push_cast
    rw [show ((n : ℝ) + fm.totpix - n - guess.length) = (fm.totpix : ℝ) - guess.length by ring,
      Fl.fin_div _ _ hdR]

/-- C77: a fit with flags zero never ends at parameters out of range: there the residuals are infinite and the
covariance matrix is refused (`numpy.linalg.eig` raises for entries that are not finite). -/
theorem C77_in_range (heig : ∀ n (c : Fin n → Fin n → Fl), (∃ i j, ¬ (c i j).isFinite) → eig n c = none)
    (fm : FitModel) (st' : FMState) (res : FitResult guess.length)
    (h : fitterGo kind prior lm eig nanEval nanStats obs guess = .ok (fm, st', res)) (hf : res.lm.flags = 0)
    (p : List ℝ) (hp : res.lm.pars = p.map some) (hlen : p.length = guess.length) (hpos : 0 < guess.length)
    (hpix : 0 < fm.totpix) :
    ∃ D, IsModel fm p D := by
  obtain ⟨st, npp, c, fdiff, hnew, hn, hfd, hdof, ht, hc0, hc, herr⟩ := go_zero h hf _ hp
  obtain ⟨hk, hpr, ho, -⟩ := new_shape hnew
  rcases (C47_out_of_range kind prior obs guess fm st hnew [] p hlen).1 fdiff hfd with ⟨hD, -⟩ | hbad
  · exact hD
  · exfalso
    have hsize : fm.fdiffSize = fm.totpix + npp := fdiffSize_eq (by rw [hk, hpr, ho]; exact hn)
    have hnone : eig guess.length
        (scaledCov guess.length npp c fdiff ((fdiff.length : ℤ) - npp - guess.length)) = none := by
      refine heig _ _ ⟨⟨0, hpos⟩, ⟨0, hpos⟩, ?_⟩
      unfold scaledCov
      have hdr : fdiff.drop npp = List.replicate (fm.totpix - 1 + 1) .ninf := by
        rw [hbad, List.drop_replicate, hsize]
        congr 1
        omega
      rw [hdr, flSumSq_ninf]
      generalize ((fdiff.length : ℤ) - npp - guess.length : ℤ) = d
      generalize c ⟨0, hpos⟩ ⟨0, hpos⟩ = a
      have hq : ∃ b : Bool, (Fl.pinf / Fl.fin (d : ℝ)) = if b then .pinf else .ninf := by
        change ∃ b : Bool, Fl.div _ _ = _
        by_cases hdn : (d : ℝ) < 0
        · exact ⟨false, by simp [Fl.div, hdn]⟩
        · exact ⟨true, by simp [Fl.div, hdn]⟩
      obtain ⟨b, hb⟩ := hq
      rw [hb]
      exact (Fl.mul_not_finite (by cases b <;> exact id) a).2
    unfold testCov at ht
    rw [hnone] at ht
    simp [Flags.EIG_NOTFINITE] at ht

/-- C77: with bounds (those of the joint prior), the parameters of a fit with flags zero are numbers inside the
bounds. -/
theorem C77_bounds (inv : (n : ℕ) → NpInv n) (hinv : ∀ n, InvNan (inv n)) (heig : ∀ n, EigFinite (eig n)) (dflt : (guess : List ℝ) → Proc (LmTup guess.length))
    (minpack : (n : ℕ) → List (Option ℝ) → Minpack n) (hsol : ∀ n x f o, ((minpack n x).run f).2 = .ok o →
      o.x.length = n ∧ Function.Bijective o.ipvt)
    (b : List BEntry) (hb : fitBounds prior = some b) (bs : List Bound)
    (hbs : JointPrior.unpackBounds guess.length b = .ok bs) (hord : ∀ l u, (some l, some u) ∈ bs → l ≤ u)
    (fm : FitModel) (st' : FMState) (res : FitResult guess.length)
    (h : fitterGo kind prior (lmStd inv dflt minpack) eig nanEval nanStats obs guess = .ok (fm, st', res))
    (hf : res.lm.flags = 0) (h2 : 2 ≤ guess.length) :
    ∀ (i : ℕ) (c : Bound), bs[i]? = some c → c ≠ (none, none) → ∃ v, res.lm.pars[i]? = some (some v) ∧ StrictlyIn c v := by
  obtain ⟨-, st, npp, hnew, hn, hr⟩ := C77_entries fm st' res h
  rw [hb] at hr
  simp only [lmStd, hbs] at hr
  rw [leastsqboundProc_run _ _ _ _ _ _ _ []] at hr
  exact C40_inside_bounds guess.length _ _ _ _ (inv _) (hinv _) (heig _) h2 _ _ (hsol _) guess rfl bs hord _ hr hf

/-! ### The hypotheses are met

Two bands, three images of any pixels (more than seven in all), each with a psf; a minimiser that evaluates once and
ends elsewhere. -/

/-- A minimiser that evaluates the guess, then ends at `p` with the unit matrix. -/
def exLm (p guess : List ℝ) (_ : Option (List BEntry)) : Proc (LmTup guess.length) :=
  .ask (p.map some) fun _ => .ret (.ok ⟨p.map some, some (flOne _), 2, 1⟩)

/-- Eigenvalues: refused unless the matrix is finite. -/
def exEig (n : ℕ) (c : Fin n → Fin n → Fl) : Option (List Fl) :=
  open Classical in if ∃ i j, ¬ (c i j).isFinite then none else some [.fin 1]

theorem ex_go (a b c : List Pixel) (hpix : 7 < a.length + b.length + c.length)
    (nanEval : List (Option ℝ) → Except LmErr (List Fl)) (nanStats : Except PyErr FitStats) :
    ∃ fm st' D, ∃ res : FitResult ([0, 0, 0, 0, 4, 1, 1] : List ℝ).length,
      fitterGo (.std "gauss") none (exLm [0, 0, 0, 0, 1, 2, 3]) exEig nanEval nanStats
        [[⟨a, .ok exPsf⟩, ⟨b, .ok exPsf⟩], [⟨c, .ok exPsf⟩]] [0, 0, 0, 0, 4, 1, 1] = .ok (fm, st', res) ∧
      res.lm.flags = 0 ∧ res.lm.pars = [0, 0, 0, 0, 1, 2, 3].map some ∧
      IsModel fm [0, 0, 0, 0, 1, 2, 3] D ∧ fm.totpix = a.length + b.length + c.length := by
  obtain ⟨st, D, hnew, hD⟩ := ex_fit none a b c
  have htot : FitModel.totpix ⟨.std "gauss", none, [[⟨a, .ok exPsf⟩, ⟨b, .ok exPsf⟩], [⟨c, .ok exPsf⟩]], true⟩ =
      a.length + b.length + c.length := by
    simp [FitModel.totpix]; omega
  obtain ⟨h0, hcf⟩ := C41_no_prior _ _ _ _ st hnew [] [0, 0, 0, 0, 1, 2, 3] rfl D hD
  change (calcFdiff _ st _).2 = _ at hcf
  have hl := C47_lnprob _ none _ _ _ st hnew [] [0, 0, 0, 0, 1, 2, 3] rfl D hD (.fin 0) rfl
  change (calcLnprob _ st _).2 = _ at hl
  have hrl := residuals_length _ _ D hD
  rw [htot] at hrl hl
  obtain ⟨hp1, -⟩ := C77_pure (lm := exLm [0, 0, 0, 0, 1, 2, 3]) (eig := exEig) (nanEval := nanEval)
    (nanStats := nanStats) _ st hnew 0 h0
  generalize hfm : (⟨.std "gauss", none, [[⟨a, .ok exPsf⟩, ⟨b, .ok exPsf⟩], [⟨c, .ok exPsf⟩]], true⟩ : FitModel) = fm at *
  have hk : fm.kind = .std "gauss" ∧ fm.obs.length = 2 := by subst hfm; exact ⟨rfl, rfl⟩
  have hev : (evalS fm nanEval st ([0, 0, 0, 0, 1, 2, 3].map some)).2 = .ok ((residuals fm D).map Fl.fin) := by
    rw [evalS_map, hcf]; rfl
  have hd : ((((residuals fm D).map Fl.fin).length : ℤ) - 0 - 7) = ((a.length + b.length + c.length : ℕ) : ℤ) - 7 := by
    rw [List.length_map, hrl]; ring
  have hdpos : (0 : ℝ) < (((a.length + b.length + c.length : ℕ) : ℤ) - 7 : ℤ) := by
    have : (0 : ℤ) < ((a.length + b.length + c.length : ℕ) : ℤ) - 7 := by omega
    exact_mod_cast this
  have hS : 0 ≤ ((residuals fm D).map fun x => x ^ 2).sum := List.sum_nonneg (by
    intro x hx
    obtain ⟨y, -, rfl⟩ := List.mem_map.1 hx
    positivity)
  obtain ⟨x, hx⟩ : ∃ x : ℝ, ((residuals fm D).map fun x => x ^ 2).sum /
    ((((a.length + b.length + c.length : ℕ) : ℤ) - 7 : ℤ) : ℝ) = x := ⟨_, rfl⟩
  have hx0 : 0 ≤ x := by rw [← hx]; exact div_nonneg hS hdpos.le
  let r : LmResult 7 := ⟨0, 2, some 1, [0, 0, 0, 0, 1, 2, 3].map some,
    some (fun i => Fl.sqrt (.fin ((1 : Matrix (Fin 7) (Fin 7) ℝ) i i * x))),
    some (fun i j => .fin ((1 : Matrix (Fin 7) (Fin 7) ℝ) i j)), fun i j => .fin ((1 : Matrix (Fin 7) (Fin 7) ℝ) i j * x)⟩
  have hcov : testCov (exEig 7) (fun i j => Fl.fin ((1 : Matrix (Fin 7) (Fin 7) ℝ) i j * x)) = 0 := by
    unfold testCov exEig
    rw [if_neg (by simp [Fl.isFinite])]
    simp [Fl.lt, hx0]
  have hrun : runLeastsq 7 (fun y => (evalS fm nanEval st y).2) (exEig 7) 0 false
      ((exLm [0, 0, 0, 0, 1, 2, 3] [0, 0, 0, 0, 4, 1, 1] (fitBounds none)).run fun y => (evalS fm nanEval st y).2) = .ok r := by
    simp only [exLm, Proc.run, hev]
    simp only [runLeastsq, runLeastsqTry, hev, lmDof, CharP.cast_eq_zero, Nat.cast_ofNat, Bool.false_eq_true, if_false]
    rw [if_neg (by norm_num), if_neg (by norm_num)]
    rw [hd, if_neg (by omega), List.drop_zero, flSumSq_map, Fl.fin_div _ _ hdpos.ne', hx]
    simp only [flOne, Fl.fin_mul]
    exact (congrArg _ (if_neg (not_not.2 hcov))).trans rfl
  obtain ⟨s, hs⟩ : ∃ s, (setFitResult fm nanStats st r).2 = .ok ⟨r, some s⟩ := by
    have hr0 : r.flags = 0 := rfl
    have hrp : allReal r.pars = some [0, 0, 0, 0, 1, 2, 3] := allReal_map _
    unfold setFitResult
    rw [if_pos hr0, hrp]
    dsimp only
    rcases hc : calcLnprob fm st [0, 0, 0, 0, 1, 2, 3] with ⟨st1, cc⟩
    rw [hc] at hl
    dsimp only at hl
    subst hl
    dsimp only
    rw [hk.1, hk.2]
    simp only [show FMKind.npars (.std "gauss") 2 = .ok 7 from rfl, Except.bind]
    unfold fitStats
    have h7 : ((a.length + b.length + c.length : ℕ) : ℤ) - (7 : ℕ) ≠ 0 := by push_cast; omega
    simp only [show r.parsErr = some (fun i => Fl.sqrt (.fin ((1 : Matrix (Fin 7) (Fin 7) ℝ) i i * x))) from rfl]
    rw [if_neg h7]
    exact ⟨_, rfl⟩
  have hp1' : (fitterGo (.std "gauss") none (exLm [0, 0, 0, 0, 1, 2, 3]) exEig nanEval nanStats
        [[⟨a, .ok exPsf⟩, ⟨b, .ok exPsf⟩], [⟨c, .ok exPsf⟩]] [0, 0, 0, 0, 4, 1, 1]).map (fun r => r.2.2) =
      .ok ⟨r, some s⟩ := by
    rw [hp1]
    change (runLeastsq 7 _ (exEig 7) 0 false _).bind _ = _
    rw [hrun]
    exact hs
  obtain ⟨y, hy, hyr⟩ := exMap_ok hp1'
  obtain ⟨fm', st', res⟩ := y
  obtain ⟨st2, -, -, hnew2, -⟩ := go_inv hy
  rw [hnew] at hnew2
  simp only [Except.ok.injEq, Prod.mk.injEq] at hnew2
  obtain ⟨rfl, -⟩ := hnew2
  dsimp only at hyr
  subst hyr
  exact ⟨fm, st', D, _, hy, rfl, rfl, hD, htot⟩

/-- The eigenvalues are refused as `C77_in_range` asks. -/
example : ∀ n (c : Fin n → Fin n → Fl), (∃ i j, ¬ (c i j).isFinite) → exEig n c = none :=
  fun _ _ h => by unfold exEig; rw [if_pos h]

/-- Eight pixels with noise: one fit to which C77 and C78 apply. -/
example : ∃ fm st' D, ∃ res : FitResult ([0, 0, 0, 0, 4, 1, 1] : List ℝ).length,
    fitterGo (.std "gauss") none (exLm [0, 0, 0, 0, 1, 2, 3]) exEig (fun _ => .error .notFinite) (.error .value)
      [[⟨List.replicate 3 ⟨0, 1, 1, 3, 2⟩, .ok exPsf⟩, ⟨List.replicate 2 ⟨1, 0, 1, 2, 1⟩, .ok exPsf⟩],
        [⟨List.replicate 3 ⟨1, 1, 1, 5, 1⟩, .ok exPsf⟩]] [0, 0, 0, 0, 4, 1, 1] = .ok (fm, st', res) ∧
    res.lm.flags = 0 ∧ res.lm.pars = [0, 0, 0, 0, 1, 2, 3].map some ∧
    IsModel fm [0, 0, 0, 0, 1, 2, 3] D ∧ fm.totpix = 8 :=
  ex_go _ _ _ (by simp) _ _

end

end Ngmix.Props
