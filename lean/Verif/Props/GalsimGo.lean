import Verif.Props.GalsimFit
import Verif.Props.Fitter

/-!
# C81: the result of a fit of a galsim model
-/

namespace Ngmix.Props

open Ngmix Ngmix.Spec Ngmix.Proof.GalsimFit

noncomputable section

variable {G : GSLib} {kind : GSKind} {prior : Option JointPrior} {kobs : List (List KObs)} {guess : List ℝ}
  {mem0 mem : KMem} {f : GSFit}
  {lm : (guess : List ℝ) → Option (List BEntry) → Proc (LmTup guess.length)}
  {eig : (n : ℕ) → (Fin n → Fin n → Fl) → Option (List Fl)}
  {nanEval : List (Option ℝ) → Except LmErr (List Fl)} {nanStats : Except PyErr GSStats}

theorem gsEvalS_pure (hr : KReady f.kobs.flatten mem) (ho : OwnMeta f.kobs) (mem' : KMem)
    (hr' : KReady f.kobs.flatten mem') (y : List (Option ℝ)) :
    (gsEvalS G f nanEval mem' y).2 = (gsEvalS G f nanEval mem y).2 ∧ KReady f.kobs.flatten (gsEvalS G f nanEval mem' y).1 := by
  unfold gsEvalS
  rcases allReal y with _ | p
  · exact ⟨rfl, hr'⟩
  · exact ⟨congrArg toLm (gsFdiff_pure G f mem' mem p hr' hr ho), hr'.frame (gsFdiff_frame G f mem' p hr')⟩

theorem s2n_pure (hr : KReady f.kobs.flatten mem) (hk : ∀ k ∈ f.kobs.flatten, KSized k) (p : List ℝ) :
    (calcS2nR G f mem p).2 = ((imgsAll G f.kind (roundPars p) 0 f.kobs).map fun ms =>
      (0.0 : ℝ) + ((ms.zip f.kobs).map fun x => totPower x.1 x.2).sum).map
        fun s => open Classical in if 0.0 < s then Real.sqrt s else 0.0 := by
  rw [← (s2nKAll_pure G f.kind p f.kobs 0 mem 0.0 hr).2 hk]
  rfl

theorem gsSet_pure {n : ℕ} (hr : KReady f.kobs.flatten mem) (hk : ∀ k ∈ f.kobs.flatten, KSized k) (mem' : KMem)
    (hr' : KReady f.kobs.flatten mem') (r : LmResult n) :
    (gsSetResult G f nanStats mem' r).2 = (gsSetResult G f nanStats mem r).2 ∧
      KReady f.kobs.flatten (gsSetResult G f nanStats mem' r).1 := by
  unfold gsSetResult
  split
  · rcases allReal r.pars with _ | p
    · exact ⟨rfl, hr'⟩
    · have h1 := (s2n_pure (G := G) hr' hk p).trans (s2n_pure (G := G) hr hk p).symm
      have h2 := hr'.frame (calcS2nR_frame G f mem' p hr')
      rcases hx : calcS2nR G f mem' p with ⟨m1, e | x⟩ <;> rcases hy : calcS2nR G f mem p with ⟨m2, e' | x'⟩ <;>
        rw [hx, hy] at h1 <;> rw [hx] at h2 <;> simp only [hx, hy] at h1 ⊢
      · exact ⟨by simpa using h1, h2⟩
      · cases h1
      · cases h1
      · simp only [Except.ok.injEq] at h1
        subst h1
        exact ⟨rfl, h2⟩
  · exact ⟨rfl, hr'⟩

/-- C81: a guess or model that is refused: the fit raises that exception. -/
theorem C81_refused (e : PyErr) (h : newGSFit G kind prior kobs guess mem0 = (mem, .error e)) :
    (gsGo G kind prior lm eig nanEval nanStats kobs guess mem0).2 = .error e := by
  unfold gsGo
  rw [h]

/-- C81: for every minimiser the outcome is that of minimising a function of the parameters alone, and afterwards the
residuals are the same function of the parameters. -/
theorem C81_pure (hnew : newGSFit G kind prior kobs guess mem0 = (mem, .ok f)) (ho : OwnMeta kobs)
    (hk : ∀ k ∈ kobs.flatten, KSized k) :
    (gsGo G kind prior lm eig nanEval nanStats kobs guess mem0).2 =
      ((runLeastsq guess.length (fun y => (gsEvalS G f nanEval mem y).2) (eig guess.length) f.nPrior true
        ((lm guess (fitBounds prior)).run fun y => (gsEvalS G f nanEval mem y).2)).bind
        fun r => (gsSetResult G f nanStats mem r).2.map fun res => (f, res)) ∧
    ∀ pars, (gsFdiff G f (gsGo G kind prior lm eig nanEval nanStats kobs guess mem0).1 pars).2 =
      (gsFdiff G f mem pars).2 := by
  obtain ⟨hr, ho'⟩ := new_ready G hnew ho
  have hkf : ∀ k ∈ f.kobs.flatten, KSized k := by rw [(new_parts G hnew).1]; exact hk
  obtain ⟨h1, h2⟩ := runS_pure (gsEvalS G f nanEval) (fun y => (gsEvalS G f nanEval mem y).2)
    (KReady f.kobs.flatten) (fun s hs x => gsEvalS_pure hr ho' s hs x) (lm guess (fitBounds prior)) mem hr
  rcases hx : Proc.runS (gsEvalS G f nanEval) mem (lm guess (fitBounds prior)) with ⟨mem1, t⟩
  rw [hx] at h1 h2
  dsimp only at h1 h2
  have hfun : (fun y => (gsEvalS G f nanEval mem1 y).2) = fun y => (gsEvalS G f nanEval mem y).2 :=
    funext fun y => (gsEvalS_pure hr ho' mem1 h2 y).1
  have hgo : ∃ mem2, KReady f.kobs.flatten mem2 ∧
      gsGo G kind prior lm eig nanEval nanStats kobs guess mem0 =
        match runLeastsq guess.length (fun y => (gsEvalS G f nanEval mem y).2) (eig guess.length) f.nPrior true t with
        | .error e => (mem2, .error e)
        | .ok r => ((gsSetResult G f nanStats mem2 r).1, (gsSetResult G f nanStats mem2 r).2.map fun res => (f, res)) := by
    unfold gsGo
    rw [hnew]
    dsimp only
    rw [hx]
    dsimp only
    rw [hfun]
    rcases finalEval t with _ | y
    · exact ⟨mem1, h2, rfl⟩
    · exact ⟨_, (gsEvalS_pure (nanEval := nanEval) hr ho' mem1 h2 y).2, rfl⟩
  obtain ⟨mem2, hm2, hgo⟩ := hgo
  rw [hgo, ← h1]
  rcases runLeastsq guess.length (fun y => (gsEvalS G f nanEval mem y).2) (eig guess.length) f.nPrior true t with e | r
  · exact ⟨rfl, fun pars => gsFdiff_pure G f mem2 mem pars hm2 hr ho'⟩
  · obtain ⟨s1, s2⟩ := gsSet_pure (G := G) (nanStats := nanStats) hr hkf mem2 hm2 r
    refine ⟨?_, fun pars => gsFdiff_pure G f _ mem pars s2 hr ho'⟩
    dsimp only
    rw [s1]
    rfl

/-- What is behind a result. -/
theorem gs_parts {mem' : KMem} {res : GSResult guess.length} (ho : OwnMeta kobs) (hk : ∀ k ∈ kobs.flatten, KSized k)
    (h : gsGo G kind prior lm eig nanEval nanStats kobs guess mem0 = (mem', .ok (f, res))) :
    ∃ mem, newGSFit G kind prior kobs guess mem0 = (mem, .ok f) ∧
      (gsSetResult G f nanStats mem res.lm).2 = .ok res ∧
      runLeastsq guess.length (fun y => (gsEvalS G f nanEval mem y).2) (eig guess.length) f.nPrior true
        ((lm guess (fitBounds prior)).run fun y => (gsEvalS G f nanEval mem y).2) = .ok res.lm := by
  rcases hn : newGSFit G kind prior kobs guess mem0 with ⟨mem, e | f'⟩
  · have := C81_refused (lm := lm) (eig := eig) (nanEval := nanEval) (nanStats := nanStats) e hn
    rw [h] at this
    cases this
  · have := (C81_pure (lm := lm) (eig := eig) (nanEval := nanEval) (nanStats := nanStats) hn ho hk).1
    rw [h] at this
    obtain ⟨r, h1, h2⟩ := exBind_ok this.symm
    obtain ⟨res', h3, h4⟩ := exMap_ok h2
    simp only [Prod.mk.injEq] at h4
    obtain ⟨rfl, rfl⟩ := h4
    have hlm : res'.lm = r := by
      unfold gsSetResult at h3
      split at h3
      · rcases hp : allReal r.pars with _ | p
        · rw [hp] at h3
          obtain ⟨s, -, hs⟩ := exMap_ok h3
          rw [← hs]
        · rw [hp] at h3
          dsimp only at h3
          rcases hc : calcS2nR G f' mem p with ⟨m1, e | x⟩
          · rw [hc] at h3; cases h3
          · rw [hc] at h3
            dsimp only at h3
            rcases he : r.parsErr with _ | err
            · rw [he] at h3; cases h3
            · rw [he] at h3
              obtain ⟨s, -, hs⟩ := exMap_ok h3
              rw [← hs]
      · simp only [Except.ok.injEq] at h3
        rw [← h3]
    exact ⟨mem, rfl, by rw [hlm]; exact h3, by rw [hlm]; exact h1⟩

/-- The sum over all the observations of the weighted power of the images. -/
def allPower (ms : List (List (List ℂ))) (kobs : List (List KObs)) : ℝ :=
  ((ms.flatten.zip kobs.flatten).map fun x => kPower x.1 x.2).sum

theorem power_flatten : ∀ (ms : List (List (List ℂ))) (kobs : List (List KObs)),
    List.Forall₂ (fun m (k : List KObs) => List.length m = k.length) ms kobs →
    ((ms.zip kobs).map fun x => totPower x.1 x.2).sum = allPower ms kobs := by
  intro ms kobs h
  induction h with
  | nil => simp [allPower]
  | cons h1 _ ih =>
    unfold allPower at ih ⊢
    simp only [List.zip_cons_cons, List.map_cons, List.sum_cons, List.flatten_cons]
    rw [List.zip_append h1, List.map_append, List.sum_append, ih]
    rfl

theorem imgs_shape {pars : List ℝ} : ∀ (kobs : List (List KObs)) (b : ℕ) (ms : List (List (List ℂ))),
    ModelImages G kind pars b kobs ms → List.Forall₂ (fun m (k : List KObs) => List.length m = k.length) ms kobs := by
  intro kobs
  induction kobs with
  | nil => intro b ms h; simp only [ModelImages] at h; subst h; exact .nil
  | cons ks rest ih =>
    intro b ms h
    obtain ⟨m, ms', rfl, h1, h2⟩ := h
    exact .cons h1.length_eq.symm (ih _ _ h2)

/-- C81: the statistics are in the result exactly when the flags are zero.  The signal to noise ratio is then the square
root of the weighted power of the images of the galaxy with the returned parameters but no ellipticity (zero if
that is not positive); `g`, its covariance and errors are entries of those of the parameters. -/
theorem C81_statistics {mem' : KMem} {res : GSResult guess.length} (ho : OwnMeta kobs)
    (hk : ∀ k ∈ kobs.flatten, KSized k)
    (h : gsGo G kind prior lm eig nanEval nanStats kobs guess mem0 = (mem', .ok (f, res))) :
    (res.stats.isSome ↔ res.lm.flags = 0) ∧
    ∀ c1 c2 g1 g2 rest, res.lm.pars = (c1 :: c2 :: g1 :: g2 :: rest).map some →
      (c1 :: c2 :: g1 :: g2 :: rest).length = guess.length → res.lm.flags = 0 →
      ∃ s err ms, res.stats = some s ∧ res.lm.parsErr = some err ∧
        ModelImages G kind (c1 :: c2 :: 0 :: 0 :: rest) 0 kobs ms ∧
        (0 < allPower ms kobs → s.s2nR = Real.sqrt (allPower ms kobs)) ∧ (allPower ms kobs ≤ 0 → s.s2nR = 0) ∧
        s.g = [g1, g2] ∧ s.gErr = vecSlice err 2 4 ∧ s.gCov = covSlice res.lm.parsCov 2 4 ∧
        fitSetFlux (.std f.kind.name) kobs.length (c1 :: c2 :: g1 :: g2 :: rest) res.lm.parsCov = .ok s.flux := by
  obtain ⟨mem, hnew, hset, -⟩ := gs_parts ho hk h
  obtain ⟨hr, ho'⟩ := new_ready G hnew ho
  obtain ⟨rfl, -, hgl⟩ := new_parts G hnew
  constructor
  · unfold gsSetResult at hset
    by_cases h0 : res.lm.flags = 0
    · rw [if_pos h0] at hset
      refine iff_of_true ?_ h0
      rcases hp : allReal res.lm.pars with _ | p
      · rw [hp] at hset
        obtain ⟨s, -, hs⟩ := exMap_ok hset
        rw [← hs]; rfl
      · rw [hp] at hset
        dsimp only at hset
        rcases hc : calcS2nR G ⟨kind, prior, kobs⟩ mem p with ⟨m1, e | x⟩
        · rw [hc] at hset; cases hset
        · rw [hc] at hset
          dsimp only at hset
          rcases he : res.lm.parsErr with _ | err
          · rw [he] at hset; cases hset
          · rw [he] at hset
            obtain ⟨s, -, hs⟩ := exMap_ok hset
            rw [← hs]; rfl
    · rw [if_neg h0] at hset
      simp only [Except.ok.injEq] at hset
      refine iff_of_false ?_ h0
      rw [← hset]; simp
  · intro c1 c2 g1 g2 rest hp hlen h0
    unfold gsSetResult at hset
    rw [if_pos h0, hp, allReal_map] at hset
    dsimp only at hset
    have hs2 := s2n_pure (G := G) (f := ⟨kind, prior, kobs⟩) hr hk (c1 :: c2 :: g1 :: g2 :: rest)
    rcases hc : calcS2nR G ⟨kind, prior, kobs⟩ mem (c1 :: c2 :: g1 :: g2 :: rest) with ⟨m1, e | x⟩
    · rw [hc] at hset; cases hset
    rw [hc] at hset hs2
    dsimp only at hset hs2
    rcases he : res.lm.parsErr with _ | err
    · rw [he] at hset; cases hset
    rw [he] at hset
    obtain ⟨fl, hfl, hs⟩ := exMap_ok hset
    obtain ⟨S, hS, hx⟩ := exMap_ok hs2.symm
    obtain ⟨ms, hms, hS'⟩ := exMap_ok hS
    have hround : roundPars (c1 :: c2 :: g1 :: g2 :: rest) = c1 :: c2 :: 0 :: 0 :: rest := by
      simp only [roundPars]; norm_num
    rw [hround] at hms
    have hm := (imgsAll_iff G kobs 0 ms (by
      have : (c1 :: c2 :: (0:ℝ) :: 0 :: rest).length = guess.length := hlen
      rw [this, hgl]; simp [GSFit.npars]) hk).mp hms
    have hpow := power_flatten _ _ (imgs_shape _ _ _ hm)
    have hSv : S = allPower ms kobs := by rw [← hS', ← hpow]; norm_num
    refine ⟨_, err, ms, by rw [← hs], rfl, hm, ?_, ?_, rfl, rfl, rfl, hfl⟩
    · intro hpos
      simp only
      rw [← hx, hSv, if_pos (by norm_num; exact hpos)]
    · intro hneg
      simp only
      rw [← hx, hSv, if_neg (by norm_num; exact hneg)]
      norm_num

/-- C81: the flux and its error are those of the parameters for `exp`, `dev` and `gauss`. -/
theorem C81_flux {name : String} {mem' : KMem} {res : GSResult guess.length} (ho : OwnMeta kobs)
    (hk : ∀ k ∈ kobs.flatten, KSized k)
    (h : gsGo G (.simple name) prior lm eig nanEval nanStats kobs guess mem0 = (mem', .ok (f, res)))
    (hf : res.lm.flags = 0) (c1 c2 g1 g2 r : ℝ) (fluxes : List ℝ)
    (hp : res.lm.pars = (c1 :: c2 :: g1 :: g2 :: r :: fluxes).map some)
    (hlen : (c1 :: c2 :: g1 :: g2 :: r :: fluxes).length = guess.length) :
    ∃ s, res.stats = some s ∧
      (∀ F, fluxes = [F] → ∃ h5 : 5 < guess.length, s.flux = .one F (res.lm.parsCov ⟨5, h5⟩ ⟨5, h5⟩).sqrt) ∧
      (kobs.length ≠ 1 → s.flux = .many fluxes (covSlice res.lm.parsCov 5 guess.length)
        (vecSlice (fun i => (res.lm.parsCov i i).sqrt) 5 guess.length)) := by
  obtain ⟨s, err, ms, hs, -, -, -, -, -, -, -, hfl⟩ := (C81_statistics ho hk h).2 c1 c2 g1 g2 (r :: fluxes) hp hlen hf
  obtain ⟨mem, hnew, -⟩ := gs_parts ho hk h
  obtain ⟨rfl, -, hgl⟩ := new_parts G hnew
  have hname : name = "exp" ∨ name = "dev" ∨ name = "gauss" :=
    ((C80_construct G (.simple name) prior kobs guess mem0).mp ⟨_, _, hnew⟩).1 name rfl
  have hn : name ≠ "coellip" ∧ fluxStart name = 5 := by
    rcases hname with rfl | rfl | rfl <;> exact ⟨by decide, by simp [fluxStart]⟩
  refine ⟨s, hs, ?_, ?_⟩
  · rintro F rfl
    have h5 : 5 < guess.length := by rw [← hlen]; simp
    have h1 : kobs.length = 1 := by
      simp [GSFit.npars, GSKind.lead] at hgl hlen
      omega
    refine ⟨h5, ?_⟩
    simp only [fitSetFlux, GSKind.name, if_neg hn.1, hn.2, h1, if_true, parEntry, covDiag, dif_pos h5] at hfl
    simpa [Except.bind, Except.map] using hfl.symm
  · intro h1
    simp only [fitSetFlux, GSKind.name, if_neg hn.1, hn.2, if_neg h1] at hfl
    simpa using hfl.symm

/-- C81 (violation): for spergel and moffat profiles the entry `flux` of a one band fit is `nu` or `beta`, and that of
several bands has it before the fluxes. -/
theorem C81_flux_wrong {mem' : KMem} {res : GSResult guess.length} (hkind : kind = .spergel ∨ kind = .moffat)
    (ho : OwnMeta kobs) (hk : ∀ k ∈ kobs.flatten, KSized k)
    (h : gsGo G kind prior lm eig nanEval nanStats kobs guess mem0 = (mem', .ok (f, res)))
    (hf : res.lm.flags = 0) (c1 c2 g1 g2 r nu : ℝ) (fluxes : List ℝ)
    (hp : res.lm.pars = (c1 :: c2 :: g1 :: g2 :: r :: nu :: fluxes).map some)
    (hlen : (c1 :: c2 :: g1 :: g2 :: r :: nu :: fluxes).length = guess.length) :
    ∃ s, res.stats = some s ∧
      (∀ F, fluxes = [F] → ∃ h5 : 5 < guess.length, s.flux = .one nu (res.lm.parsCov ⟨5, h5⟩ ⟨5, h5⟩).sqrt) ∧
      (kobs.length ≠ 1 → s.flux = .many (nu :: fluxes) (covSlice res.lm.parsCov 5 guess.length)
        (vecSlice (fun i => (res.lm.parsCov i i).sqrt) 5 guess.length)) := by
  obtain ⟨s, err, ms, hs, -, -, -, -, -, -, -, hfl⟩ :=
    (C81_statistics ho hk h).2 c1 c2 g1 g2 (r :: nu :: fluxes) hp hlen hf
  obtain ⟨mem, hnew, -⟩ := gs_parts ho hk h
  obtain ⟨rfl, -, hgl⟩ := new_parts G hnew
  have hn : kind.name ≠ "coellip" ∧ fluxStart kind.name = 5 := by
    rcases hkind with rfl | rfl <;> exact ⟨by decide, by simp [fluxStart, GSKind.name]⟩
  have hlead : kind.lead = 6 := by rcases hkind with rfl | rfl <;> rfl
  refine ⟨s, hs, ?_, ?_⟩
  · rintro F rfl
    have h5 : 5 < guess.length := by rw [← hlen]; simp
    have h1 : kobs.length = 1 := by
      simp [GSFit.npars, hlead] at hgl hlen
      omega
    refine ⟨h5, ?_⟩
    simp only [fitSetFlux, if_neg hn.1, hn.2, h1, if_true, parEntry, covDiag, dif_pos h5] at hfl
    simpa [Except.bind, Except.map] using hfl.symm
  · intro h1
    simp only [fitSetFlux, if_neg hn.1, hn.2, if_neg h1] at hfl
    simpa using hfl.symm

/-- The number of pixels of all the observations. -/
def kPixels (kobs : List (List KObs)) : ℕ :=
  (kobs.flatten.map fun k => k.kimage.grid.nrow * k.kimage.grid.ncol).sum

theorem kResids_length : ∀ (ks : List KObs) (ms : List (List ℂ)), (∀ k ∈ ks, KSized k) →
    List.Forall₂ (fun k (m : List ℂ) => m.length = k.kimage.grid.size) ks ms →
    (kResids ms ks).length = 2 * (ks.map fun k => k.kimage.grid.size).sum := by
  intro ks ms hk h
  induction h with
  | nil => simp [kResids]
  | cons h1 _ ih =>
    have ih := ih fun k hk' => hk k (List.mem_cons_of_mem _ hk')
    have hs := hk _ List.mem_cons_self
    unfold kResids at ih ⊢
    simp only [List.zip_cons_cons, List.flatMap_cons, List.length_append, List.map_cons, List.sum_cons]
    rw [ih]
    simp only [kResid, List.length_append, List.length_map, List.length_zip, hs.image, hs.weight, h1, min_self]
    ring

theorem gs_zero {mem' : KMem} {res : GSResult guess.length} (ho : OwnMeta kobs) (hk : ∀ k ∈ kobs.flatten, KSized k)
    (h : gsGo G kind prior lm eig nanEval nanStats kobs guess mem0 = (mem', .ok (f, res))) (hf : res.lm.flags = 0)
    (p : List ℝ) (hp : res.lm.pars = p.map some) :
    ∃ mem c fdiff, newGSFit G kind prior kobs guess mem0 = (mem, .ok f) ∧ (gsFdiff G f mem p).2 = .ok fdiff ∧
      lmDof fdiff.length f.nPrior guess.length true ≠ 0 ∧
      testCov (eig guess.length)
        (scaledCov guess.length f.nPrior c fdiff (lmDof fdiff.length f.nPrior guess.length true)) = 0 ∧
      res.lm.parsCov0 = some c ∧
      res.lm.parsCov = scaledCov guess.length f.nPrior c fdiff (lmDof fdiff.length f.nPrior guess.length true) ∧
      res.lm.parsErr = some (fun i => Fl.sqrt (res.lm.parsCov i i)) := by
  obtain ⟨mem, hnew, -, hr⟩ := gs_parts ho hk h
  obtain ⟨t, c, fdiff, -, -, -, -, hfd, hdof, ht, hres⟩ := leastsq_zero_gen hr hf
  have hx : t.x = p.map some := by rw [← hp, hres]
  have hfd : (gsEvalS G f nanEval mem t.x).2 = .ok fdiff := hfd
  rw [hx] at hfd
  unfold gsEvalS at hfd
  rw [allReal_map] at hfd
  exact ⟨mem, c, fdiff, hnew, toLm_ok hfd, hdof, ht, by rw [hres], by rw [hres], by rw [hres]⟩

theorem cov_core {mem' : KMem} {res : GSResult guess.length} (ho : OwnMeta kobs) (hk : ∀ k ∈ kobs.flatten, KSized k)
    (h : gsGo G kind prior lm eig nanEval nanStats kobs guess mem0 = (mem', .ok (f, res))) (hf : res.lm.flags = 0)
    (p : List ℝ) (hp : res.lm.pars = p.map some) (hlen : p.length = guess.length)
    (ms : List (List (List ℂ))) (hm : ModelImages G kind p 0 kobs ms)
    (hval : ∀ mem, newGSFit G kind prior kobs guess mem0 = (mem, .ok f) →
      ∃ ds : List ℝ, ds.length = f.nPrior ∧
        (gsFdiff G f mem p).2 = .ok ((ds ++ kResids ms.flatten kobs.flatten).map Fl.fin)) :
    ∃ (c : Fin guess.length → Fin guess.length → Fl) (x : ℝ),
      res.lm.parsCov0 = some c ∧
      (kPixels kobs : ℝ) - guess.length ≠ 0 ∧
      x = ((kResids ms.flatten kobs.flatten).map fun r => r ^ 2).sum /
        ((kPixels kobs : ℝ) - guess.length) ∧
      (∀ i j, res.lm.parsCov i j = c i j * .fin x) ∧
      res.lm.parsErr = some (fun i => Fl.sqrt (res.lm.parsCov i i)) := by
  obtain ⟨mem, c, fdiff, hnew, hfd, hdof, -, hc0, hc, herr⟩ := gs_zero ho hk h hf p hp
  obtain ⟨ds, hdl, hds⟩ := hval mem hnew
  rw [hfd] at hds
  simp only [Except.ok.injEq] at hds
  subst hds
  obtain ⟨rfl, -, hgl⟩ := new_parts G hnew
  have hi := (imgsAll_iff G kobs 0 ms (by rw [hlen, hgl]; simp [GSFit.npars]) hk).mpr hm
  have hl := kResids_length _ _ hk (imgsAll_length G _ _ _ hk hi)
  set tot := (kobs.flatten.map fun k => k.kimage.grid.size).sum with htot
  have hcast : (kPixels kobs : ℝ) = (tot : ℝ) := rfl
  have hd : lmDof ((ds ++ kResids ms.flatten kobs.flatten).map Fl.fin).length
      (⟨kind, prior, kobs⟩ : GSFit).nPrior guess.length true = (tot : ℤ) - guess.length := by
    rw [List.length_map, List.length_append, hl, hdl]
    unfold lmDof
    rw [if_pos rfl]
    push_cast
    rw [add_sub_cancel_left, mul_comm, Int.mul_ediv_cancel _ (by norm_num)]
  rw [hd] at hdof hc
  have hdR : ((tot : ℝ) - guess.length) ≠ 0 := by exact_mod_cast hdof
  refine ⟨c, _, hc0, by rw [hcast]; exact hdR, rfl, ?_, herr⟩
  intro i j
  rw [hc]
  unfold scaledCov
  rw [List.map_append, List.drop_left' (by rw [List.length_map, hdl]), flSumSq_map]
  push_cast
  rw [Fl.fin_div _ _ hdR, hcast]

/-- C81: without a prior, the covariance matrix of the parameters is the one the minimiser returned times the sum of
squared residuals of the images at the returned parameters over the number of pixels less that of the parameters
(never zero), and the errors are the square roots of its diagonal. -/
theorem C81_covariance {mem' : KMem} {res : GSResult guess.length} (ho : OwnMeta kobs)
    (hk : ∀ k ∈ kobs.flatten, KSized k)
    (h : gsGo G kind none lm eig nanEval nanStats kobs guess mem0 = (mem', .ok (f, res))) (hf : res.lm.flags = 0)
    (p : List ℝ) (hp : res.lm.pars = p.map some) (hlen : p.length = guess.length)
    (ms : List (List (List ℂ))) (hm : ModelImages G kind p 0 kobs ms) :
    ∃ (c : Fin guess.length → Fin guess.length → Fl) (x : ℝ),
      res.lm.parsCov0 = some c ∧
      (kPixels kobs : ℝ) - guess.length ≠ 0 ∧
      x = ((kResids ms.flatten kobs.flatten).map fun r => r ^ 2).sum /
        ((kPixels kobs : ℝ) - guess.length) ∧
      (∀ i j, res.lm.parsCov i j = c i j * .fin x) ∧
      res.lm.parsErr = some (fun i => Fl.sqrt (res.lm.parsCov i i)) := by
  refine cov_core ho hk h hf p hp hlen ms hm fun mem hnew => ⟨[], ?_, ?_⟩
  · rw [(new_parts G hnew).1]; rfl
  · exact C80_residuals hnew ho hk [] p hlen ms hm

/-- C81: the same with the joint prior made for the model: the residuals of the prior do not count. -/
theorem C81_covariance_prior (q : JointPrior) {mem' : KMem} {res : GSResult guess.length} (ho : OwnMeta kobs)
    (hk : ∀ k ∈ kobs.flatten, KSized k)
    (hs : Shaped q) (hq : ∀ x ∈ layout q, Constructed x) (hg : ConstructedG q.g) (hc : ConstructedCen q.cen)
    (hcls : q.cls = priorFor kind)
    (hfl : q.fs.length = kobs.length) (hba : UsesFdiff q.cls → ∃ s A, q.g = .ba s A)
    (h : gsGo G kind (some q) lm eig nanEval nanStats kobs guess mem0 = (mem', .ok (f, res))) (hf : res.lm.flags = 0)
    (p : List ℝ) (hp : res.lm.pars = p.map some) (hlen : p.length = guess.length)
    (ms : List (List (List ℂ))) (hm : ModelImages G kind p 0 kobs ms) (L : ℝ) (hL : q.lnprob p = .ok (.fin L)) :
    ∃ (c : Fin guess.length → Fin guess.length → Fl) (x : ℝ),
      res.lm.parsCov0 = some c ∧
      (kPixels kobs : ℝ) - guess.length ≠ 0 ∧
      x = ((kResids ms.flatten kobs.flatten).map fun r => r ^ 2).sum /
        ((kPixels kobs : ℝ) - guess.length) ∧
      (∀ i j, res.lm.parsCov i j = c i j * .fin x) ∧
      res.lm.parsErr = some (fun i => Fl.sqrt (res.lm.parsCov i i)) := by
  refine cov_core ho hk h hf p hp hlen ms hm fun mem hnew => ?_
  obtain ⟨ds, h1, -, h3⟩ := C80_residuals_prior q hnew ho hk hs hq hg hc hcls hfl hba [] p hlen ms hm L hL
  exact ⟨ds, h1, h3⟩

/-- C81: a fit with flags zero never ends at parameters for which an image cannot be made (`numpy.linalg.eig` raises for
entries that are not finite). -/
theorem C81_in_range (hG : GalsimErrs G)
    (heig : ∀ n (c : Fin n → Fin n → Fl), (∃ i j, ¬ (c i j).isFinite) → eig n c = none)
    {mem' : KMem} {res : GSResult guess.length} (ho : OwnMeta kobs) (hk : ∀ k ∈ kobs.flatten, KSized k)
    (h : gsGo G kind prior lm eig nanEval nanStats kobs guess mem0 = (mem', .ok (f, res))) (hf : res.lm.flags = 0)
    (p : List ℝ) (hp : res.lm.pars = p.map some) (hlen : p.length = guess.length) (hpos : 0 < guess.length)
    (hpix : 0 < kPixels kobs) :
    ∃ ms, ModelImages G kind p 0 kobs ms := by
  obtain ⟨mem, c, fdiff, hnew, hfd, hdof, ht, hc0, hc, herr⟩ := gs_zero ho hk h hf p hp
  by_contra hno
  obtain ⟨h1, h2⟩ := C80_out_of_range hG hnew ho hk [] p hlen hno
  change (gsFdiff G f mem p).2 = _ at h1
  rw [hfd] at h1
  simp only [Except.ok.injEq] at h1
  generalize lmDof fdiff.length f.nPrior guess.length true = d at *
  have hnone : eig guess.length (scaledCov guess.length f.nPrior c fdiff d) = none := by
    refine heig _ _ ⟨⟨0, hpos⟩, ⟨0, hpos⟩, ?_⟩
    unfold scaledCov
    have hdr : fdiff.drop f.nPrior =
        List.replicate (2 * kPixels kobs - 1 + 1) .ninf := by
      rw [h1, List.drop_replicate, h2]
      congr 1
      unfold kPixels at hpix ⊢
      omega
    rw [hdr, flSumSq_ninf]
    generalize c ⟨0, hpos⟩ ⟨0, hpos⟩ = a
    have hq : ∃ b : Bool, (Fl.pinf / Fl.fin (d : ℝ)) = if b then .pinf else .ninf := by
      change ∃ b : Bool, Fl.div _ _ = _
      by_cases hdn : (d : ℝ) < 0
      · exact ⟨false, by simp [Fl.div, hdn]⟩
      · exact ⟨true, by simp [Fl.div, hdn]⟩
    obtain ⟨b, hb⟩ := hq
    rw [hb]
    exact (Fl.mul_not_finite (by cases b <;> exact id) a).2
  unfold testCov at ht
  rw [hnone] at ht
  simp [Flags.EIG_NOTFINITE] at ht

/-- C81: with bounds (those of the joint prior), the parameters of a fit with flags zero are numbers inside the
bounds. -/
theorem C81_bounds (inv : (n : ℕ) → NpInv n) (hinv : ∀ n, InvNan (inv n)) (heig : ∀ n, EigFinite (eig n)) (dflt : (guess : List ℝ) → Proc (LmTup guess.length))
    (minpack : (n : ℕ) → List (Option ℝ) → Minpack n) (hsol : ∀ n x f o, ((minpack n x).run f).2 = .ok o →
      o.x.length = n ∧ Function.Bijective o.ipvt)
    (b : List BEntry) (hb : fitBounds prior = some b) (bs : List Bound)
    (hbs : JointPrior.unpackBounds guess.length b = .ok bs) (hord : ∀ l u, (some l, some u) ∈ bs → l ≤ u)
    {mem' : KMem} {res : GSResult guess.length} (ho : OwnMeta kobs) (hk : ∀ k ∈ kobs.flatten, KSized k)
    (h : gsGo G kind prior (lmStd inv dflt minpack) eig nanEval nanStats kobs guess mem0 = (mem', .ok (f, res)))
    (hf : res.lm.flags = 0) (h2 : 2 ≤ guess.length) :
    ∀ (i : ℕ) (c : Bound), bs[i]? = some c → c ≠ (none, none) → ∃ v, res.lm.pars[i]? = some (some v) ∧ StrictlyIn c v := by
  obtain ⟨mem, hnew, -, hr⟩ := gs_parts ho hk h
  rw [hb] at hr
  simp only [lmStd, hbs] at hr
  rw [leastsqboundProc_run _ _ _ _ _ _ _ []] at hr
  exact C40_inside_bounds guess.length _ _ _ _ (inv _) (hinv _) (heig _) h2 _ _ (hsol _) guess rfl bs hord _ hr hf

/-! ### A concrete case -/

/-- An observation of eight pixels. -/
def toyK8 (addr : ℕ) : KObs where
  kimage := ⟨⟨2, 4, 1⟩, List.replicate 8 0⟩
  weight := ⟨2, 4, List.replicate 8 1⟩
  psf := none
  jacobian := ⟨0, 0, 1, 0, 0, 1, 1, 1⟩
  meta_ := addr

theorem toyK8_sized (a : ℕ) : KSized (toyK8 a) :=
  ⟨rfl, ⟨rfl, rfl⟩, rfl, by intro p hp; simp [toyK8] at hp⟩

theorem toy8_images (g F : ℝ) (hg : g ^ 2 + 0 ^ 2 < 1) (hF : 0 ≤ F) (a : ℕ) :
    ModelImages toyGal (.simple "exp") [0, 0, g, 0, 1, F] 0 [[toyK8 a]] [[List.replicate 8 (F : ℂ)]] := by
  refine ⟨_, [], rfl, .cons ⟨F, fun _ => (F : ℂ), Galaxy.simple (G := toyGal) "exp" 0 0 g 0 1 F [F] 0 F F F rfl
    (by norm_num) rfl (if_pos hg) rfl, if_neg (not_lt.mpr hF), ?_, by intro p hp; simp [toyK8] at hp⟩ .nil, rfl⟩
  intro _
  rfl

/-- A minimiser that stays at the guess: a fit with flags zero. -/
example (mem0 : KMem) (nanEval : List (Option ℝ) → Except LmErr (List Fl)) (nanStats : Except PyErr GSStats) :
    ∃ mem' f res, gsGo toyGal (.simple "exp") none
      (fun guess _ => .ask (guess.map some) fun _ => .ret (.ok ⟨guess.map some, some (flOne _), 1, 1⟩))
      (fun n c => open Classical in if ∀ i j, (c i j).isFinite then some [] else none) nanEval nanStats
      [[toyK8 0]] [0, 0, 0.1, 0, 1, 2] mem0 = (mem', .ok (f, res)) ∧ res.lm.flags = 0 ∧
    res.lm.pars = ([0, 0, 0.1, 0, 1, 2] : List ℝ).map some := by
  have hk : ∀ k ∈ [[toyK8 0]].flatten, KSized k := by
    intro k hk
    simp at hk
    rw [hk]; exact toyK8_sized _
  have ho : OwnMeta [[toyK8 0]] := by simp [OwnMeta]
  have hm := toy8_images 0.1 2 (by norm_num) (by norm_num) 0
  have hnew : ∃ mem f, newGSFit toyGal (.simple "exp") none [[toyK8 0]] [0, 0, 0.1, 0, 1, 2] mem0 = (mem, .ok f) := by
    rw [C80_construct]
    refine ⟨by intro name h; cases h; exact .inl rfl, rfl, ?_⟩
    intro b hb
    have : b = 0 := by simpa using hb
    subst this
    obtain ⟨_, _, -, h1, -⟩ := hm
    cases h1 with
    | cons h1 _ => obtain ⟨gal, _, h, -⟩ := h1; exact ⟨gal, h⟩
  obtain ⟨mem, f, hnew⟩ := hnew
  have hfd : (gsFdiff toyGal f mem [0, 0, 0.1, 0, 1, 2]).2 = _ := C80_residuals hnew ho hk [] _ rfl _ hm
  obtain ⟨hpure, -⟩ := C81_pure
    (lm := fun guess _ => .ask (guess.map some) fun _ => .ret (.ok ⟨guess.map some, some (flOne _), 1, 1⟩))
    (eig := fun n c => open Classical in if ∀ i j, (c i j).isFinite then some [] else none) (nanEval := nanEval)
    (nanStats := nanStats) hnew ho hk
  have hev : (gsEvalS toyGal f nanEval mem (([0, 0, 0.1, 0, 1, 2] : List ℝ).map some)).2 =
      .ok ((kResids [List.replicate 8 (2 : ℂ)] [toyK8 0]).map Fl.fin) := by
    unfold gsEvalS
    rw [allReal_map]
    change toLm (gsFdiff toyGal f mem [0, 0, 0.1, 0, 1, 2]).2 = _
    rw [hfd]
    rfl
  obtain ⟨rfl, -, -⟩ := new_parts toyGal hnew
  set R := kResids [List.replicate 8 (2 : ℂ)] [toyK8 0] with hR
  have hRl : R.length = 16 := by rw [hR]; simp [kResids, kResid, toyK8]
  have hd : lmDof (R.map Fl.fin).length 0 ([0, 0, 0.1, 0, 1, 2] : List ℝ).length true = 2 := by
    rw [List.length_map, hRl]
    rfl
  obtain ⟨r, hr, hr0, hrp, -, -, hrc, hre⟩ := C40_success ([0, 0, 0.1, 0, 1, 2] : List ℝ).length
    (fun y => (gsEvalS toyGal ⟨.simple "exp", none, [[toyK8 0]]⟩ nanEval mem y).2)
    (fun c => open Classical in if ∀ i j, (c i j).isFinite then some [] else none) 0 true
    ⟨([0, 0, 0.1, 0, 1, 2] : List ℝ).map some, some (flOne _), 1, 1⟩ (flOne _) (R.map Fl.fin) ⟨le_refl _, by norm_num⟩
    rfl hev (by rw [hd]; norm_num) (by
      rw [hd]
      have hsc : ∀ i j, scaledCov ([0, 0, 0.1, 0, 1, 2] : List ℝ).length 0 (flOne _) (R.map Fl.fin) 2 i j =
          .fin ((1 : Matrix _ _ ℝ) i j * ((R.map fun x => x ^ 2).sum / 2)) := by
        intro i j
        unfold scaledCov flOne
        rw [List.drop_zero, flSumSq_map, Fl.fin_div _ _ (by norm_num), Fl.fin_mul]
        norm_num
      have hfin : ∀ i j, (scaledCov ([0, 0, 0.1, 0, 1, 2] : List ℝ).length 0 (flOne _)
          (R.map Fl.fin) 2 i j).isFinite := by intro i j; rw [hsc]; trivial
      have hneg : ¬ ∃ i, Fl.lt (scaledCov ([0, 0, 0.1, 0, 1, 2] : List ℝ).length 0 (flOne _)
          (R.map Fl.fin) 2 i i) (.fin 0) := by
        rintro ⟨i, hi⟩
        rw [hsc] at hi
        simp only [Matrix.one_apply_eq, one_mul, Fl.lt] at hi
        have : 0 ≤ (R.map fun x => x ^ 2).sum :=
          List.sum_nonneg (by intro y hy; obtain ⟨x, -, rfl⟩ := List.mem_map.mp hy; positivity)
        linarith
      unfold testCov
      simp only [if_pos hfin, if_neg hneg]
      simp)
  obtain ⟨hrd, -⟩ := new_ready toyGal hnew ho
  have hset : ∃ s, (gsSetResult toyGal ⟨.simple "exp", none, [[toyK8 0]]⟩ nanStats mem r).2 = .ok ⟨r, some s⟩ := by
    have hround := toy8_images 0 2 (by norm_num) (by norm_num) 0
    have hi := (imgsAll_iff toyGal [[toyK8 0]] 0 _ (by simp [GSKind.lead]) hk).mpr hround
    have h2 := s2n_pure (G := toyGal) (f := ⟨.simple "exp", none, [[toyK8 0]]⟩) hrd hk [0, 0, 0.1, 0, 1, 2]
    have hrp2 : roundPars ([0, 0, 0.1, 0, 1, 2] : List ℝ) = [0, 0, 0, 0, 1, 2] := by simp only [roundPars]; norm_num
    rw [hrp2] at h2
    simp only [hi, Except.map] at h2
    unfold gsSetResult
    rw [if_pos hr0, hrp, allReal_map]
    dsimp only
    rcases hx : calcS2nR toyGal ⟨.simple "exp", none, [[toyK8 0]]⟩ mem [0, 0, 0.1, 0, 1, 2] with ⟨m1, e | x⟩
    · rw [hx] at h2; cases h2
    · simp only [hre]
      exact ⟨_, rfl⟩
  obtain ⟨s, hset⟩ := hset
  refine ⟨_, ⟨.simple "exp", none, [[toyK8 0]]⟩, ⟨r, some s⟩, Prod.ext rfl ?_, hr0, hrp⟩
  rw [hpure]
  simp only [Proc.run]
  rw [hev]
  dsimp only
  rw [show (⟨.simple "exp", none, [[toyK8 0]]⟩ : GSFit).nPrior = 0 from rfl, hr]
  change Except.map _ _ = _
  rw [hset]
  rfl

end

end Ngmix.Props
