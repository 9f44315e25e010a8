import Verif.Spec.Masked
import Verif.Props.Pixels
import Verif.Model.Fitter
import Verif.Model.ObsList
import Verif.Model.Guessers
import Verif.Model.Admom
import Verif.Model.WSums
import Verif.Props.PrePSFRun
import Verif.Props.PSFFlux

/-! C104: image values in pixels without weight. -/

namespace Ngmix.Props

open Ngmix Ngmix.Spec

/-! ### The list of pixels -/

theorem masked_mkPix {w im im' : Image} (h : SameWhereUsed w im im') (j : Jacobian) (p : ℕ × ℕ)
    (hp : p ∈ rowMajor im.nrow im.ncol) : SamePixel (mkPix im w j p) (mkPix im' w j p) := by
  refine ⟨rfl, rfl, rfl, rfl, fun h0 => ?_⟩
  have hm := mem_rowMajor.1 hp
  refine h.2.2 _ hm.1 _ hm.2 ?_
  by_contra hneg
  refine h0 ?_
  simp only [mkPix]
  split_ifs with hl
  · exact Real.sqrt_zero
  · exact Real.sqrt_eq_zero'.2 (not_lt.1 hneg)

/-- C104.  With `ignore_zero_weight` (the default) the pixels an observation offers to the fitters do not depend on image
values where the weight is zero or negative.  Without it, the lists differ at most in the values of pixels whose inverse
error is zero. -/
theorem C104_pixels (w im im' : Image) (j : Jacobian) (h : SameWhereUsed w im im')
    (hshape : w.nrow = im.nrow ∧ w.ncol = im.ncol) :
    makePixels im' w j true = makePixels im w j true ∧
    ∃ px px', makePixels im w j false = .ok px ∧ makePixels im' w j false = .ok px' ∧ SamePixels px px' := by
  obtain ⟨h1, h2, h3⟩ := h
  have hsh' : w.nrow = im'.nrow ∧ w.ncol = im'.ncol := by rw [h1, h2]; exact hshape
  constructor
  · obtain ⟨e1, e2⟩ := C17_make_pixels_ignore im w j hshape
    obtain ⟨e1', e2'⟩ := C17_make_pixels_ignore im' w j hsh'
    rw [h1, h2] at e1' e2'
    by_cases hg : positiveWeight im.nrow im.ncol w.get = []
    · rw [e1 hg, e1' hg]
    · obtain ⟨px, hp, hf⟩ := e2 hg
      obtain ⟨px', hp', hf'⟩ := e2' hg
      rw [hp, hp']
      congr 1
      have hsub : ∀ p ∈ positiveWeight im.nrow im.ncol w.get, im'.get p.1 p.2 = im.get p.1 p.2 := by
        intro p hpm
        unfold positiveWeight at hpm
        rw [List.mem_filter] at hpm
        have hm := mem_rowMajor.1 hpm.1
        exact h3 _ hm.1 _ hm.2 (by simpa using hpm.2)
      clear hp hp' e1 e2 e1' e2' hg
      revert px px' hf hf' hsub
      generalize positiveWeight im.nrow im.ncol w.get = l
      induction l with
      | nil =>
          intro px hf px' hf' _
          cases hf; cases hf'; rfl
      | cons p l ih =>
          intro px hf px' hf' hsub
          cases hf with
          | cons a as =>
            cases hf' with
            | cons b bs =>
              rw [ih _ as _ bs fun q hq => hsub q (List.mem_cons_of_mem _ hq)]
              congr 1
              have e := hsub p (List.mem_cons_self ..)
              obtain ⟨a1, a2, a3, a4, a5⟩ := a
              obtain ⟨b1, b2, b3, b4, b5⟩ := b
              rw [← a1] at b1
              rw [Prod.mk.injEq] at b1
              refine Pixel.ext b1.2 b1.1 (b2.trans a2.symm) (b3.trans (e.trans a3.symm)) ?_
              exact (sq_eq_sq₀ b4 a4).1 (b5.trans a5.symm)
  · have hall : ∀ i : Image, makePixels i w j false = .ok ((rowMajor i.nrow i.ncol).map (mkPix i w j)) := by
      intro i
      unfold makePixels
      simp only [Bool.false_eq_true, if_false]
      rw [fillPixels_eq, filterMap_all]
      rw [filterMap_all, List.length_map, List.length_replicate, rowMajor_length]
    refine ⟨_, _, hall im, hall im', ?_⟩
    rw [h1, h2]
    unfold SamePixels
    rw [List.forall₂_map_left_iff, List.forall₂_map_right_iff, List.forall₂_same]
    exact fun p hp => masked_mkPix ⟨h1, h2, h3⟩ j p hp

/-- C104.  The signal to noise sums of an observation do not depend on them. -/
theorem C104_s2n (w im im' : Image) (h : SameWhereUsed w im im') (hshape : w.nrow = im.nrow ∧ w.ncol = im.ncol) :
    s2nSums im' w = s2nSums im w := by
  have hmem : ∀ p ∈ whereWeightPositive w, im'.get p.1 p.2 = im.get p.1 p.2 := by
    rintro ⟨r, c⟩ hp
    unfold whereWeightPositive at hp
    simp only [List.mem_flatMap, List.mem_map, List.mem_filter, List.mem_range, decide_eq_true_eq, Prod.mk.injEq] at hp
    obtain ⟨r', hr, c', ⟨hc, hw⟩, rfl, rfl⟩ := hp
    exact h.2.2 _ (hshape.1 ▸ hr) _ (hshape.2 ▸ hc) hw
  unfold s2nSums
  simp only
  rw [List.map_congr_left hmem]

/-! ### Likelihoods and fits -/

theorem foldl_same {σ : Type} {f : σ → Pixel → σ} (hf : ∀ s p p', SamePixel p p' → f s p' = f s p) :
    ∀ {px px' : List Pixel} (_ : SamePixels px px') (s : σ), px'.foldl f s = px.foldl f s
  | _, _, .nil, _ => rfl
  | _, _, .cons a as, s => by rw [List.foldl_cons, List.foldl_cons, hf _ _ _ a, foldl_same hf as]

theorem masked_times {p p' : Pixel} (h : SamePixel p p') (f : ℝ → ℝ) : f p'.val * p'.ierr = f p.val * p.ierr := by
  obtain ⟨_, _, _, h4, h5⟩ := h
  by_cases h0 : p.ierr = 0
  · rw [h4, h0, mul_zero, mul_zero]
  · rw [h4, h5 h0]

theorem masked_length {px px' : List Pixel} (h : SamePixels px px') : px'.length = px.length := h.length_eq.symm

theorem masked_loglikeLoop (gm : List Gauss) {px px' : List Pixel} (h : SamePixels px px') :
    loglikeLoop gm px' = loglikeLoop gm px := by
  unfold loglikeLoop
  refine foldl_same (fun s p p' hp => ?_) h _
  obtain ⟨h1, h2, h3, h4, h5⟩ := hp
  simp only
  rw [h1, h2, h3, h4]
  by_cases h0 : p.ierr = 0
  · rw [h0]; simp
  · rw [h5 h0]

theorem masked_getLoglike (gm : List Gauss) {px px' : List Pixel} (h : SamePixels px px') :
    getLoglike gm px' = getLoglike gm px := by
  unfold getLoglike
  rcases setNormsIfNeeded gm with ⟨gm', _ | _⟩
  · rfl
  · simp only [masked_loglikeLoop gm' h]

theorem masked_fdiffLoop (gm : List Gauss) {px px' : List Pixel} (h : SamePixels px px') (start : ℕ) (l : List ℝ) :
    fdiffLoop gm px' start l = fdiffLoop gm px start l := by
  unfold fdiffLoop
  rw [foldl_same (fun s p p' hp => ?_) h]
  have := masked_times hp fun x => gmixEvalFast gm p.v p.u p.area - x
  obtain ⟨h1, h2, h3, _, _⟩ := hp
  simp only [h1, h2, h3] at this ⊢
  rw [this]

theorem masked_fdiffLoopFl (gm : List Gauss) {px px' : List Pixel} (h : SamePixels px px') (start : ℕ) (l : List Fl) :
    fdiffLoopFl gm px' start l = fdiffLoopFl gm px start l := by
  unfold fdiffLoopFl
  rw [foldl_same (fun s p p' hp => ?_) h]
  have := masked_times hp fun x => gmixEvalFast gm p.v p.u p.area - x
  obtain ⟨h1, h2, h3, _, _⟩ := hp
  simp only [h1, h2, h3] at this ⊢
  rw [this]

theorem masked_fillFdiffFl (gm : List Gauss) {px px' : List Pixel} (h : SamePixels px px') (start : ℕ) (l : List Fl) :
    fillFdiffFl gm px' start l = fillFdiffFl gm px start l := by
  unfold fillFdiffFl
  rcases setNormsIfNeeded gm with ⟨gm', _ | _⟩
  · rfl
  · simp only [masked_fdiffLoopFl gm' h]

/-- C104.  Log likelihood, residuals and model signal to noise of a mixture, and the norms it is left with, are the same on
lists of pixels that differ only in values without weight. -/
theorem C104_likelihood (gm : List Gauss) (px px' : List Pixel) (h : SamePixels px px') :
    getLoglike gm px' = getLoglike gm px ∧
    (∀ start l, fillFdiffNb gm px' start l = fillFdiffNb gm px start l) ∧
    modelS2nSum gm px' = modelS2nSum gm px := by
  refine ⟨masked_getLoglike gm h, fun start l => ?_, ?_⟩
  · unfold fillFdiffNb
    rcases setNormsIfNeeded gm with ⟨gm', _ | _⟩
    · rfl
    · simp only [masked_fdiffLoop gm' h]
  · unfold modelS2nSum
    rcases setNormsIfNeeded gm with ⟨gm', _ | _⟩
    · rfl
    · simp only
      rw [foldl_same (fun s p p' hp => ?_) h]
      obtain ⟨h1, h2, h3, h4, _⟩ := hp
      simp only [h1, h2, h3, h4]

theorem masked_initOne (kind : FMKind) (dopsf : Bool) (bp : List ℝ) {i i' : Img} (h : SameImg i i') :
    initOne kind dopsf bp i' = initOne kind dopsf bp i := by
  unfold initOne; rw [h.1]

theorem masked_initBand (kind : FMKind) (dopsf : Bool) (bp : List ℝ) : ∀ {is is' : List Img},
    List.Forall₂ SameImg is is' → initBand kind dopsf bp is' = initBand kind dopsf bp is
  | _, _, .nil => rfl
  | _, _, .cons a as => by unfold initBand; rw [masked_initOne kind dopsf bp a, masked_initBand kind dopsf bp as]

theorem masked_initAll (kind : FMKind) (dopsf : Bool) (pars : List ℝ) : ∀ {obs obs' : List (List Img)} (_ : SameImgs obs obs')
    (b : ℕ), initAll kind dopsf pars b obs' = initAll kind dopsf pars b obs
  | _, _, .nil, _ => rfl
  | _, _, .cons a as, b => by
      unfold initAll
      simp only [masked_initBand kind dopsf _ a, masked_initAll kind dopsf pars as]

theorem masked_fillOne (dopsf : Bool) (bp : List ℝ) {i i' : Img} (h : SameImg i i') (g : GMixObj × GMixObj) :
    fillOne dopsf bp i' g = fillOne dopsf bp i g := by
  unfold fillOne; rw [h.1]

theorem masked_fillBand (dopsf : Bool) (bp : List ℝ) : ∀ {is is' : List Img} (_ : List.Forall₂ SameImg is is')
    (gs : List (GMixObj × GMixObj)), fillBand dopsf bp is' gs = fillBand dopsf bp is gs
  | _, _, .nil, _ => rfl
  | _, _, .cons _ _, [] => rfl
  | _, _, .cons a as, g :: gs => by
      unfold fillBand
      rw [masked_fillOne dopsf bp a, masked_fillBand dopsf bp as]

theorem masked_fillAll (kind : FMKind) (dopsf : Bool) (pars : List ℝ) : ∀ {obs obs' : List (List Img)} (_ : SameImgs obs obs')
    (b : ℕ) (st : FMState), fillAll kind dopsf pars b obs' st = fillAll kind dopsf pars b obs st
  | _, _, .nil, _, _ => rfl
  | _, _, .cons _ _, _, [] => rfl
  | _, _, .cons a as, b, gs :: st => by
      unfold fillAll
      simp only [masked_fillBand dopsf _ a, masked_fillAll kind dopsf pars as]

theorem masked_fdiffBand : ∀ {is is' : List Img} (_ : List.Forall₂ SameImg is is') (gs : List (GMixObj × GMixObj))
    (l : List Fl) (start : ℕ), fdiffBand is' gs l start = fdiffBand is gs l start
  | _, _, .nil, _, _, _ => rfl
  | _, _, .cons _ _, [], _, _ => rfl
  | _, _, .cons a as, g :: gs, l, start => by
      unfold fdiffBand
      simp only [masked_fillFdiffFl _ a.2, masked_length a.2, masked_fdiffBand as]

theorem masked_fdiffAll : ∀ {obs obs' : List (List Img)} (_ : SameImgs obs obs') (st : FMState)
    (l : List Fl) (start : ℕ), fdiffAll obs' st l start = fdiffAll obs st l start
  | _, _, .nil, _, _, _ => rfl
  | _, _, .cons _ _, [], _, _ => rfl
  | _, _, .cons a as, gs :: st, l, start => by
      unfold fdiffAll
      simp only [masked_fdiffBand a, masked_fdiffAll as]

theorem masked_loglikeBand : ∀ {is is' : List Img} (_ : List.Forall₂ SameImg is is') (gs : List (GMixObj × GMixObj))
    (acc : LogLike), loglikeBand is' gs acc = loglikeBand is gs acc
  | _, _, .nil, _, _ => rfl
  | _, _, .cons _ _, [], _ => rfl
  | _, _, .cons a as, g :: gs, acc => by
      unfold loglikeBand
      simp only [masked_getLoglike _ a.2, masked_loglikeBand as]

theorem masked_loglikeAll : ∀ {obs obs' : List (List Img)} (_ : SameImgs obs obs') (st : FMState)
    (acc : LogLike), loglikeAll obs' st acc = loglikeAll obs st acc
  | _, _, .nil, _, _ => rfl
  | _, _, .cons _ _, [], _ => rfl
  | _, _, .cons a as, gs :: st, acc => by
      unfold loglikeAll
      simp only [masked_loglikeBand a, masked_loglikeAll as]

theorem masked_bandLen : ∀ {is is' : List Img} (_ : List.Forall₂ SameImg is is'),
    (is'.map fun i => i.pixels.length).sum = (is.map fun i => i.pixels.length).sum
  | _, _, .nil => rfl
  | _, _, .cons a as => by simp only [List.map_cons, List.sum_cons, masked_length a.2, masked_bandLen as]

theorem masked_totpix : ∀ {obs obs' : List (List Img)} (_ : SameImgs obs obs'),
    ((obs'.flatten).map fun i => i.pixels.length).sum = ((obs.flatten).map fun i => i.pixels.length).sum
  | _, _, .nil => rfl
  | _, _, .cons a as => by
      simp only [List.flatten_cons, List.map_append, List.sum_append, masked_bandLen a, masked_totpix as]

theorem masked_calcFdiff (kind : FMKind) (prior : Option JointPrior) (dopsf : Bool) {obs obs' : List (List Img)}
    (h : SameImgs obs obs') (st : FMState) (pars : List ℝ) :
    calcFdiff ⟨kind, prior, obs', dopsf⟩ st pars = calcFdiff ⟨kind, prior, obs, dopsf⟩ st pars := by
  have hs : FitModel.fdiffSize ⟨kind, prior, obs', dopsf⟩ = FitModel.fdiffSize ⟨kind, prior, obs, dopsf⟩ := by
    unfold FitModel.fdiffSize FitModel.totpix
    simp only [masked_totpix h, h.length_eq]
  unfold calcFdiff calcFdiffTry
  simp only [hs, masked_fillAll kind dopsf pars h, masked_fdiffAll h]

theorem masked_calcLnprob (kind : FMKind) (prior : Option JointPrior) (dopsf : Bool) {obs obs' : List (List Img)}
    (h : SameImgs obs obs') (st : FMState) (pars : List ℝ) :
    calcLnprob ⟨kind, prior, obs', dopsf⟩ st pars = calcLnprob ⟨kind, prior, obs, dopsf⟩ st pars := by
  unfold calcLnprob calcLnprobTry
  simp only [masked_fillAll kind dopsf pars h, masked_loglikeAll h]

theorem masked_new (kind : FMKind) (prior : Option JointPrior) {obs obs' : List (List Img)} (h : SameImgs obs obs')
    (guess : List ℝ) : newFitModel kind prior obs' guess =
      (newFitModel kind prior obs guess).map fun x => ({ x.1 with obs := obs' }, x.2) := by
  have hl : obs'.length = obs.length := h.length_eq.symm
  unfold newFitModel
  rw [hl]
  rcases kind.npars obs.length with _ | npars
  · rfl
  rcases kind.nPriorPars prior obs.length with _ | _
  · rfl
  simp only [Except.bind]
  by_cases hg : guess.length ≠ npars
  · rw [if_pos hg, if_pos hg]; rfl
  rw [if_neg hg, if_neg hg]
  cases h with
  | nil => rfl
  | cons a as =>
    cases a with
    | nil => rfl
    | cons b bs =>
      rename_i i i' _ _
      have hp : i'.hasPsfGmix = i.hasPsfGmix := by unfold Img.hasPsfGmix; rw [b.1]
      simp only [hp]
      rw [masked_initAll kind _ guess (.cons (.cons b bs) as) 0]
      rcases initAll kind i.hasPsfGmix guess 0 _ with e | st
      · cases e <;> rfl
      · rfl

/-- C104.  A model fit: it is set up with the same mixtures or the same exception, and at any parameters, after any history,
residuals and log probability are the same. -/
theorem C104_fit (kind : FMKind) (prior : Option JointPrior) (obs obs' : List (List Img)) (guess : List ℝ)
    (h : SameImgs obs obs') :
    (newFitModel kind prior obs' guess).map (fun x => x.2) = (newFitModel kind prior obs guess).map (fun x => x.2) ∧
    ∀ fm fm' st0 st0', newFitModel kind prior obs guess = .ok (fm, st0) → newFitModel kind prior obs' guess = .ok (fm', st0') →
      ∀ st pars, calcFdiff fm' st pars = calcFdiff fm st pars ∧ calcLnprob fm' st pars = calcLnprob fm st pars := by
  have hn := masked_new kind prior h guess
  constructor
  · rw [hn]
    rcases newFitModel kind prior obs guess with _ | _ <;> rfl
  · intro fm fm' st0 st0' e e' st pars
    rw [e] at hn
    rw [hn] at e'
    simp only [Except.map, Except.ok.injEq, Prod.mk.injEq] at e'
    obtain ⟨rfl, rfl⟩ := e'
    have hfm : fm.obs = obs := by
      unfold newFitModel at e
      obtain ⟨_, _, e⟩ := exBind_ok e
      obtain ⟨_, _, e⟩ := exBind_ok e
      split_ifs at e
      split at e
      · split at e
        · simp only [Except.ok.injEq, Prod.mk.injEq] at e; rw [← e.1]
        · cases e
        · cases e
      · cases e
    obtain ⟨k, p, o, d⟩ := fm
    simp only at hfm ⊢
    subst hfm
    exact ⟨masked_calcFdiff k p d h st pars, masked_calcLnprob k p d h st pars⟩

theorem masked_evalS (kind : FMKind) (prior : Option JointPrior) (dopsf : Bool) {obs obs' : List (List Img)}
    (h : SameImgs obs obs') (nanEval : List (Option ℝ) → Except LmErr (List Fl)) :
    evalS ⟨kind, prior, obs', dopsf⟩ nanEval = evalS ⟨kind, prior, obs, dopsf⟩ nanEval := by
  funext st x
  unfold evalS
  rcases allReal x with _ | p
  · rfl
  · simp only [masked_calcFdiff kind prior dopsf h]

theorem masked_setFitResult {n : ℕ} (kind : FMKind) (prior : Option JointPrior) (dopsf : Bool) {obs obs' : List (List Img)}
    (h : SameImgs obs obs') (nanStats : Except PyErr FitStats) (st : FMState) (r : LmResult n) :
    setFitResult ⟨kind, prior, obs', dopsf⟩ nanStats st r = setFitResult ⟨kind, prior, obs, dopsf⟩ nanStats st r := by
  have hl : obs'.length = obs.length := h.length_eq.symm
  unfold setFitResult
  simp only [masked_calcLnprob kind prior dopsf h, hl]

/-- C104.  A whole fit with any minimiser: the same exception, or the same result and mixtures. -/
theorem C104_go (kind : FMKind) (prior : Option JointPrior)
    (lm : (guess : List ℝ) → Option (List BEntry) → Proc (LmTup guess.length))
    (eig : (n : ℕ) → (Fin n → Fin n → Fl) → Option (List Fl))
    (nanEval : List (Option ℝ) → Except LmErr (List Fl)) (nanStats : Except PyErr FitStats)
    (obs obs' : List (List Img)) (guess : List ℝ) (h : SameImgs obs obs') :
    (fitterGo kind prior lm eig nanEval nanStats obs' guess).map (fun x => x.2) =
      (fitterGo kind prior lm eig nanEval nanStats obs guess).map (fun x => x.2) := by
  have hl : obs'.length = obs.length := h.length_eq.symm
  unfold fitterGo
  rw [masked_new kind prior h guess, hl]
  rcases e : newFitModel kind prior obs guess with _ | ⟨fm, st⟩
  · rfl
  have hfm : fm.obs = obs := by
    unfold newFitModel at e
    obtain ⟨_, _, e⟩ := exBind_ok e
    obtain ⟨_, _, e⟩ := exBind_ok e
    split_ifs at e
    split at e
    · split at e
      · simp only [Except.ok.injEq, Prod.mk.injEq] at e; rw [← e.1]
      · cases e
      · cases e
    · cases e
  obtain ⟨k, p, o, d⟩ := fm
  simp only at hfm
  subst hfm
  rcases kind.nPriorPars prior o.length with _ | npp
  · rfl
  simp only [Except.map, Except.bind, masked_evalS k p d h]
  rcases Proc.runS (evalS ⟨k, p, o, d⟩ nanEval) st (lm guess (fitBounds prior)) with ⟨st1, t⟩
  simp only
  rcases runLeastsq guess.length (fun y => (evalS ⟨k, p, o, d⟩ nanEval st1 y).2) (eig guess.length) npp false t with _ | r
  · rfl
  simp only [masked_setFitResult k p d h]
  rcases setFitResult ⟨k, p, o, d⟩ nanStats _ r with ⟨st3, _ | res⟩ <;> rfl

/-! ### EM -/

theorem masked_anyZero {px px' : List Pixel} (h : SamePixels px px') : anyZeroWeight px' = anyZeroWeight px := by
  classical
  unfold anyZeroWeight
  unfold SamePixels at h
  induction h with
  | nil => rfl
  | cons a _ ih => rw [List.any_cons, List.any_cons, ih, a.2.2.2.1]

theorem masked_filled (conv : List Gauss) (sky : ℝ) {px px' : List Pixel} (h : SamePixels px px') :
    (if anyZeroWeight px = true then fillZeroWeight conv sky px' else px') =
      (if anyZeroWeight px = true then fillZeroWeight conv sky px else px) := by
  classical
  by_cases hz : anyZeroWeight px = true
  · rw [if_pos hz, if_pos hz]
    unfold fillZeroWeight
    clear hz
    unfold SamePixels at h
    induction h with
    | nil => rfl
    | cons a _ ih =>
      rw [List.map_cons, List.map_cons, ih]
      congr 1
      obtain ⟨h1, h2, h3, h4, h5⟩ := a
      rw [h4]
      split_ifs with hi
      · exact Pixel.ext h1 h2 h3 (by simp only [h1, h2, h3]) rfl
      · exact Pixel.ext h1 h2 h3 (h5 (by intro h0; exact hi h0.le)) h4
  · rw [if_neg hz, if_neg hz]
    unfold anyZeroWeight at hz
    unfold SamePixels at h
    induction h with
    | nil => rfl
    | cons a _ ih =>
      rw [List.any_cons, Bool.or_eq_true, not_or] at hz
      rw [ih hz.2]
      congr 1
      obtain ⟨h1, h2, h3, h4, h5⟩ := a
      have h0 := hz.1
      rw [decide_eq_true_eq] at h0
      exact Pixel.ext h1 h2 h3 (h5 (by intro hh; exact h0 hh.le)) h4

theorem masked_emRun (kind : EMKind) (conf : EMConf) {px px' : List Pixel} (h : SamePixels px px') (gmix psf conv : List Gauss) :
    emRun kind conf px' gmix psf conv (anyZeroWeight px') = emRun kind conf px gmix psf conv (anyZeroWeight px) := by
  rw [masked_anyZero h]
  unfold emRun
  rcases gmixSetNorms conv with ⟨conv', _ | _⟩
  · rfl
  simp only
  by_cases hm : conf.maxiter ≤ 0
  · rw [if_pos hm, if_pos hm]
  rw [if_neg hm, if_neg hm]
  obtain ⟨k, hk⟩ : ∃ k, conf.maxiter.toNat = k + 1 := ⟨conf.maxiter.toNat - 1, by omega⟩
  rw [hk]
  unfold emLoop emIter
  simp only [masked_filled conv' conf.sky h]

/-- C104.  EM with a starting sky sent by the caller: pixels without weight are filled with what the present mixture
predicts before they are used, so what they held is never seen. -/
theorem C104_em (f : EMFitter) (o o' : EMObs) (guess : GMixObj) (sky : ℝ) (h : SameEM o o') :
    emGo f o' guess (some sky) = emGo f o guess (some sky) := by
  obtain ⟨h1, h2, h3⟩ := h
  have hp : emPsf o' = emPsf o := by unfold emPsf; rw [h2]
  unfold emGo emStart
  simp only [hp]
  rcases e : o.pixels with _ | px
  · rcases e' : o'.pixels with _ | px'
    · rfl
    · rw [e, e'] at h3; exact h3.elim
  · rcases e' : o'.pixels with _ | px'
    · rw [e, e'] at h3; exact h3.elim
    · rw [e, e'] at h3
      simp only [masked_emRun f.kind _ h3]

/-- C104, violation: without a starting sky the smallest and largest value of the whole image set the sky and every pixel is
used with the same weight.  Two images that differ in a masked pixel start from different skies and different pixels. -/
theorem C104_em_sky : ∃ (w im im' : Image) (j : Jacobian) (psf : Option GMixObj),
    SameWhereUsed w im im' ∧ w.nrow = im.nrow ∧ w.ncol = im.ncol ∧
    ∃ px o o' s s', makePixels im w j true = .ok px ∧ makePixels im' w j true = .ok px ∧
      emStart ⟨im, j, some px, psf⟩ none = .ok (o, s) ∧ emStart ⟨im', j, some px, psf⟩ none = .ok (o', s') ∧ s' ≠ s ∧
      (∃ q q', o.pixels = some q ∧ o'.pixels = some q' ∧ q.length = 2 ∧ q'.length = 2 ∧ px.length = 1) := by
  have hsh : SameWhereUsed ⟨1, 2, fun _ c => if c = 0 then 1 else 0⟩ ⟨1, 2, fun _ c => if c = 0 then 0 else 1⟩
      ⟨1, 2, fun _ c => if c = 0 then 0 else 2⟩ := by
    refine ⟨rfl, rfl, fun r _ c _ h => ?_⟩
    by_cases hc : c = 0
    · simp [hc]
    · simp [hc] at h
  have hpos : positiveWeight 1 2 (fun _ c => if c = 0 then (1 : ℝ) else 0) = [(0, 0)] := by
    simp [positiveWeight, rowMajor, List.range_succ]
  have hpos1 : positiveWeight 1 2 (fun _ _ => (1 : ℝ)) = [(0, 0), (0, 1)] := by
    simp [positiveWeight, rowMajor, List.range_succ]
  refine ⟨_, _, _, ⟨0, 0, 1, 0, 0, 1, 1, 1⟩, none, hsh, rfl, rfl, ?_⟩
  obtain ⟨px, hp, hf⟩ := (C17_make_pixels_ignore ⟨1, 2, fun _ c => if c = 0 then 0 else 1⟩
    ⟨1, 2, fun _ c => if c = 0 then 1 else 0⟩ ⟨0, 0, 1, 0, 0, 1, 1, 1⟩ ⟨rfl, rfl⟩).2 (by rw [hpos]; simp)
  have hall : ∀ a : ℝ, 0 ≤ a → ∃ o q, emStart ⟨⟨1, 2, fun _ c => if c = 0 then 0 else a⟩, ⟨0, 0, 1, 0, 0, 1, 1, 1⟩, some px, none⟩
      none = .ok (o, 0.001 * a) ∧ o.pixels = some q ∧ q.length = 2 := by
    intro a ha
    have hprep : prepImage ⟨1, 2, fun _ c => if c = 0 then 0 else a⟩ =
        .ok (⟨1, 2, fun _ c => (if c = 0 then 0 else a) + 0.001 * a⟩, 0.001 * a) := by
      have hv : imVals ⟨1, 2, fun _ c => if c = 0 then 0 else a⟩ = [0, a] := by simp [imVals, List.range_succ]
      unfold prepImage imMin imMax
      simp only [hv, Except.bind, List.foldl_cons, List.foldl_nil, min_eq_left ha, max_eq_right ha, sub_zero]
    obtain ⟨q, hq, hqf⟩ := (C17_make_pixels_ignore ⟨1, 2, fun _ c => (if c = 0 then 0 else a) + 0.001 * a⟩
      ⟨1, 2, fun _ _ => 1⟩ ⟨0, 0, 1, 0, 0, 1, 1, 1⟩ ⟨rfl, rfl⟩).2 (by rw [hpos1]; simp)
    refine ⟨⟨⟨1, 2, fun _ c => (if c = 0 then 0 else a) + 0.001 * a⟩, ⟨0, 0, 1, 0, 0, 1, 1, 1⟩, some q, none⟩, q, ?_, rfl, ?_⟩
    · unfold emStart prepObs
      simp only [hprep, Except.bind, hq, Except.map]
    · rw [← hqf.length_eq, hpos1]; rfl
  obtain ⟨o, q, h1, h2, h3⟩ := hall 1 (by norm_num)
  obtain ⟨o', q', h1', h2', h3'⟩ := hall 2 (by norm_num)
  refine ⟨px, o, o', _, _, hp, ?_, h1, h1', by norm_num, q, q', h2, h2', h3, h3', ?_⟩
  · rw [(C104_pixels _ _ _ _ hsh ⟨rfl, rfl⟩).1]; exact hp
  · rw [← hf.length_eq, hpos]; rfl

/-! ### Fluxes of psfs -/

theorem infOf_mul_zero (y : ℝ) : Fl.infOf y * .fin 0 = .nan := by
  unfold Fl.infOf
  split_ifs
  · rfl
  · show Fl.infOf 0 = _
    simp [Fl.infOf]
  · show Fl.infOf (-0) = _
    simp [Fl.infOf]

theorem masked_zero (x : Fl) (a b : ℝ) : x * .fin a * .fin 0 = x * .fin b * .fin 0 := by
  rcases x with _ | _ | _ | x
  · rfl
  · show Fl.infOf a * .fin 0 = Fl.infOf b * .fin 0
    rw [infOf_mul_zero, infOf_mul_zero]
  · show Fl.infOf (-a) * .fin 0 = Fl.infOf (-b) * .fin 0
    rw [infOf_mul_zero, infOf_mul_zero]
  · simp

theorem masked_sq (x : Fl) (a b : ℝ) : (x - .fin a).sq * .fin 0 = (x - .fin b).sq * .fin 0 := by
  rcases x with _ | _ | _ | x
  · rfl
  · rfl
  · rfl
  · simp

theorem masked_prod (m : List Fl) {o o' : PFObs} (h : SamePF o o') :
    flProd (flProd m (o'.image.map Fl.fin)) (o.weight.map Fl.fin) =
      flProd (flProd m (o.image.map Fl.fin)) (o.weight.map Fl.fin) := by
  obtain ⟨-, -, -, -, -, hl, h6⟩ := h
  unfold flProd
  refine List.ext_getElem? fun i => ?_
  simp only [List.getElem?_zipWith, List.getElem?_map]
  by_cases h0 : o.weight[i]? = some 0
  · rw [h0]
    rcases m[i]? with _ | x
    · rfl
    rcases e : o.image[i]? with _ | a <;> rcases e' : o'.image[i]? with _ | b
    · rfl
    · exfalso
      rw [List.getElem?_eq_none_iff] at e
      have := (List.getElem?_eq_some_iff.1 e').1
      omega
    · exfalso
      rw [List.getElem?_eq_none_iff] at e'
      have := (List.getElem?_eq_some_iff.1 e).1
      omega
    · simp only [Option.map_some]
      rw [masked_zero x b a]
  · rw [h6 i h0]

theorem masked_chi2 (m : List Fl) {o o' : PFObs} (h : SamePF o o') :
    pfChi2 m (o'.image.map Fl.fin) (o.weight.map Fl.fin) = pfChi2 m (o.image.map Fl.fin) (o.weight.map Fl.fin) := by
  obtain ⟨-, -, -, -, -, hl, h6⟩ := h
  unfold pfChi2 flProd
  congr 1
  refine List.ext_getElem? fun i => ?_
  simp only [List.getElem?_zipWith, List.getElem?_map]
  by_cases h0 : o.weight[i]? = some 0
  · rw [h0]
    rcases m[i]? with _ | x
    · rfl
    rcases e : o.image[i]? with _ | a <;> rcases e' : o'.image[i]? with _ | b
    · rfl
    · exfalso
      rw [List.getElem?_eq_none_iff] at e
      have := (List.getElem?_eq_some_iff.1 e').1
      omega
    · exfalso
      rw [List.getElem?_eq_none_iff] at e'
      have := (List.getElem?_eq_some_iff.1 e).1
      omega
    · simp only [Option.map_some]
      rw [masked_sq x b a]
  · rw [h6 i h0]

/-- Observations of the fit with their models. -/
def SamePairs (l l' : List (PFObs × PFModel)) : Prop :=
  List.Forall₂ (fun a b => SamePF a.1 b.1 ∧ b.2 = a.2) l l'

theorem masked_pass1 : ∀ {l l' : List (PFObs × PFModel)} (_ : SamePairs l l') (x m : Fl),
    (∃ e, pfPass1 l x m = .error e ∧ pfPass1 l' x m = .error e) ∨
    ∃ p p' s, pfPass1 l x m = .ok (p, s) ∧ pfPass1 l' x m = .ok (p', s) ∧ SamePairs p p'
  | _, _, .nil, x, m => .inr ⟨[], [], _, rfl, rfl, .nil⟩
  | (o, md) :: rest, (o', md') :: rest', .cons a as, x, m => by
      obtain ⟨ho, rfl : md' = md⟩ := a
      unfold pfPass1
      rw [ho.2.2.1]
      rcases pfModel1 md' o.coords with e | r
      · exact .inl ⟨e, rfl, rfl⟩
      simp only [Except.bind]
      rw [ho.2.2.2.2.2.1]
      by_cases hl : r.2.length ≠ o.image.length
      · rw [if_pos hl, if_pos hl]; exact .inl ⟨_, rfl, rfl⟩
      rw [if_neg hl, if_neg hl, ho.1, masked_prod r.2 ho]
      rcases masked_pass1 as (x + flSum (flProd (flProd r.2 (o.image.map Fl.fin)) (o.weight.map Fl.fin)))
        (m + flSum (flProd (flProd r.2 r.2) (o.weight.map Fl.fin))) with ⟨e, h1, h2⟩ | ⟨p, p', s, h1, h2, h3⟩
      · exact .inl ⟨e, by rw [h1]; rfl, by rw [h2]; rfl⟩
      · exact .inr ⟨(o, r.1) :: p, (o', r.1) :: p', s, by rw [h1]; rfl, by rw [h2]; rfl, .cons ⟨ho, rfl⟩ h3⟩

theorem masked_pass2 (flux : Fl) : ∀ {l l' : List (PFObs × PFModel)} (_ : SamePairs l l') (c : Fl),
    pfPass2 flux l' c = pfPass2 flux l c
  | _, _, .nil, _ => rfl
  | (o, md) :: rest, (o', md') :: rest', .cons a as, c => by
      obtain ⟨ho, rfl : md' = md⟩ := a
      unfold pfPass2
      rw [ho.2.2.1, ho.1]
      rcases pfModel2 md' o.coords flux with e | img
      · rfl
      simp only [Except.bind]
      rw [masked_chi2 img ho, masked_pass2 flux as]

theorem masked_npix : ∀ {l l' : List PFObs} (_ : List.Forall₂ SamePF l l'),
    l'.map (fun o => o.weight) = l.map (fun o => o.weight) ∧ l'.map PFObs.npixels = l.map PFObs.npixels
  | _, _, .nil => ⟨rfl, rfl⟩
  | _, _, .cons a as => by
      simp only [List.map_cons, a.1, a.2.1, (masked_npix as).1, (masked_npix as).2, and_self]

theorem masked_finish {l l' : List PFObs} (h : List.Forall₂ SamePF l l') (n : ℕ) (a b c : Fl) :
    pfFinish l' n a b c = pfFinish l n a b c := by
  have hn : pfNpix l' = pfNpix l := by
    unfold pfNpix
    have := congrArg (List.map fun w : List ℝ => (w.filter fun x => decide (0 < x)).length) (masked_npix h).1
    rw [List.map_map, List.map_map] at this
    exact congrArg List.sum this
  have hd : pfDof l' = pfDof l := by unfold pfDof; rw [hn]
  unfold pfFinish
  rw [hd]

theorem masked_each (f : PFObs → Except PyErr PFModel) (hf : ∀ o o', SamePF o o' → f o' = f o) :
    ∀ {l l' : List PFObs} (_ : List.Forall₂ SamePF l l'), pfEach f l' = pfEach f l
  | _, _, .nil => rfl
  | _, _, .cons a as => by unfold pfEach; rw [hf _ _ a, masked_each f hf as]

theorem masked_zip : ∀ {l l' : List PFObs} (_ : List.Forall₂ SamePF l l') (ms : List PFModel),
    SamePairs (l.zip ms) (l'.zip ms)
  | _, _, .nil, _ => .nil
  | _, _, .cons _ _, [] => .nil
  | _, _, .cons a as, _ :: ms => .cons ⟨a, rfl⟩ (masked_zip as ms)

theorem masked_fst : ∀ {l l' : List (PFObs × PFModel)} (_ : SamePairs l l'),
    List.Forall₂ SamePF (l.map Prod.fst) (l'.map Prod.fst)
  | _, _, .nil => .nil
  | _, _, .cons a as => .cons a.1 (masked_fst as)

/-- C104.  Psf and template fluxes: flux, error, chi squared, degrees of freedom and flags do not depend on image values with
weight zero. -/
theorem C104_psf_flux (obs obs' : List PFObs) (doPsf normalizePsf : Bool) (h : List.Forall₂ SamePF obs obs') :
    psfFlux obs' doPsf normalizePsf = psfFlux obs doPsf normalizePsf := by
  have hsrc : ∀ o o', SamePF o o' → pfSource doPsf o' = pfSource doPsf o := fun o o' h => by
    unfold pfSource; rw [h.2.2.2.1, h.2.2.2.2.1]
  have hg : ∀ o o', SamePF o o' → pfGmix doPsf normalizePsf o' = pfGmix doPsf normalizePsf o := fun o o' h => by
    unfold pfGmix; rw [h.2.2.2.1, h.2.2.2.2.1]
  have ht : ∀ o o', SamePF o o' → pfTemplate doPsf normalizePsf o' = pfTemplate doPsf normalizePsf o := fun o o' h => by
    unfold pfTemplate; rw [hsrc o o' h]
  have hgo : ∀ (l l' : List (PFObs × PFModel)) (n : ℕ), SamePairs l l' → pfGo ⟨l', n⟩ = pfGo ⟨l, n⟩ := by
    intro l l' n hl
    unfold pfGo
    rcases masked_pass1 hl (.fin 0) (.fin 0) with ⟨e, h1, h2⟩ | ⟨p, p', s, h1, h2, h3⟩
    · simp only [h1, h2]; rfl
    · simp only [h1, h2, Except.bind, masked_finish (masked_fst hl), masked_pass2 _ h3]
  unfold psfFlux newPFFit
  cases h with
  | nil => rfl
  | cons a as =>
    simp only
    rw [hsrc _ _ a]
    rcases pfSource doPsf _ with _ | s
    · rfl
    simp only [Except.bind]
    by_cases hs : (s.gmix.isNone && s.template.isNone) = true
    · rw [if_pos hs, if_pos hs]
    rw [if_neg hs, if_neg hs]
    have hf : ∀ o o', SamePF o o' → (if s.gmix.isSome = true then pfGmix doPsf normalizePsf else
        pfTemplate doPsf normalizePsf) o' = (if s.gmix.isSome = true then pfGmix doPsf normalizePsf else
        pfTemplate doPsf normalizePsf) o := by
      intro o o' h
      split_ifs
      · exact hg o o' h
      · exact ht o o' h
    rw [masked_each _ hf (.cons a as)]
    rcases pfEach _ _ with _ | ms
    · rfl
    simp only [Except.map]
    rw [(masked_npix (.cons a as)).2]
    exact hgo _ _ _ (masked_zip (.cons a as) ms)

/-- C104, violation: a negative weight masks a pixel for every fit that uses the list of pixels, but enters a psf flux with its
sign. -/
theorem C104_negative_weight : ∃ (o o' : PFObs), o'.weight = o.weight ∧ o'.npixels = o.npixels ∧ o'.psf = o.psf ∧
    (∀ i : ℕ, ∀ w, o.weight[i]? = some w → 0 < w → o'.image[i]? = o.image[i]?) ∧
    ∃ r r', psfFlux [o] true false = .ok r ∧ psfFlux [o'] true false = .ok r' ∧
      r.flags = 0 ∧ r.flux = .fin 1 ∧ r'.flags = 0 ∧ r'.flux = .fin 2 := by
  have hrun : ∀ x : ℝ, 0 ≤ x → x ≤ 3 → ∃ r, psfFlux [⟨[0, 3, x], [1, 1, -1], 2, [], ⟨none, none⟩, some ⟨none, some [1, 1, 1]⟩⟩]
      true false = .ok r ∧ r.flags = 0 ∧ r.flux = .fin (3 - x) := by
    intro x hx0 hx3
    obtain ⟨r, hr, ho⟩ := C46_templates
      [⟨[0, 3, x], [1, 1, -1], 2, [], ⟨none, none⟩, some ⟨none, some [1, 1, 1]⟩⟩] [[1, 1, 1]] true false (by simp)
      (by intro o ho s hs
          simp only [List.head?_cons, Option.mem_def, Option.some.injEq] at ho
          subst ho
          simp only [pfSource, if_true, Except.ok.injEq] at hs
          rw [← hs])
      (.cons ⟨⟨_, rfl, rfl⟩, by norm_num, rfl, rfl⟩ .nil)
    set px := pixelsOf _ _ with hpx
    have e : px = [(1, 0, 1), (1, 3, 1), (1, x, -1)] := by
      simp [hpx, pixelsOf, unitTemplate]
    have hp : tPower px = 1 := by rw [e]; norm_num [tPower]
    have hc : tCorr px = 3 - x := by rw [e]; simp [tCorr]; ring
    obtain ⟨f, k1, k2, -, -, k3, -⟩ := ho.fit (by rw [hp]; norm_num)
    rw [hp, hc, mul_one] at k2
    subst k2
    refine ⟨r, hr, (k3 (by simp) ?_).1, k1⟩
    have hchi : tChi2 px (3 - x) = 2 * (x * (3 - x)) := by rw [e]; simp [tChi2]; ring
    rw [hchi, hp]
    have : 0 ≤ x * (3 - x) := mul_nonneg hx0 (by linarith)
    simp only [List.map_cons, List.map_nil, List.sum_cons, List.sum_nil]
    norm_num
    linarith
  obtain ⟨r, h1, h2, h3⟩ := hrun 2 (by norm_num) (by norm_num)
  obtain ⟨r', h1', h2', h3'⟩ := hrun 1 (by norm_num) (by norm_num)
  refine ⟨⟨[0, 3, 2], [1, 1, -1], 2, [], ⟨none, none⟩, some ⟨none, some [1, 1, 1]⟩⟩,
    ⟨[0, 3, 1], [1, 1, -1], 2, [], ⟨none, none⟩, some ⟨none, some [1, 1, 1]⟩⟩, rfl, rfl, rfl, ?_, r, r', h1, h1', h2, by rw [h3]; norm_num, h2', by rw [h3']; norm_num⟩
  intro i w hw hpos
  match i with
  | 0 => rfl
  | 1 => rfl
  | 2 =>
    simp only [List.getElem?_cons_succ, List.getElem?_cons_zero, Option.some.injEq] at hw
    linarith
  | _ + 3 => rfl

/-! ### Moments and guesses -/

/-- C104.  Adaptive moments, gaussian weighted moments and any other function of the pixels, on an observation that ignores
pixels without weight. -/
theorem C104_moments (w im im' : Image) (j : Jacobian) (h : SameWhereUsed w im im')
    (hshape : w.nrow = im.nrow ∧ w.ncol = im.ncol) (px px' : List Pixel) (hp : makePixels im w j true = .ok px)
    (hp' : makePixels im' w j true = .ok px') :
    (∀ conf area guess, admomGo conf px' area guess = admomGo conf px area guess) ∧
    (∀ weight higher area, gaussMomGo weight higher (.obs px' area) = gaussMomGo weight higher (.obs px area)) := by
  have := (C104_pixels w im im' j h hshape).1
  rw [hp, hp', Except.ok.injEq] at this
  subst this
  exact ⟨fun _ _ _ => rfl, fun _ _ _ => rfl⟩

/-- C104, violation: pre-psf moments use all of the image whatever the weights: with other weights (a pixel masked or not) the
moments are the same, only their errors change. -/
theorem C104_prepsf (cfg : PreCfg) (o : PreObs) (w : Image) (noPsf : Bool) :
    (preMoments cfg (some { o with weight := w }) noPsf).map (fun x => x.1.map fun m => (m.mf, m.mr, m.mp, m.mc)) =
      (preMoments cfg (some o) noPsf).map fun x => x.1.map fun m => (m.mf, m.mr, m.mp, m.mc) := by
  have hc : checkObs (some { o with weight := w }) noPsf =
      (checkObs (some o) noPsf).map fun x => ({ o with weight := w }, x.2) := by
    unfold checkObs
    simp only
    by_cases h : o.image.nrow ≠ o.image.ncol
    · rw [if_pos h, if_pos h]; rfl
    · rw [if_neg h, if_neg h]
      rcases noPsf with _ | _
      · rcases o.psf with _ | p
        · rfl
        · simp only
          by_cases hw : ¬ sameWcs p.2 o.jac
          · rw [if_pos hw, if_pos hw]; rfl
          · rw [if_neg hw, if_neg hw]; rfl
      · rfl
  unfold preMoments
  rw [hc]
  rcases hx : checkObs (some o) noPsf with e | ⟨o', psf⟩
  · rfl
  have ho : o' = o := by
    unfold checkObs at hx
    simp only at hx
    split_ifs at hx
    rcases noPsf with _ | _
    · rcases hp : o.psf with _ | p
      · rw [hp] at hx; cases hx
      · rw [hp] at hx
        simp only at hx
        split_ifs at hx
        cases hx; rfl
    · cases hx; rfl
  subst ho
  have ht : targetDim cfg { o' with weight := w } psf = targetDim cfg o' psf := rfl
  simp only [Except.map, Except.bind, ht]
  by_cases h0 : o'.image.nrow = 0
  · rw [if_pos h0, if_pos h0]
  rw [if_neg h0, if_neg h0]
  rcases padAndFft o'.image o'.jac.row0 o'.jac.col0 (targetDim cfg o' psf) cfg.apRad with _ | kim
  · rfl
  simp only
  rcases psfFft psf (targetDim cfg o' psf) kim.nrow with _ | kpsf
  · rfl
  simp only
  rcases preKernels cfg kim.nrow o'.jac with _ | K
  · rfl
  simp only
  by_cases hk : kpsf.nrow ≠ kpsf.ncol
  · rw [if_pos hk, if_pos hk]
  rw [if_neg hk, if_neg hk]
  simp only
  unfold measureMoments
  simp only
  split_ifs <;> rfl

/-- C104, violation: the flux guessed for a psf is the sum of the whole image, masked pixels included. -/
theorem C104_psf_guess : ∃ (w im im' : Image), SameWhereUsed w im im' ∧ ∀ scale px,
    psfTFlux false ⟨scale, (imVals im').sum, px⟩ ≠ psfTFlux false ⟨scale, (imVals im).sum, px⟩ := by
  refine ⟨⟨1, 2, fun _ c => if c = 0 then 1 else 0⟩, ⟨1, 2, fun _ c => if c = 0 then 1 else 0⟩,
    ⟨1, 2, fun _ c => if c = 0 then 1 else 5⟩, ⟨rfl, rfl, fun r _ c _ h => ?_⟩, fun scale px h => ?_⟩
  · by_cases hc : c = 0
    · simp [hc]
    · simp [hc] at h
  · simp [psfTFlux, defaultTFlux, imVals, List.range_succ] at h

/-! ### Cases -/

/-- An image with a masked pixel, seen with a good and a bad value there. -/
example : SameWhereUsed ⟨1, 2, fun _ c => if c = 0 then 1 else 0⟩ ⟨1, 2, fun _ c => if c = 0 then 7 else 3⟩
    ⟨1, 2, fun _ c => if c = 0 then 7 else 1e9⟩ := by
  refine ⟨rfl, rfl, fun r _ c _ h => ?_⟩
  by_cases hc : c = 0
  · simp [hc]
  · simp [hc] at h

/-- A fit of two pixels, one of them masked; EM on the same pixels. -/
example (psf : Except PyErr GMixObj) (im im' : Image) (j : Jacobian) :
    SameImgs [[⟨[⟨0, 0, 1, 5, 1⟩, ⟨1, 0, 1, 3, 0⟩], psf⟩]] [[⟨[⟨0, 0, 1, 5, 1⟩, ⟨1, 0, 1, 1e9, 0⟩], psf⟩]] ∧
    SameEM ⟨im, j, some [⟨0, 0, 1, 5, 1⟩, ⟨1, 0, 1, 3, 0⟩], none⟩ ⟨im', j, some [⟨0, 0, 1, 5, 1⟩, ⟨1, 0, 1, 1e9, 0⟩], none⟩ := by
  have h : SamePixels [⟨0, 0, 1, 5, 1⟩, ⟨1, 0, 1, 3, 0⟩] [⟨0, 0, 1, 5, 1⟩, ⟨1, 0, 1, 1e9, 0⟩] :=
    .cons ⟨rfl, rfl, rfl, rfl, fun _ => rfl⟩ (.cons ⟨rfl, rfl, rfl, rfl, fun h => absurd rfl h⟩ .nil)
  exact ⟨.cons (.cons ⟨rfl, h⟩ .nil) .nil, rfl, rfl, h⟩

/-- A template flux with a masked pixel. -/
example : SamePF ⟨[2, 4], [1, 0], 2, [], ⟨none, none⟩, some ⟨none, some [1, 2]⟩⟩
    ⟨[2, 1e9], [1, 0], 2, [], ⟨none, none⟩, some ⟨none, some [1, 2]⟩⟩ := by
  refine ⟨rfl, rfl, rfl, rfl, rfl, rfl, fun i hi => ?_⟩
  match i with
  | 0 => rfl
  | 1 => exact absurd rfl hi
  | _ + 2 => rfl

/-- Pre-psf moments that are measured. -/
example (get : ℕ → ℕ → ℝ) (w : Image) : ∃ mm, (preMoments PreExample.cfg (some { PreExample.obs ⟨4, 4, get⟩ with weight := w })
    false).map (fun x => x.1.map fun m => (m.mf, m.mr, m.mp, m.mc)) = .ok (some mm) := by
  obtain ⟨mm, K, h, -⟩ := PreExample.measured get
  exact ⟨_, by rw [C104_prepsf, h]; rfl⟩

end Ngmix.Props
