import Verif.Props.Fitter
import Verif.Props.JointPrior

/-!
# Concrete case of C41 and C77: a fit with a joint prior

A coelliptical fit of one gaussian to one image of any pixels (more than six), with psf and joint prior; a minimiser that
evaluates once and ends elsewhere.
-/

namespace Ngmix.Props

open Ngmix Ngmix.Spec

noncomputable section

/-- A joint prior for a coelliptical model of one gaussian. -/
def exPriorCo : JointPrior :=
  ⟨.coellip 1, ⟨0, 0, 1, 1⟩, .disk 1, [.normal 0 1 none], [.normal 3 1 none]⟩

theorem exCo_make (T F : ℝ) : makeGmixModel [0, 0, 0, 0, T, F] (.num 7) =
    .ok ⟨.coellip, 6, 1, [0, 0, 0, 0, T, F], [gauss2dSet F 0 0 (0.5 * T) 0 (0.5 * T)]⟩ := by
  have hg : g1g2ToE1E2nb 0 0 = .ok (0, 0) := by
    unfold g1g2ToE1E2nb
    norm_num
  have : makeGmixModel [0, 0, 0, 0, T, F] (.num 7) = newGMixCoellip [0, 0, 0, 0, T, F] := rfl
  rw [this]
  simp [newGMixCoellip, fillObj, resetObj, built, fillFunc, fillCoellip, hg, Except.map, coGauss]

theorem exCo_fit (prior : Option JointPrior) (a : List Pixel) : ∃ st D,
    newFitModel (.coellip 1) prior [[⟨a, .ok exPsf⟩]] [0, 0, 0, 0, 4, 1] =
      .ok (⟨.coellip 1, prior, [[⟨a, .ok exPsf⟩]], true⟩, st) ∧
    IsModel ⟨.coellip 1, prior, [[⟨a, .ok exPsf⟩]], true⟩ [0, 0, 0, 0, 1, 2] D := by
  obtain ⟨ga, hga⟩ : ∃ g, initOne (.coellip 1) true [0, 0, 0, 0, 4, 1] ⟨a, .ok exPsf⟩ = .ok g := by
    unfold initOne
    simp only [FMKind.arg, exCo_make, Except.bind, if_true, convolveObj, ex_convolve, Except.map]
    exact ⟨_, rfl⟩
  obtain ⟨D2, hD2⟩ := ex_ready 1 2 one_pos
  refine ⟨[[ga]], [[D2]], ?_, rfl, ?_⟩
  · unfold newFitModel
    cases prior <;> simp [Except.bind, FMKind.nPriorPars, FMKind.npars, Img.hasPsfGmix, initAll, FMKind.bandPars, initBand, hga, Except.map]
  · intro k is ds hk hk'
    match k, hk, hk' with
    | 0, hk, hk' =>
      simp only [List.getElem?_cons_zero, Option.some.injEq] at hk hk'
      subst hk; subst hk'
      refine ⟨_, rfl, .cons ?_ .nil⟩
      unfold modelFor
      simp only [FMKind.arg, exCo_make, Except.bind, if_true, ex_convolve]
      exact hD2
    | k + 1, hk, hk' => simp at hk

theorem exCo_prior (n : ℕ) : exPriorCo.lnprob [0, 0, 0, 0, 1, 2] = .ok (.fin (-1)) ∧
    ∃ pre, exPriorCo.fillFdiff [0, 0, 0, 0, 1, 2] (List.replicate (n + 5) (.fin 0)) = .ok (pre, 5) := by
  constructor
  · simp [exPriorCo, JointPrior.lnprob, JointPrior.npars, JointPrior.oneDTerms, JointPrior.at2, JointPrior.at1, JointPrior.parAt,
      Except.bind, JointPrior.sumTerms, Prior1.lnprob, PriorG.lnprob, CenPrior.lnprob]
    norm_num
  · simp [exPriorCo, JointPrior.fillFdiff, JointPrior.npars, JointPrior.lnTerms, JointPrior.oneDTerms, JointPrior.at2, JointPrior.at1, JointPrior.parAt,
      Except.bind, JointPrior.writeTerms, JointPrior.fdWrite, Prior1.lnprob, PriorG.lnprob, Except.map]
    rw [if_neg (by norm_num)]
    exact ⟨_, rfl⟩

theorem exCo_go (a : List Pixel) (hpix : 6 < a.length)
    (nanEval : List (Option ℝ) → Except LmErr (List Fl)) (nanStats : Except PyErr FitStats) :
    ∃ fm st' D, ∃ res : FitResult ([0, 0, 0, 0, 4, 1] : List ℝ).length,
      fitterGo (.coellip 1) (some exPriorCo) (exLm [0, 0, 0, 0, 1, 2]) exEig nanEval nanStats
        [[⟨a, .ok exPsf⟩]] [0, 0, 0, 0, 4, 1] = .ok (fm, st', res) ∧
      res.lm.flags = 0 ∧ res.lm.pars = [0, 0, 0, 0, 1, 2].map some ∧
      IsModel fm [0, 0, 0, 0, 1, 2] D ∧ fm.totpix = a.length ∧ fm.fdiffSize = a.length + 5 := by
  obtain ⟨st, D, hnew, hD⟩ := exCo_fit (some exPriorCo) a
  have htot : FitModel.totpix ⟨.coellip 1, some exPriorCo, [[⟨a, .ok exPsf⟩]], true⟩ = a.length := by
    simp [FitModel.totpix]
  have hsize : FitModel.fdiffSize ⟨.coellip 1, some exPriorCo, [[⟨a, .ok exPsf⟩]], true⟩ = a.length + 5 := by
    unfold FitModel.fdiffSize
    rw [htot]
    simp [FMKind.nPriorPars]
  obtain ⟨hln, pre, hpre⟩ := exCo_prior a.length
  obtain ⟨h0, out, hcf, hol, -, hdrop⟩ := C41_partition (.coellip 1) exPriorCo [[⟨a, .ok exPsf⟩]] _ (by simp) ⟨rfl, rfl⟩ rfl _ st hnew [] [0, 0, 0, 0, 1, 2] rfl D hD
    pre 5 (by rw [hsize]; exact hpre)
  change (calcFdiff _ st _).2 = _ at hcf
  have hl := C47_lnprob _ (some exPriorCo) _ _ _ st hnew [] [0, 0, 0, 0, 1, 2] rfl D hD (.fin (-1)) hln
  change (calcLnprob _ st _).2 = _ at hl
  rw [htot] at hol hl
  obtain ⟨hp1, -⟩ := C77_pure (lm := exLm [0, 0, 0, 0, 1, 2]) (eig := exEig) (nanEval := nanEval)
    (nanStats := nanStats) _ st hnew 5 h0
  generalize hfm : (⟨.coellip 1, some exPriorCo, [[⟨a, .ok exPsf⟩]], true⟩ : FitModel) = fm at *
  have hk : fm.kind = .coellip 1 ∧ fm.obs.length = 1 := by subst hfm; exact ⟨rfl, rfl⟩
  have hev : (evalS fm nanEval st ([0, 0, 0, 0, 1, 2].map some)).2 = .ok out := by
    rw [evalS_map, hcf]; rfl
  have hd : ((out.length : ℤ) - (5 : ℕ) - 6) = (a.length : ℤ) - 6 := by
    rw [hol]; push_cast; ring
  have hdpos : (0 : ℝ) < ((a.length : ℤ) - 6 : ℤ) := by
    have : (0 : ℤ) < (a.length : ℤ) - 6 := by omega
    exact_mod_cast this
  have hS : 0 ≤ ((residuals fm D).map fun x => x ^ 2).sum := List.sum_nonneg (by
    intro x hx
    obtain ⟨y, -, rfl⟩ := List.mem_map.1 hx
    positivity)
  obtain ⟨x, hx⟩ : ∃ x : ℝ, ((residuals fm D).map fun x => x ^ 2).sum / (((a.length : ℤ) - 6 : ℤ) : ℝ) = x := ⟨_, rfl⟩
  have hx0 : 0 ≤ x := by rw [← hx]; exact div_nonneg hS hdpos.le
  let r : LmResult 6 := ⟨0, 2, some 1, [0, 0, 0, 0, 1, 2].map some,
    some (fun i => Fl.sqrt (.fin ((1 : Matrix (Fin 6) (Fin 6) ℝ) i i * x))),
    some (fun i j => .fin ((1 : Matrix (Fin 6) (Fin 6) ℝ) i j)), fun i j => .fin ((1 : Matrix (Fin 6) (Fin 6) ℝ) i j * x)⟩
  have hcov : testCov (exEig 6) (fun i j => Fl.fin ((1 : Matrix (Fin 6) (Fin 6) ℝ) i j * x)) = 0 := by
    unfold testCov exEig
    rw [if_neg (by simp [Fl.isFinite])]
    simp [Fl.lt, hx0]
  have hrun : runLeastsq 6 (fun y => (evalS fm nanEval st y).2) (exEig 6) 5 false
      ((exLm [0, 0, 0, 0, 1, 2] [0, 0, 0, 0, 4, 1] (fitBounds (some exPriorCo))).run fun y => (evalS fm nanEval st y).2) = .ok r := by
    simp only [exLm, Proc.run, hev]
    simp only [runLeastsq, runLeastsqTry, hev, lmDof, Bool.false_eq_true, if_false]
    rw [if_neg (by norm_num), if_neg (by norm_num)]
    rw [show ((6 : ℕ) : ℤ) = 6 from rfl, hd, if_neg (by omega), hdrop, flSumSq_map, Fl.fin_div _ _ hdpos.ne', hx]
    simp only [flOne, Fl.fin_mul]
    exact (congrArg _ (if_neg (not_not.2 hcov))).trans rfl
  obtain ⟨s, hs⟩ : ∃ s, (setFitResult fm nanStats st r).2 = .ok ⟨r, some s⟩ := by
    have hr0 : r.flags = 0 := rfl
    have hrp : allReal r.pars = some [0, 0, 0, 0, 1, 2] := allReal_map _
    unfold setFitResult
    rw [if_pos hr0, hrp]
    dsimp only
    rcases hc : calcLnprob fm st [0, 0, 0, 0, 1, 2] with ⟨st1, cc⟩
    rw [hc] at hl
    dsimp only at hl
    subst hl
    dsimp only
    rw [hk.1, hk.2]
    simp only [show FMKind.npars (.coellip 1) 1 = .ok 6 from rfl, Except.bind]
    unfold fitStats
    have h6 : (a.length : ℤ) - (6 : ℕ) ≠ 0 := by push_cast; omega
    simp only [show r.parsErr = some (fun i => Fl.sqrt (.fin ((1 : Matrix (Fin 6) (Fin 6) ℝ) i i * x))) from rfl]
    rw [if_neg h6]
    exact ⟨_, rfl⟩
  have hp1' : (fitterGo (.coellip 1) (some exPriorCo) (exLm [0, 0, 0, 0, 1, 2]) exEig nanEval nanStats
        [[⟨a, .ok exPsf⟩]] [0, 0, 0, 0, 4, 1]).map (fun r => r.2.2) = .ok ⟨r, some s⟩ := by
    rw [hp1]
    change (runLeastsq 6 _ (exEig 6) 5 false _).bind _ = _
    rw [hrun]
    exact hs
  obtain ⟨y, hy, hyr⟩ := exMap_ok hp1'
  obtain ⟨fm', st', res⟩ := y
  obtain ⟨st2, -, -, hnew2, -⟩ := go_inv hy
  rw [hnew] at hnew2
  simp only [Except.ok.injEq, Prod.mk.injEq] at hnew2
  obtain ⟨rfl, -⟩ := hnew2
  dsimp only at hyr
  subst hyr
  exact ⟨fm, st', D, _, hy, rfl, rfl, hD, htot, hsize⟩

/-- Seven pixels with noise: all hypotheses of `C41_partition` and `C77_covariance_prior`, and what the latter then says. -/
example : ∃ fm st' D, ∃ (res : FitResult ([0, 0, 0, 0, 4, 1] : List ℝ).length) (s : FitStats) (x : ℝ),
    fitterGo (.coellip 1) (some exPriorCo) (exLm [0, 0, 0, 0, 1, 2]) exEig (fun _ => .error .notFinite) (.error .value)
      [[⟨List.replicate 7 ⟨0, 1, 1, 3, 2⟩, .ok exPsf⟩]] [0, 0, 0, 0, 4, 1] = .ok (fm, st', res) ∧
    res.lm.flags = 0 ∧ IsModel fm [0, 0, 0, 0, 1, 2] D ∧ res.stats = some s ∧
    x = ((residuals fm D).map fun r => r ^ 2).sum ∧ s.chi2per = .fin (x + 2) := by
  obtain ⟨fm, st', D, res, h, hf, hp, hD, htot, hsize⟩ := exCo_go (List.replicate 7 ⟨0, 1, 1, 3, 2⟩) (by simp)
    (fun _ => .error .notFinite) (.error .value)
  rw [List.length_replicate] at htot hsize
  obtain ⟨hln, pre, hpre⟩ := exCo_prior 7
  obtain ⟨s, c, x, hs, -, hx, hchi, -⟩ := C77_covariance_prior (kind := .coellip 1) exPriorCo (by simp) ⟨rfl, rfl⟩ rfl fm st' res h hf 0 0 0 0 1 [2] hp rfl D hD
    (-1) hln pre 5 (by rw [hsize]; exact hpre)
  have h1 : ((fm.totpix : ℝ) - (([0, 0, 0, 0, 4, 1] : List ℝ).length : ℕ)) = 1 := by
    rw [htot]; norm_num
  rw [h1, div_one] at hx
  refine ⟨fm, st', D, res, s, x, h, hf, hD, hs, hx, ?_⟩
  rw [hchi, h1]
  congr 1
  ring

/-! ### A fit with bounds -/

/-- A joint prior of a simple model with bounds (0, 2) on the size. -/
def exPriorB : JointPrior :=
  ⟨.simple, ⟨0, 0, 1, 1⟩, .disk 1, [.normal 0 1 (some (0, 2))], [.normal 3 1 none]⟩

/-- Its bounds. -/
def exBounds : List Bound := [(none, none), (none, none), (none, none), (none, none), (some 0, some 2), (none, none)]

theorem exB_fit (prior : Option JointPrior) (a : List Pixel) : ∃ st,
    newFitModel (.std "gauss") prior [[⟨a, .ok exPsf⟩]] [0, 0, 0, 0, 3 / 2, 1] =
      .ok (⟨.std "gauss", prior, [[⟨a, .ok exPsf⟩]], true⟩, st) ∧
    ∀ T F : ℝ, 0 < T → ∃ D, IsModel ⟨.std "gauss", prior, [[⟨a, .ok exPsf⟩]], true⟩ [0, 0, 0, 0, T, F] D := by
  have hb : ∀ (T F : ℝ), getBandPars "gauss" [0, 0, 0, 0, T, F] 0 = .ok [0, 0, 0, 0, T, F] := by
    intro T F
    exact ((C47_band_pars "gauss" 6 rfl (by simp) [0, 0, 0, 0, T] [F] rfl 0).1 (by simp)).1
  obtain ⟨ga, hga⟩ : ∃ g, initOne (.std "gauss") true [0, 0, 0, 0, 3 / 2, 1] ⟨a, .ok exPsf⟩ = .ok g := by
    unfold initOne
    simp only [FMKind.arg, ex_make, Except.bind, if_true, convolveObj, ex_convolve, Except.map]
    exact ⟨_, rfl⟩
  refine ⟨[[ga]], ?_, fun T F hT => ?_⟩
  · unfold newFitModel
    rw [show FMKind.npars (.std "gauss") ([[⟨a, .ok exPsf⟩]] : List (List Img)).length = .ok 6 from rfl]
    cases prior <;> simp only [Except.bind, FMKind.nPriorPars, getLmNPriorPars]
    all_goals simp only [String.reduceEq, if_false, List.mem_cons, true_or, or_true, if_true, List.length_cons,
        List.length_nil, ne_eq, Nat.reduceAdd, not_true, Img.hasPsfGmix, initAll, FMKind.bandPars, hb,
        Except.bind, initBand, hga, Except.map]
  · obtain ⟨D2, hD2⟩ := ex_ready T F hT
    refine ⟨[[D2]], rfl, ?_⟩
    intro k is ds hk hk'
    match k, hk, hk' with
    | 0, hk, hk' =>
      simp only [List.getElem?_cons_zero, Option.some.injEq] at hk hk'
      subst hk; subst hk'
      refine ⟨_, hb T F, .cons ?_ .nil⟩
      unfold modelFor
      simp only [FMKind.arg, ex_make, Except.bind, if_true, ex_convolve]
      exact hD2
    | k + 1, hk, hk' => simp at hk

theorem exB_prior (n : ℕ) : exPriorB.lnprob [0, 0, 0, 0, 1, 2] = .ok (.fin (-1)) ∧
    ∀ T F : ℝ, ∃ pre, exPriorB.fillFdiff [0, 0, 0, 0, T, F] (List.replicate (n + 6) (.fin 0)) = .ok (pre, 5) := by
  constructor
  · simp [exPriorB, JointPrior.lnprob, JointPrior.oneDTerms, JointPrior.at2, JointPrior.at1, JointPrior.parAt,
      Except.bind, JointPrior.sumTerms, Prior1.lnprob, PriorG.lnprob, CenPrior.lnprob]
    norm_num
  · intro T F
    simp [exPriorB, JointPrior.fillFdiff, JointPrior.lnTerms, JointPrior.oneDTerms, JointPrior.at2, JointPrior.at1, JointPrior.parAt,
      Except.bind, JointPrior.writeTerms, JointPrior.fdWrite, Prior1.lnprob, PriorG.lnprob, Except.map]
    rw [if_neg (by norm_num)]
    exact ⟨_, rfl⟩

/-- A MINPACK that ends at a point whose size is the middle of the bounds (0, 2). -/
def exMinpack (n : ℕ) (_ : List (Option ℝ)) : Minpack n :=
  .ret ⟨List.ofFn fun i : Fin n => some (if i.val = 5 then 2 else 0), flOne n, id, 2, 1⟩

/-- The standard minimiser with this MINPACK. -/
def exStd (guess : List ℝ) (b : Option (List BEntry)) : Proc (LmTup guess.length) :=
  lmStd exInv (fun _ => .ret (.error .notFinite)) exMinpack guess b

theorem exB_bounds : ∃ b, fitBounds (some exPriorB) = some b ∧ JointPrior.unpackBounds 6 b = .ok exBounds := by
  refine ⟨[.pair none none, .pair none none, .pair none none, .pair none none, .pair (some 0) (some 2), .pair none none], ?_, rfl⟩
  simp [fitBounds, JointPrior.bounds, JointPrior.setBounds, exPriorB, Prior1.bounds, boundPair, List.replicate]

theorem exB_lm (f : List (Option ℝ) → Except LmErr (List Fl)) (y : List Fl)
    (hy : f ([0, 0, 0, 0, 3 / 2, 1].map some) = .ok y) (hl : 6 ≤ y.length) :
    (exStd [0, 0, 0, 0, 3 / 2, 1] (fitBounds (some exPriorB))).run f = .ok ⟨[0, 0, 0, 0, 1, 2].map some, some (flOne _), 2, 1⟩ := by
  classical
  obtain ⟨b, hb, hu⟩ := exB_bounds
  have hC : covX (exInv 6) (fun _ => .fin 1) (flOne 6) id = some (flOne 6) := by
    unfold flOne
    rw [covX_fin (exInv 6) (exInv_honest 6) (fun _ => 1) (by simp) 1 id 1 1]
    · simp
    · ext i j
      by_cases h : i = j
      · subst h; simp
      · simp [Matrix.one_apply_ne h]
    · ext i j
      simp [Matrix.one_apply, eq_comm]
  have hof : (List.ofFn fun i : Fin 6 => some (if i.val = 5 then (2 : ℝ) else 0)) = [0, 0, 0, 0, 0, 2].map some := by
    simp [List.ofFn_succ]
  have hg : (fun i : Fin 6 => gradAt exBounds ([0, 0, 0, 0, 0, 2].map some) i.val) = fun _ => .fin 1 := by
    funext i
    fin_cases i <;> simp [gradAt, i2eGrad, exBounds]
  have hx : i2e exBounds ([0, 0, 0, 0, 0, 2].map some) = [0, 0, 0, 0, 1, 2].map some := by
    simp [i2e, exBounds, i2eLam]
  rw [hb]
  unfold exStd lmStd
  simp only [List.length_cons, List.length_nil, Nat.reduceAdd, hu]
  rw [leastsqboundProc_run _ _ _ _ _ _ _ []]
  simp only [leastsqbound]
  rw [if_neg (by simp [exBounds]), hy]
  dsimp only
  rw [if_neg (by simp; omega)]
  simp only [exMinpack, Minpack.run, hof]
  rw [if_neg (by norm_num), if_pos (by norm_num), hg, hC, hx]

theorem exB_go (a : List Pixel) (hpix : 6 < a.length)
    (nanEval : List (Option ℝ) → Except LmErr (List Fl)) (nanStats : Except PyErr FitStats) :
    ∃ fm st', ∃ res : FitResult ([0, 0, 0, 0, 3 / 2, 1] : List ℝ).length,
      fitterGo (.std "gauss") (some exPriorB) exStd exEig nanEval nanStats
        [[⟨a, .ok exPsf⟩]] [0, 0, 0, 0, 3 / 2, 1] = .ok (fm, st', res) ∧ res.lm.flags = 0 := by
  obtain ⟨st, hnew, hmod⟩ := exB_fit (some exPriorB) a
  obtain ⟨D, hD⟩ := hmod 1 2 (by norm_num)
  obtain ⟨D0, hD0⟩ := hmod (3 / 2) 1 (by norm_num)
  have htot : FitModel.totpix ⟨.std "gauss", some exPriorB, [[⟨a, .ok exPsf⟩]], true⟩ = a.length := by
    simp [FitModel.totpix]
  have hsize : FitModel.fdiffSize ⟨.std "gauss", some exPriorB, [[⟨a, .ok exPsf⟩]], true⟩ = a.length + 6 := by
    unfold FitModel.fdiffSize
    rw [htot]
    simp [FMKind.nPriorPars, getLmNPriorPars]
  obtain ⟨hln, hpre⟩ := exB_prior a.length
  obtain ⟨pre, hpre1⟩ := hpre 1 2
  obtain ⟨pre0, hpre0⟩ := hpre (3 / 2) 1
  obtain ⟨h0, out, hcf, hd5, hdrop⟩ := C41_simple_loses_pixel "gauss" (by simp) exPriorB [[⟨a, .ok exPsf⟩]] _ (by simp [Shaped, exPriorB]) ⟨rfl, .inr (.inr ⟨by simp, rfl⟩)⟩ _ st hnew [] [0, 0, 0, 0, 1, 2] rfl D hD
    pre 5 (by rw [hsize]; exact hpre1) (by omega)
  obtain ⟨-, out0, hcf0, hd50, -⟩ := C41_simple_loses_pixel "gauss" (by simp) exPriorB [[⟨a, .ok exPsf⟩]] _ (by simp [Shaped, exPriorB]) ⟨rfl, .inr (.inr ⟨by simp, rfl⟩)⟩ _ st hnew [] [0, 0, 0, 0, 3 / 2, 1] rfl D0 hD0
    pre0 5 (by rw [hsize]; exact hpre0) (by omega)
  change (calcFdiff _ st _).2 = _ at hcf hcf0
  have hl := C47_lnprob _ (some exPriorB) _ _ _ st hnew [] [0, 0, 0, 0, 1, 2] rfl D hD (.fin (-1)) hln
  change (calcLnprob _ st _).2 = _ at hl
  have hol : out.length = a.length + 6 := by
    have := congrArg List.length hd5
    simp [residuals_length _ _ _ hD, htot] at this
    omega
  have hol0 : out0.length = a.length + 6 := by
    have := congrArg List.length hd50
    simp [residuals_length _ _ _ hD0, htot] at this
    omega
  rw [htot] at hl
  obtain ⟨hp1, -⟩ := C77_pure (lm := exStd) (eig := exEig) (nanEval := nanEval)
    (nanStats := nanStats) _ st hnew 6 h0
  generalize hfm : (⟨.std "gauss", some exPriorB, [[⟨a, .ok exPsf⟩]], true⟩ : FitModel) = fm at *
  have hk : fm.kind = .std "gauss" ∧ fm.obs.length = 1 := by subst hfm; exact ⟨rfl, rfl⟩
  have hev : (evalS fm nanEval st ([0, 0, 0, 0, 1, 2].map some)).2 = .ok out := by
    rw [evalS_map, hcf]; rfl
  have hev0 : (evalS fm nanEval st ([0, 0, 0, 0, 3 / 2, 1].map some)).2 = .ok out0 := by
    rw [evalS_map, hcf0]; rfl
  have hd : ((out.length : ℤ) - (6 : ℕ) - 6) = (a.length : ℤ) - 6 := by
    rw [hol]; push_cast; ring
  have hdpos : (0 : ℝ) < ((a.length : ℤ) - 6 : ℤ) := by
    have : (0 : ℤ) < (a.length : ℤ) - 6 := by omega
    exact_mod_cast this
  obtain ⟨R, hR⟩ : ∃ R : List ℝ, out.drop 6 = R.map Fl.fin := ⟨(residuals fm D).tail ++ [0], by rw [hdrop]; simp⟩
  have hS : 0 ≤ (R.map fun x => x ^ 2).sum := List.sum_nonneg (by
    intro x hx
    obtain ⟨y, -, rfl⟩ := List.mem_map.1 hx
    positivity)
  obtain ⟨x, hx⟩ : ∃ x : ℝ, (R.map fun x => x ^ 2).sum / (((a.length : ℤ) - 6 : ℤ) : ℝ) = x := ⟨_, rfl⟩
  have hx0 : 0 ≤ x := by rw [← hx]; exact div_nonneg hS hdpos.le
  let r : LmResult 6 := ⟨0, 2, some 1, [0, 0, 0, 0, 1, 2].map some,
    some (fun i => Fl.sqrt (.fin ((1 : Matrix (Fin 6) (Fin 6) ℝ) i i * x))),
    some (fun i j => .fin ((1 : Matrix (Fin 6) (Fin 6) ℝ) i j)), fun i j => .fin ((1 : Matrix (Fin 6) (Fin 6) ℝ) i j * x)⟩
  have hcov : testCov (exEig 6) (fun i j => Fl.fin ((1 : Matrix (Fin 6) (Fin 6) ℝ) i j * x)) = 0 := by
    unfold testCov exEig
    rw [if_neg (by simp [Fl.isFinite])]
    simp [Fl.lt, hx0]
  have hrun : runLeastsq 6 (fun y => (evalS fm nanEval st y).2) (exEig 6) 6 false
      ((exStd [0, 0, 0, 0, 3 / 2, 1] (fitBounds (some exPriorB))).run fun y => (evalS fm nanEval st y).2) = .ok r := by
    rw [exB_lm _ out0 hev0 (by omega)]
    simp only [runLeastsq, runLeastsqTry, hev, lmDof, Bool.false_eq_true, if_false]
    rw [if_neg (by norm_num), if_neg (by norm_num)]
    rw [show ((6 : ℕ) : ℤ) = 6 from rfl] at hd ⊢
    rw [hd, if_neg (by omega), hR, flSumSq_map, Fl.fin_div _ _ hdpos.ne', hx]
    simp only [flOne, Fl.fin_mul]
    exact (congrArg _ (if_neg (not_not.2 hcov))).trans rfl
  obtain ⟨s, hs⟩ : ∃ s, (setFitResult fm nanStats st r).2 = .ok ⟨r, some s⟩ := by
    have hr0 : r.flags = 0 := rfl
    have hrp : allReal r.pars = some [0, 0, 0, 0, 1, 2] := allReal_map _
    unfold setFitResult
    rw [if_pos hr0, hrp]
    dsimp only
    rcases hc : calcLnprob fm st [0, 0, 0, 0, 1, 2] with ⟨st1, cc⟩
    rw [hc] at hl
    dsimp only at hl
    subst hl
    dsimp only
    rw [hk.1, hk.2]
    simp only [show FMKind.npars (.std "gauss") 1 = .ok 6 from rfl, Except.bind]
    unfold fitStats
    have h6 : (a.length : ℤ) - (6 : ℕ) ≠ 0 := by push_cast; omega
    simp only [show r.parsErr = some (fun i => Fl.sqrt (.fin ((1 : Matrix (Fin 6) (Fin 6) ℝ) i i * x))) from rfl]
    rw [if_neg h6]
    exact ⟨_, rfl⟩
  have hp1' : (fitterGo (.std "gauss") (some exPriorB) exStd exEig nanEval nanStats
        [[⟨a, .ok exPsf⟩]] [0, 0, 0, 0, 3 / 2, 1]).map (fun r => r.2.2) = .ok ⟨r, some s⟩ := by
    rw [hp1]
    change (runLeastsq 6 _ (exEig 6) 6 false _).bind _ = _
    rw [hrun]
    exact hs
  obtain ⟨y, hy, hyr⟩ := exMap_ok hp1'
  obtain ⟨fm', st', res⟩ := y
  dsimp only at hyr
  subst hyr
  exact ⟨fm', st', _, hy, rfl⟩

/-- Bounds (0, 2) on the size: all hypotheses of `C77_bounds`, and what it then says of the size. -/
example : ∃ fm st', ∃ res : FitResult ([0, 0, 0, 0, 3 / 2, 1] : List ℝ).length,
    fitterGo (.std "gauss") (some exPriorB) exStd exEig
      (fun _ => .error .notFinite) (.error .value) [[⟨List.replicate 7 ⟨0, 1, 1, 3, 2⟩, .ok exPsf⟩]] [0, 0, 0, 0, 3 / 2, 1] =
        .ok (fm, st', res) ∧ res.lm.flags = 0 ∧ ∃ T, res.lm.pars[4]? = some (some T) ∧ 0 < T ∧ T < 2 := by
  obtain ⟨fm, st', res, h, hf⟩ := exB_go (List.replicate 7 ⟨0, 1, 1, 3, 2⟩) (by simp)
    (fun _ => .error .notFinite) (.error .value)
  refine ⟨fm, st', res, h, hf, ?_⟩
  obtain ⟨b, hb, hu⟩ := exB_bounds
  obtain ⟨T, h1, h2, h3⟩ := C77_bounds (guess := [0, 0, 0, 0, 3 / 2, 1]) exInv exInv_nan (fun n M hM => by unfold exEig; rw [if_pos hM]) _ exMinpack (by
    intro n x f o ho
    simp only [exMinpack, Minpack.run, Except.ok.injEq] at ho
    subst ho
    exact ⟨by simp, Function.bijective_id⟩) b hb exBounds hu (by simp [exBounds]) fm st' res h hf (by decide) 4 (some 0, some 2) rfl (by simp)
  exact ⟨T, h1, h2 0 rfl, h3 2 rfl⟩

end

end Ngmix.Props
