import Verif.Props.Fitter

/-!
# Mixtures and images at the fitted parameters (C78)
-/

namespace Ngmix.Props

open Ngmix Ngmix.Spec

noncomputable section

variable {kind : FMKind} {prior : Option JointPrior} {obs : List (List Img)} {guess : List ℝ}

theorem ready_set {d D : List Gauss} (h : ready d = .ok D) : setNormsIfNeeded d = (D, .ok ()) := by
  unfold ready at h
  rcases hx : setNormsIfNeeded d with ⟨d', r⟩
  rw [hx] at h
  cases r with
  | error e => simp at h
  | ok x => simp only [Except.ok.injEq] at h; rw [h]

/-- C78: image `j` of band `b` was compared with the mixture `d`.  When the image has a psf mixture exactly if the
first image of the fit has one, `get_gmix` gives the mixture of the band before the psf, `get_convolved_gmix` the one
which, with its norms set, is `d`, and `make_image` the values of `d`, with the exact exponential, at the pixels. -/
theorem C78_same_mixture (fm : FitModel) (st : FMState) (_h : newFitModel kind prior obs guess = .ok (fm, st))
    (pars : List ℝ) (D : List (List (List Gauss))) (hD : IsModel fm pars D) (b j : ℕ) (is : List Img)
    (ds : List (List Gauss)) (i : Img) (d : List Gauss) (hb : fm.obs[b]? = some is) (hdb : D[b]? = some ds)
    (hi : is[j]? = some i) (hd : ds[j]? = some d) (hpsf : i.hasPsfGmix = fm.dopsf) (coords : List Coord) :
    ∃ gm0 gm, fitGetGmix fm pars b = .ok gm0 ∧ fitGetConvolvedGmix fm pars b j = .ok gm ∧ ready gm.data = .ok d ∧
      (∀ q, i.psf = .ok q → gmixConvolve gm0.data q.data = .ok gm.data) ∧ (∀ e, i.psf = .error e → gm = gm0) ∧
      fitMakeImage fm pars b j coords = .ok (coords.map fun c => gmixEval d c.v c.u c.area) := by
  obtain ⟨-, h2⟩ := hD
  obtain ⟨bp, hbp, hf⟩ := h2 b is ds hb hdb
  have hm : modelFor fm.kind fm.dopsf bp i = .ok d := by
    obtain ⟨hlt, he⟩ := List.getElem?_eq_some_iff.mp hi
    obtain ⟨hlt', he'⟩ := List.getElem?_eq_some_iff.mp hd
    have := hf.get (i := j) hlt hlt'
    simp only [List.get_eq_getElem, he, he'] at this
    exact this
  have hob : obsAt fm b j = .ok i := by
    unfold obsAt
    rw [hb]
    dsimp only
    rw [hi]
  unfold modelFor at hm
  cases hp : i.psf with
  | error e =>
    have hdo : fm.dopsf = false := by rw [← hpsf]; simp [Img.hasPsfGmix, hp]
    rw [hdo] at hm
    simp only [Bool.false_eq_true, if_false] at hm
    obtain ⟨gm0, hg0, hr⟩ := exBind_ok hm
    have hget : fitGetGmix fm pars b = .ok gm0 := by
      unfold fitGetGmix
      rw [hbp]
      exact hg0
    have hconv : fitGetConvolvedGmix fm pars b j = .ok gm0 := by
      unfold fitGetConvolvedGmix
      rw [hget]
      simp only [Except.bind]
      rw [hob]
      dsimp only
      rw [hp]
    refine ⟨gm0, gm0, hget, hconv, hr, by simp, fun _ _ => rfl, ?_⟩
    unfold fitMakeImage
    rw [hconv]
    simp only [Except.bind]
    rw [Proof.PSFFlux.render_eq _ _ (ready_set hr)]
  | ok q =>
    have hdo : fm.dopsf = true := by rw [← hpsf]; simp [Img.hasPsfGmix, hp]
    rw [hdo, hp] at hm
    simp only [if_true, Except.bind] at hm
    cases hg0 : makeGmixModel bp fm.kind.arg with
    | error e => rw [hg0] at hm; simp at hm
    | ok gm0 =>
      rw [hg0] at hm
      dsimp only at hm
      cases hc : gmixConvolve gm0.data q.data with
      | error e => rw [hc] at hm; simp at hm
      | ok dc =>
        rw [hc] at hm
        dsimp only at hm
        have hget : fitGetGmix fm pars b = .ok gm0 := by
          unfold fitGetGmix
          rw [hbp]
          exact hg0
        have hconv : fitGetConvolvedGmix fm pars b j = .ok
            { resetObj .full (6 * (gm0.ngauss * q.ngauss)) (gm0.ngauss * q.ngauss) with data := dc } := by
          unfold fitGetConvolvedGmix
          rw [hget]
          simp only [Except.bind]
          rw [hob]
          dsimp only
          rw [hp]
          dsimp only
          unfold convolveObj
          rw [hc]
          rfl
        refine ⟨gm0, _, hget, hconv, hm, ?_, by simp, ?_⟩
        · intro q' hq'
          simp only [Except.ok.injEq] at hq'
          subst hq'
          exact hc
        · unfold fitMakeImage
          rw [hconv]
          simp only [Except.bind]
          rw [Proof.PSFFlux.render_eq _ _ (ready_set hm)]

/-- C78: when the fit uses psfs, it uses one for every image, so that `C78_same_mixture` applies to all of them. -/
theorem C78_psf_for_all (fm : FitModel) (st : FMState) (_h : newFitModel kind prior obs guess = .ok (fm, st))
    (hdo : fm.dopsf = true) (pars : List ℝ) (D : List (List (List Gauss))) (hD : IsModel fm pars D) (b : ℕ)
    (is : List Img) (hb : fm.obs[b]? = some is) (i : Img) (hi : i ∈ is) : i.hasPsfGmix = fm.dopsf := by
  obtain ⟨h1, h2⟩ := hD
  have hlt : b < fm.obs.length := (List.getElem?_eq_some_iff.mp hb).1
  obtain ⟨bp, -, hf⟩ := h2 b is D[b] hb (List.getElem?_eq_getElem (by omega))
  obtain ⟨j, hj, rfl⟩ := List.mem_iff_getElem.mp hi
  have hl := hf.length_eq
  have hm := hf.get (i := j) hj (by omega)
  unfold modelFor at hm
  rw [hdo] at hm ⊢
  simp only [if_true, List.get_eq_getElem] at hm
  obtain ⟨q, hq, -⟩ := exBind_ok hm
  simp [Img.hasPsfGmix, hq]

/-- C78: a band or an observation that does not exist is refused. -/
theorem C78_missing (fm : FitModel) (pars : List ℝ) (b j : ℕ) (gm0 : GMixObj) (hg : fitGetGmix fm pars b = .ok gm0)
    (hno : ∀ is, fm.obs[b]? = some is → is.length ≤ j) (coords : List Coord) :
    fitGetConvolvedGmix fm pars b j = .error .index ∧ fitMakeImage fm pars b j coords = .error .index := by
  have hob : obsAt fm b j = .error .index := by
    unfold obsAt
    cases hb : fm.obs[b]? with
    | none => rfl
    | some is =>
      dsimp only
      rw [List.getElem?_eq_none (hno is hb)]
  have hc : fitGetConvolvedGmix fm pars b j = .error .index := by
    unfold fitGetConvolvedGmix
    rw [hg]
    simp only [Except.bind]
    rw [hob]
  refine ⟨hc, ?_⟩
  unfold fitMakeImage
  rw [hc]
  rfl

/-- The numbers of parameters of the models a fit can have. -/
theorem band_models : ∀ name ∈ ["gauss", "exp", "dev", "turb", "bdf", "bd"], name ≠ "coellip" ∧
    getModelNpars (.str name) = .ok (if name = "bd" then 8 else if name = "bdf" then 7 else 6) := by decide +kernel

/-- C78: a named model, the parameters of `n` bands and a band beyond them: no mixture, no image, IndexError. -/
theorem C78_missing_band (fm : FitModel) (name : String) (hk : fm.kind = .std name)
    (hname : name ∈ ["gauss", "exp", "dev", "turb", "bdf", "bd"]) (n : ℕ) (hn : 1 ≤ n)
    (pars : List ℝ) (hp : fm.kind.npars n = .ok pars.length) (b j : ℕ) (hb : n ≤ b) (coords : List Coord) :
    fitGetGmix fm pars b = .error .index ∧ fitGetConvolvedGmix fm pars b j = .error .index ∧
    fitMakeImage fm pars b j coords = .error .index := by
  obtain ⟨hc, h6⟩ := band_models name hname
  have hband : fm.kind.bandPars pars b = .error .index := by
    rw [hk] at hp ⊢
    simp only [FMKind.npars, h6, Except.map, Except.ok.injEq] at hp
    have take : ∀ k, pars.length = k + n → takeBand k pars b = .error .index := by
      intro k h
      unfold takeBand
      rw [if_neg (by omega), List.getElem?_eq_none (by omega)]
    show getBandPars name pars b = _
    unfold getBandPars
    rw [h6]
    simp only [Except.bind]
    rw [if_neg hc]
    split_ifs at hp ⊢ with h1 h2
    · exact take 7 (by omega)
    · exact take 6 (by omega)
    · rw [take 5 (by omega)]; rfl
  have hg : fitGetGmix fm pars b = .error .index := by
    unfold fitGetGmix
    rw [hband]
    rfl
  have hcv : fitGetConvolvedGmix fm pars b j = .error .index := by
    unfold fitGetConvolvedGmix
    rw [hg]
    rfl
  refine ⟨hg, hcv, ?_⟩
  unfold fitMakeImage
  rw [hcv]
  rfl

/-- C78 (disagreement of the unchanged code): whether the fit uses psfs is decided by the first image, but
`get_convolved_gmix` and `make_image` look at the image asked for.  When only a later image has a psf mixture, the fit
compares that image with the mixture before the psf, and `make_image` shows the one after it. -/
theorem C78_only_later_psf (fm : FitModel) (st : FMState) (_h : newFitModel kind prior obs guess = .ok (fm, st))
    (hdo : fm.dopsf = false) (pars : List ℝ) (D : List (List (List Gauss))) (hD : IsModel fm pars D) (b j : ℕ)
    (is : List Img) (ds : List (List Gauss)) (i : Img) (d : List Gauss) (hb : fm.obs[b]? = some is)
    (hdb : D[b]? = some ds) (hi : is[j]? = some i) (hd : ds[j]? = some d) (q : GMixObj) (hq : i.psf = .ok q) :
    ∃ gm0, fitGetGmix fm pars b = .ok gm0 ∧ ready gm0.data = .ok d ∧
      (fitGetConvolvedGmix fm pars b j).map (fun gm => gm.data) = gmixConvolve gm0.data q.data := by
  obtain ⟨-, h2⟩ := hD
  obtain ⟨bp, hbp, hf⟩ := h2 b is ds hb hdb
  have hm : modelFor fm.kind fm.dopsf bp i = .ok d := by
    obtain ⟨hlt, he⟩ := List.getElem?_eq_some_iff.mp hi
    obtain ⟨hlt', he'⟩ := List.getElem?_eq_some_iff.mp hd
    have := hf.get (i := j) hlt hlt'
    simp only [List.get_eq_getElem, he, he'] at this
    exact this
  have hob : obsAt fm b j = .ok i := by
    unfold obsAt
    rw [hb]
    dsimp only
    rw [hi]
  unfold modelFor at hm
  rw [hdo] at hm
  simp only [Bool.false_eq_true, if_false] at hm
  obtain ⟨gm0, hg0, hr⟩ := exBind_ok hm
  have hget : fitGetGmix fm pars b = .ok gm0 := by
    unfold fitGetGmix
    rw [hbp]
    exact hg0
  refine ⟨gm0, hget, hr, ?_⟩
  unfold fitGetConvolvedGmix
  rw [hget]
  simp only [Except.bind]
  rw [hob]
  dsimp only
  rw [hq]
  dsimp only
  unfold convolveObj
  cases gmixConvolve gm0.data q.data <;> rfl

/-! ### The hypotheses are met: the fit of one image, the fit of two images of which only the second has a psf -/

theorem ex_ready0 (a F : ℝ) (ha : 1 ≤ a) : ∃ D, ready [gauss2dSet F 0 0 a 0 a] = .ok D ∧ D.map Gauss.irr = [a] := by
  have hu : Usable (gauss2dSet F 0 0 a 0 a) := by
    constructor
    · simp only [gauss2dSet, gmixLowDetval]
      nlinarith
    · simp only [gauss2dSet, gmixLowDetval]
      linarith
  obtain ⟨h1, h2⟩ := (C20_set_norms [gauss2dSet F 0 0 a 0 a]
    (by intro g hg; simp at hg; subst hg; rfl)).1 (by simpa using hu)
  refine ⟨(gmixSetNorms [gauss2dSet F 0 0 a 0 a]).1, ?_, ?_⟩
  · have hs : setNormsIfNeeded [gauss2dSet F 0 0 a 0 a] = ((gmixSetNorms [gauss2dSet F 0 0 a 0 a]).1, .ok ()) := by
      rw [← h1]; rfl
    unfold ready
    rw [hs]
  · generalize (gmixSetNorms [gauss2dSet F 0 0 a 0 a]).1 = l at h2
    cases h2 with
    | cons hg ht =>
      cases ht
      have := hg.1.2.2.2.1
      simp [← this, gauss2dSet]

theorem ex_band : FMKind.bandPars (.std "gauss") [0, 0, 0, 0, 4, 1] 0 = .ok [0, 0, 0, 0, 4, 1] :=
  ((C47_band_pars "gauss" 6 rfl (by simp) [0, 0, 0, 0, 4] [1] rfl 0).1 (by simp)).1

theorem ex_new (is : List Img) (g : List (GMixObj × GMixObj)) (i : Img) (dopsf : Bool) (hi : i.hasPsfGmix = dopsf)
    (hg : initBand (.std "gauss") dopsf [0, 0, 0, 0, 4, 1] (i :: is) = .ok g) :
    newFitModel (.std "gauss") none [i :: is] [0, 0, 0, 0, 4, 1] =
      .ok (⟨.std "gauss", none, [i :: is], dopsf⟩, [g]) := by
  unfold newFitModel
  rw [show FMKind.npars (.std "gauss") ([i :: is] : List (List Img)).length = .ok 6 from rfl]
  simp only [Except.bind, FMKind.nPriorPars, List.length_cons, List.length_nil, ne_eq, Nat.reduceAdd, not_true,
    if_false, hi, initAll, ex_band, hg, Except.map]

/-- The fit of two images, only the second of which has a psf: it was compared with a mixture of moment 2, and
`get_convolved_gmix` returns one of moment 3. -/
theorem C78_only_later_psf_witness (a b : List Pixel) : ∃ fm st D d gm,
    newFitModel (.std "gauss") none [[⟨a, .error .attribute⟩, ⟨b, .ok exPsf⟩]] [0, 0, 0, 0, 4, 1] = .ok (fm, st) ∧
    IsModel fm [0, 0, 0, 0, 4, 1] D ∧ (D[0]?.bind fun ds => ds[1]?) = some d ∧ d.map Gauss.irr = [2] ∧
    fitGetConvolvedGmix fm [0, 0, 0, 0, 4, 1] 0 1 = .ok gm ∧ gm.data.map Gauss.irr = [3] := by
  have hone : ∀ (x : List Pixel) (p : Except PyErr GMixObj), ∃ g,
      initOne (.std "gauss") false [0, 0, 0, 0, 4, 1] ⟨x, p⟩ = .ok g := by
    intro x p
    unfold initOne
    simp only [FMKind.arg, ex_make, Except.bind, Bool.false_eq_true, if_false]
    have := (fresh_std "gauss" 1 6 1 rfl rfl rfl rfl rfl (by simp [fillNames]) (by simp) (by simp)).2
      [0, 0, 0, 0, 4, 1] [gauss2dSet 1 0 0 (0.5 * 4) 0 (0.5 * 4)] rfl
    rw [this]
    change ∃ g, Except.map _ (makeGmixModel [0, 0, 0, 0, 4, 1] (.str "gauss")) = .ok g
    rw [ex_make]
    exact ⟨_, rfl⟩
  obtain ⟨ga, hga⟩ := hone a (.error .attribute)
  obtain ⟨gb, hgb⟩ := hone b (.ok exPsf)
  obtain ⟨D, hD, hDi⟩ := ex_ready0 (0.5 * 4) 1 (by norm_num)
  have hmod : ∀ (x : List Pixel) (p : Except PyErr GMixObj),
      modelFor (.std "gauss") false [0, 0, 0, 0, 4, 1] ⟨x, p⟩ = .ok D := by
    intro x p
    unfold modelFor
    simp only [FMKind.arg, ex_make, Except.bind, Bool.false_eq_true, if_false]
    exact hD
  refine ⟨_, _, [[D, D]], D,
    { resetObj .full (6 * (1 * 1)) (1 * 1) with data := [gauss2dSet 1 0 0 (0.5 * 4 + 1) 0 (0.5 * 4 + 1)] }, ex_new _ [ga, gb] _ false rfl ?_, ⟨rfl, ?_⟩, rfl, by rw [hDi]; norm_num, ?_, ?_⟩
  · simp only [initBand, hga, hgb, Except.bind, Except.map]
  · intro k is ds hk hk'
    match k, hk, hk' with
    | 0, hk, hk' =>
      simp only [List.getElem?_cons_zero, Option.some.injEq] at hk hk'
      subst hk; subst hk'
      exact ⟨_, ex_band, .cons (hmod _ _) (.cons (hmod _ _) .nil)⟩
    | k + 1, hk, hk' => simp at hk
  · unfold fitGetConvolvedGmix fitGetGmix
    simp only [ex_band, Except.bind, FMKind.arg, ex_make, obsAt]
    simp only [List.getElem?_cons_zero, List.getElem?_cons_succ, convolveObj, ex_convolve, Except.map]
    rfl
  · simp [gauss2dSet]; norm_num

/-- A fit of eight pixels with a psf, whose minimiser stops at the guess, has flags zero. -/
example (pix : List Pixel) (hpix : pix.length = 8) (nanEval : List (Option ℝ) → Except LmErr (List Fl))
    (nanStats : Except PyErr FitStats) : ∃ fm st' res D,
    fitterGo (.std "gauss") none
      (fun guess _ => .ask (guess.map some) fun _ => .ret (.ok ⟨guess.map some, some (flOne _), 1, 1⟩))
      (fun n c => open Classical in if ∀ i j, (c i j).isFinite then some [] else none) nanEval nanStats
      [[⟨pix, .ok exPsf⟩]] [0, 0, 0, 0, 4, 1] = .ok (fm, st', res) ∧ res.lm.flags = 0 ∧
    res.lm.pars = ([0, 0, 0, 0, 4, 1] : List ℝ).map some ∧ IsModel fm [0, 0, 0, 0, 4, 1] D := by
  have hone : ∃ g, initOne (.std "gauss") true [0, 0, 0, 0, 4, 1] ⟨pix, .ok exPsf⟩ = .ok g := by
    unfold initOne
    simp only [FMKind.arg, ex_make, Except.bind, if_true, convolveObj, ex_convolve, Except.map]
    exact ⟨_, rfl⟩
  obtain ⟨g, hg⟩ := hone
  obtain ⟨D, hD⟩ := ex_ready 4 1 (by norm_num)
  have hnew := ex_new [] [g] ⟨pix, .ok exPsf⟩ true rfl (by simp only [initBand, hg, Except.bind, Except.map])
  set fm : FitModel := ⟨.std "gauss", none, [[⟨pix, .ok exPsf⟩]], true⟩ with hfm
  have hM : IsModel fm [0, 0, 0, 0, 4, 1] [[D]] := by
    refine ⟨rfl, ?_⟩
    intro k is ds hk hk'
    match k, hk, hk' with
    | 0, hk, hk' =>
      simp only [hfm, List.getElem?_cons_zero, Option.some.injEq] at hk hk'
      subst hk; subst hk'
      refine ⟨_, ex_band, .cons ?_ .nil⟩
      unfold modelFor
      simp only [hfm, FMKind.arg, ex_make, Except.bind, if_true, ex_convolve]
      exact hD
    | k + 1, hk, hk' => simp [hfm] at hk
  obtain ⟨hn0, hfd⟩ := C41_no_prior (.std "gauss") _ [0, 0, 0, 0, 4, 1] fm [[g]] hnew [] [0, 0, 0, 0, 4, 1] rfl [[D]] hM
  change (calcFdiff fm [[g]] _).2 = _ at hfd
  have hrl := residuals_length fm _ _ hM
  have htp : fm.totpix = 8 := by simp [FitModel.totpix, hfm, hpix]
  obtain ⟨hpure, -⟩ := C77_pure (lm := fun guess _ => .ask (guess.map some) fun _ =>
      .ret (.ok ⟨guess.map some, some (flOne _), 1, 1⟩))
    (eig := fun n c => open Classical in if ∀ i j, (c i j).isFinite then some [] else none) (nanEval := nanEval)
    (nanStats := nanStats) fm [[g]] hnew 0 hn0
  have hev : (evalS fm nanEval [[g]] (([0, 0, 0, 0, 4, 1] : List ℝ).map some)).2 =
      .ok ((residuals fm [[D]]).map Fl.fin) := by
    rw [evalS_map, hfd]
    rfl
  have hd : lmDof ((residuals fm [[D]]).map Fl.fin).length 0 ([0, 0, 0, 0, 4, 1] : List ℝ).length false = 2 := by
    rw [List.length_map, hrl, htp]
    rfl
  obtain ⟨r, hr, hr0, hrp, -, -, hrc, hre⟩ := C40_success ([0, 0, 0, 0, 4, 1] : List ℝ).length
    (fun y => (evalS fm nanEval [[g]] y).2)
    (fun c => open Classical in if ∀ i j, (c i j).isFinite then some [] else none) 0 false
    ⟨([0, 0, 0, 0, 4, 1] : List ℝ).map some, some (flOne _), 1, 1⟩ (flOne _) ((residuals fm [[D]]).map Fl.fin) ⟨le_refl _, by norm_num⟩
    rfl hev (by rw [hd]; norm_num) (by
      rw [hd]
      have hsc : ∀ i j, scaledCov ([0, 0, 0, 0, 4, 1] : List ℝ).length 0 (flOne _) ((residuals fm [[D]]).map Fl.fin) 2 i j =
          .fin ((1 : Matrix _ _ ℝ) i j * (((residuals fm [[D]]).map fun x => x ^ 2).sum / 2)) := by
        intro i j
        unfold scaledCov flOne
        rw [List.drop_zero, flSumSq_map, Fl.fin_div _ _ (by norm_num), Fl.fin_mul]
        norm_num
      have hfin : ∀ i j, (scaledCov ([0, 0, 0, 0, 4, 1] : List ℝ).length 0 (flOne _)
          ((residuals fm [[D]]).map Fl.fin) 2 i j).isFinite := by intro i j; rw [hsc]; trivial
      have hneg : ¬ ∃ i, Fl.lt (scaledCov ([0, 0, 0, 0, 4, 1] : List ℝ).length 0 (flOne _)
          ((residuals fm [[D]]).map Fl.fin) 2 i i) (.fin 0) := by
        rintro ⟨i, hi⟩
        rw [hsc] at hi
        simp only [Matrix.one_apply_eq, one_mul, Fl.lt] at hi
        have : 0 ≤ ((residuals fm [[D]]).map fun x => x ^ 2).sum :=
          List.sum_nonneg (by intro y hy; obtain ⟨x, -, rfl⟩ := List.mem_map.mp hy; positivity)
        linarith
      unfold testCov
      simp only [if_pos hfin, if_neg hneg]
      simp)
  have hln := C47_lnprob (.std "gauss") none _ [0, 0, 0, 0, 4, 1] fm [[g]] hnew [] [0, 0, 0, 0, 4, 1] rfl [[D]] hM
    (.fin 0) rfl
  change (calcLnprob fm [[g]] _).2 = _ at hln
  have hset : ∃ s, (setFitResult fm nanStats [[g]] r).2 = .ok ⟨r, some s⟩ := by
    unfold setFitResult
    rw [if_pos hr0, hrp, allReal_map]
    dsimp only
    rcases hx : calcLnprob fm [[g]] [0, 0, 0, 0, 4, 1] with ⟨st1, c⟩
    rw [hx] at hln
    dsimp only at hln
    subst hln
    dsimp only
    rw [show fm.kind.npars fm.obs.length = .ok 6 from rfl]
    simp only [Except.bind]
    rw [hre]
    dsimp only
    unfold fitStats
    dsimp only
    rw [if_neg (by rw [htp]; norm_num)]
    exact ⟨_, rfl⟩
  obtain ⟨s, hs⟩ := hset
  have hall : (fitterGo (.std "gauss") none
      (fun guess _ => .ask (guess.map some) fun _ => .ret (.ok ⟨guess.map some, some (flOne _), 1, 1⟩))
      (fun n c => open Classical in if ∀ i j, (c i j).isFinite then some [] else none) nanEval nanStats
      [[⟨pix, .ok exPsf⟩]] [0, 0, 0, 0, 4, 1]).map (fun r => r.2.2) = .ok ⟨r, some s⟩ := by
    rw [hpure]
    simp only [Proc.run]
    rw [hev]
    dsimp only
    rw [hr]
    exact hs
  obtain ⟨⟨fm', st', res⟩, h1, h2⟩ := exMap_ok hall
  obtain ⟨rfl, -⟩ := (C77_pure fm [[g]] hnew 0 hn0).2 fm' st' res h1
  dsimp only at h2
  subst h2
  exact ⟨_, _, _, _, h1, hr0, hrp, hM⟩

end

end Ngmix.Props
