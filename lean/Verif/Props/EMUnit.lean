import Verif.Proof.EMUnit

/-!
# EM fits with other sky axes and another unit of brightness (C96)
-/

namespace Ngmix.Props

open Ngmix Ngmix.Spec Ngmix.Proof.EMUnit

noncomputable section

variable {obs obs' : EMObs} {guess guess' : GMixObj} {sky sky' : Option ℝ}

/-- The inputs of the two fits correspond: the gaussians of the guess, the pixels and the starting sky; and the psf, with
respect to an origin of its own. -/
structure SameInput (k : ℝ) (M : SkyMap) (i : EMInput obs guess sky) (i' : EMInput obs' guess' sky') : Prop where
  guess : List.Forall₂ (Brighter k M) i.g0.data i'.g0.data
  pixels : List.Forall₂ (BrighterPixel k M) i.px i'.px
  sky : i'.s = k * i.s
  psf : ∃ N : SkyMap, (M.a = N.a ∧ M.b = N.b ∧ M.c = N.c ∧ M.d = N.d) ∧
    List.Forall₂ (Moved N) i.psf.data i'.psf.data

theorem anyZero_rel {k : ℝ} {M : SkyMap} {px px' : List Pixel} (h : List.Forall₂ (BrighterPixel k M) px px') :
    anyZeroWeight px' = anyZeroWeight px := by
  unfold anyZeroWeight
  induction h with
  | nil => rfl
  | cons a _ ih =>
    rw [List.any_cons, List.any_cons, ih]
    congr 1
    exact decide_eq_decide.2 a.2.2.2

theorem br_all {k : ℝ} {M : SkyMap} {a a' b b' : List Gauss} (h : List.Forall₂ (Brighter k M) a a')
    (h1 : List.Forall₂ SameGauss a b) (h2 : List.Forall₂ SameGauss a' b') : List.Forall₂ (Brighter k M) b b' := by
  induction h generalizing b b' with
  | nil => cases h1; cases h2; exact .nil
  | cons x _ ih =>
    cases h1 with
    | cons y1 z1 =>
      cases h2 with
      | cons y2 z2 => exact .cons (br_same x y1 y2) (ih z1 z2)

theorem finish_some (maxiter : ℤ) (r : EMRun) : ∃ res, emFinish maxiter (.ok r) = .ok res := by
  obtain ⟨a, ha, -⟩ := C18_full_pars_roundtrip r.gmix
  obtain ⟨b, hb, -⟩ := C18_full_pars_roundtrip r.conv
  simp only [emFinish, Except.bind, ha, hb, Except.map]
  exact ⟨_, rfl⟩

theorem finish_rel {k : ℝ} {M : SkyMap} (maxiter : ℤ) {r r' : EMRun} (h : RunRel k M r r') {res res' : EMResult}
    (e : emFinish maxiter (.ok r) = .ok res) (e' : emFinish maxiter (.ok r') = .ok res') :
    SameFit k M res res' ∧ res.numiter = some r.numiter ∧ res'.numiter = some r'.numiter ∧ res.fdiff = r.frac ∧
      res'.fdiff = r'.frac ∧ (r'.numiter = r.numiter → res'.flags = res.flags) := by
  rcases emFinish_ok e with ⟨r1, gm, cv, h1, rfl, g1, g2, -⟩ | ⟨h1 | h1, -⟩
  · rcases emFinish_ok e' with ⟨r2, gm', cv', h2, rfl, g1', g2', -⟩ | ⟨h2 | h2, -⟩
    · cases h1
      cases h2
      exact ⟨⟨h.2.2, br_all h.1 g1 g1', br_all h.2.1 g2 g2'⟩, rfl, rfl, rfl, rfl, fun hn => by simp only; rw [hn]⟩
    · cases h2
    · cases h2
  · cases h1
  · cases h1

/-- What the fits return: the corresponding mixtures and sky, the same flags, number of iterations and relative
change. -/
def SameResult (k : ℝ) (M : SkyMap) (r r' : EMResult) : Prop :=
  SameFit k M r r' ∧ r'.flags = r.flags ∧ r'.numiter = r.numiter ∧ r'.fdiff = r.fdiff

theorem finish_outcome {k : ℝ} {M : SkyMap} (maxiter : ℤ) {run run' : Except PyErr EMRun}
    (h : SameOutcome (fun r r' : EMRun => RunRel k M r r' ∧ r'.numiter = r.numiter ∧ r'.frac = r.frac) run run') :
    SameOutcome (SameResult k M) (emFinish maxiter run) (emFinish maxiter run') := by
  rcases run with e | r <;> rcases run' with e' | r'
  · have : e = e' := h
    subst this
    have hR : SameResult k M ⟨Flags.EM_RANGE_ERROR, none, none, none, none, none⟩
        ⟨Flags.EM_RANGE_ERROR, none, none, none, none, none⟩ := ⟨⟨trivial, trivial, trivial⟩, rfl, rfl, rfl⟩
    cases e <;> first | exact hR | exact rfl
  · exact h.elim
  · exact h.elim
  · obtain ⟨h1, h2, h3⟩ := h
    obtain ⟨res, e⟩ := finish_some maxiter r
    obtain ⟨res', e'⟩ := finish_some maxiter r'
    obtain ⟨f1, f2, f3, f4, f5, f6⟩ := finish_rel maxiter h1 e e'
    rw [e, e']
    exact ⟨f1, f6 h2, by rw [f2, f3, h2], by rw [f4, f5, h3]⟩

/-- The two fits, given a property of states that is kept and makes the test for negative sizes come out the same. -/
theorem emGo_rel {k : ℝ} {M : SkyMap} (hk : 0 < k) (hM : M.Iso) (f : EMFitter) (hfull : f.kind ≠ .fluxonly → k = 1)
    (i : EMInput obs guess sky) (i' : EMInput obs' guess' sky') (h : SameInput k M i i') {Inv : EMState → Prop}
    (hI : KeepsGuard f.kind M f.varySky (anyZeroWeight i.px) i.psf.data Inv)
    (h0 : ∀ cv cv0, gmixConvolve i.g0.data i.psf.data = .ok cv → gmixSetNorms cv = (cv0, .ok ()) →
      Inv (startState f.kind i.px i.g0.data cv0 i.s)) :
    ∃ r r', emGo f obs guess sky = some r ∧ emGo f obs' guess' sky' = some r' ∧ SameOutcome (SameResult k M) r r' := by
  obtain ⟨cv, hc, e⟩ := emGo_eq (f := f) i
  obtain ⟨cv', hc', e'⟩ := emGo_eq (f := f) i'
  refine ⟨_, _, e, e', finish_outcome _ ?_⟩
  obtain ⟨N, hN, hq⟩ := h.psf
  have hcv := conv_rel hN h.guess hq
  rw [hc, hc'] at hcv
  rw [anyZero_rel h.pixels]
  exact emRun_rel hk hM hN f.kind hfull (by rw [h.sky]) _ hq h.pixels h.guess hcv hI
    fun hn => h0 cv _ hc (by rw [← hn])

/-- C96: an EM fit does not depend on the origin, the names and the directions of the axes of the sky.  With the
pixels, the psf, the guess and the starting sky given in other axes it raises the same exception, or returns the same
flags, number of iterations and relative change, the same sky, and the same mixtures in the other axes.  If it does not
change covariances this holds for axes turned by any angle; if it fits only fluxes it holds also for another unit of
brightness. -/
theorem C96_axes {k : ℝ} {M : SkyMap} (hk : 0 < k) (hM : M.Iso) (f : EMFitter)
    (hkind : M.Axes ∨ movesCov f.kind = false) (hfull : f.kind ≠ .fluxonly → k = 1)
    (i : EMInput obs guess sky) (i' : EMInput obs' guess' sky') (h : SameInput k M i i') :
    ∃ r r', emGo f obs guess sky = some r ∧ emGo f obs' guess' sky' = some r' ∧ SameOutcome (SameResult k M) r r' :=
  emGo_rel hk hM f hfull i i' h (keeps_axes f.kind f.varySky _ _ hkind) fun _ _ _ _ => trivial

theorem delta_moms : emGetMoms [gauss2dSet 1 0 0 0 0 0] = .ok (0, 0, 0) := by
  have hc : Centroid [gauss2dSet 1 0 0 0 0 0] 0 0 := by
    refine ⟨?_, ?_, ?_⟩ <;> norm_num [Flux, gauss2dSet]
  rw [getMoms_eq, (gmixGetCen_ok _ 0 0 _).mpr ⟨hc, rfl⟩]
  simp [Except.bind, gauss2dSet, Flux]

open Ngmix.Proof.EM in
theorem start_nonneg (kind : EMKind) {px : List Pixel} {g0 q cv cv0 : List Gauss} {s : ℝ}
    (hc : gmixConvolve g0 q = .ok cv) (hn : gmixSetNorms cv = (cv0, .ok ())) (hg : ∀ g ∈ g0, 0 ≤ g.p)
    (hpx : ∀ p ∈ px, 0 ≤ p.val ∧ 0 ≤ p.area) (hs : 0 ≤ s) : NonnegState q (startState kind px g0 cv0 s) := by
  obtain ⟨c1, c2⟩ := convolved_norms g0 q cv cv0 hc hn
  exact ⟨⟨by simp only [startState, List.length_replicate], c2⟩, c1, hg, hpx, hs⟩

theorem noPsf_data (i : EMInput obs guess sky) (h : i.o.psf = none) : i.psf.data = [gauss2dSet 1 0 0 0 0 0] := by
  have := i.hpsf
  simp only [emPsf, h, Option.some.injEq] at this
  rw [deltaPsf, Except.ok.injEq] at this
  rw [← this]

/-- C96: without psf, and with nonnegative pixels, sky and fluxes, every kind of fit can be done in axes turned by any
angle, with the same result. -/
theorem C96_no_psf {M : SkyMap} (hM : M.Iso) (f : EMFitter)
    (i : EMInput obs guess sky) (i' : EMInput obs' guess' sky') (h : SameInput 1 M i i') (hpsf : i.o.psf = none)
    (hg : ∀ g ∈ i.g0.data, 0 ≤ g.p) (hpx : ∀ p ∈ i.px, 0 ≤ p.val ∧ 0 ≤ p.area) (hs : 0 ≤ i.s) :
    ∃ r r', emGo f obs guess sky = some r ∧ emGo f obs' guess' sky' = some r' ∧ SameOutcome (SameResult 1 M) r r' := by
  have hd := noPsf_data i hpsf
  refine emGo_rel one_pos hM f (fun _ => rfl) i i' h (Inv := NonnegState i.psf.data)
    (keeps_nonneg f.kind f.varySky _ _ ?_ (by rw [hd]; exact delta_moms)) fun cv cv0 h1 h2 => ?_
  · rw [hd]
    intro g hg
    simp only [List.mem_singleton] at hg
    subst hg
    simp [gauss2dSet]
  · exact start_nonneg f.kind h1 h2 hg hpx hs

/-- C96: with another unit of brightness as well, two fits that return mixtures after the same number of iterations
return the same mixtures and sky, in the other axes and unit. -/
theorem C96_unit {k : ℝ} {M : SkyMap} (hk : 0 < k) (hM : M.Iso) (f : EMFitter) (i : EMInput obs guess sky)
    (i' : EMInput obs' guess' sky') (h : SameInput k M i i')
    (hkind : M.Axes ∨ movesCov f.kind = false ∨
      (i.o.psf = none ∧ (∀ g ∈ i.g0.data, 0 ≤ g.p) ∧ (∀ p ∈ i.px, 0 ≤ p.val ∧ 0 ≤ p.area) ∧ 0 ≤ i.s))
    (res res' : EMResult) (e : emGo f obs guess sky = some (.ok res)) (e' : emGo f obs' guess' sky' = some (.ok res'))
    (n : ℕ) (hn : res.numiter = some n) (hn' : res'.numiter = some n) : SameFit k M res res' := by
  obtain ⟨cv, hc, eg⟩ := emGo_eq (f := f) i
  obtain ⟨cv', hc', eg'⟩ := emGo_eq (f := f) i'
  rw [eg, Option.some.injEq] at e
  rw [eg', Option.some.injEq] at e'
  obtain ⟨N, hN, hq⟩ := h.psf
  have hcv := conv_rel hN h.guess hq
  rw [hc, hc'] at hcv
  rw [anyZero_rel h.pixels] at e'
  rcases emFinish_ok e with ⟨r, gm, cm, hr, hres, -⟩ | ⟨-, hres⟩
  swap
  · rw [hres] at hn; cases hn
  rcases emFinish_ok e' with ⟨r', gm', cm', hr', hres', -⟩ | ⟨-, hres'⟩
  swap
  · rw [hres'] at hn'; cases hn'
  have e1 := e
  have e1' := e'
  rw [hr] at e1
  rw [hr'] at e1'
  obtain ⟨s1, st, s2, s3⟩ := emRun_steps hr
  obtain ⟨s1', st', s2', s3'⟩ := emRun_steps hr'
  have hnn : r.numiter = n := by rw [hres] at hn; simpa using hn
  have hnn' : r'.numiter = n := by rw [hres'] at hn'; simpa using hn'
  rw [hnn] at s2
  rw [hnn'] at s2'
  simp only at s2 s2'
  have i3 : List.Forall₂ (ConvRel k M) (gmixSetNorms cv).1 (gmixSetNorms cv').1 := by
    rcases norms_rel hM hcv with ⟨j1, -⟩ | ⟨-, -, j3⟩
    · rw [s1] at j1; cases j1
    · exact j3
  have hst : StateRel k M st st' := by
    have key : ∀ {Inv : EMState → Prop}, KeepsGuard f.kind M f.varySky (anyZeroWeight i.px) i.psf.data Inv →
        Inv (startState f.kind i.px i.g0.data (gmixSetNorms cv).1 i.s) → StateRel k M st st' := by
      intro Inv hI h0
      have hs0 := (start_rel (kind := f.kind) (sky := i.s) h.guess i3 h.pixels).1
      rw [← h.sky] at hs0
      exact steps_rel hk hM hN f.kind f.varySky _ hq hI n hs0 h0 s2 s2'
    rcases hkind with ha | hb | ⟨p1, p2, p3, p4⟩
    · exact key (keeps_axes f.kind f.varySky _ _ (.inl ha)) trivial
    · exact key (keeps_axes f.kind f.varySky _ _ (.inr hb)) trivial
    · have hd := noPsf_data i p1
      refine key (Inv := NonnegState i.psf.data) (keeps_nonneg f.kind f.varySky _ _ ?_ (by rw [hd]; exact delta_moms)) ?_
      · rw [hd]
        intro g hg
        simp only [List.mem_singleton] at hg
        subst hg
        simp [gauss2dSet]
      · exact start_nonneg f.kind hc (by rw [← s1]) p2 p3 p4
  have hrun : RunRel k M r r' := by
    rw [s3, s3']
    exact run_of_state hst _ _
  exact (finish_rel f.maxiter hrun e1 e1').1

/-! ### A sky that is guessed -/

theorem imVals_scaled {k : ℝ} {im im' : Image} (h1 : im'.nrow = im.nrow) (h2 : im'.ncol = im.ncol)
    (h3 : ∀ r c, im'.get r c = k * im.get r c) : imVals im' = (imVals im).map (k * ·) := by
  simp only [imVals, h1, h2, h3, List.map_flatMap, List.map_map, Function.comp_def]

theorem foldl_scaled {k : ℝ} (f : ℝ → ℝ → ℝ) (hf : ∀ x y, f (k * x) (k * y) = k * f x y) : ∀ (l : List ℝ) (x : ℝ),
    (l.map (k * ·)).foldl f (k * x) = k * l.foldl f x
  | [], _ => rfl
  | y :: l, x => by rw [List.map_cons, List.foldl_cons, List.foldl_cons, hf, foldl_scaled f hf l]

/-- C96: the sky that `prep_obs` guesses, and the pixels it makes, correspond when the images and the Jacobians do. -/
theorem C96_guessed_sky {k : ℝ} {M : SkyMap} (hk : 0 < k) (hM : M.Iso) (hj : JacWF obs.jac) (hj' : JacWF obs'.jac)
    (hsky : SameSky M obs.jac obs'.jac) (h1 : obs'.image.nrow = obs.image.nrow) (h2 : obs'.image.ncol = obs.image.ncol)
    (h3 : ∀ r c, obs'.image.get r c = k * obs.image.get r c)
    (i : EMInput obs guess none) (i' : EMInput obs' guess' none) :
    i'.s = k * i.s ∧ List.Forall₂ (BrighterPixel k M) i.px i'.px ∧ i.o.psf = obs.psf ∧ i'.o.psf = obs'.psf := by
  have e : prepObs obs = .ok (i.o, i.s) := i.start
  have e' : prepObs obs' = .ok (i'.o, i'.s) := i'.start
  obtain ⟨px, a1, a2, a3⟩ := C50_prep_obs obs i.o i.s e
  obtain ⟨px', a1', a2', a3'⟩ := C50_prep_obs obs' i'.o i'.s e'
  rw [i.pixels, Option.some.injEq] at a1
  rw [i'.pixels, Option.some.injEq] at a1'
  subst a1 a1'
  have hs : i'.s = k * i.s := by
    obtain ⟨im, -, b1, -⟩ := prepObs_pixels obs i.o i.s e
    obtain ⟨im', -, b1', -⟩ := prepObs_pixels obs' i'.o i'.s e'
    unfold prepImage imMin imMax at b1 b1'
    rw [imVals_scaled h1 h2 h3] at b1'
    rcases hv : imVals obs.image with _ | ⟨x, xs⟩
    · rw [hv] at b1; simp [Except.bind] at b1
    · rw [hv] at b1 b1'
      simp only [Except.bind, List.map_cons, Except.ok.injEq, Prod.mk.injEq] at b1 b1'
      rw [foldl_scaled min (fun x y => (mul_min_of_nonneg x y hk.le).symm),
        foldl_scaled max (fun x y => (mul_max_of_nonneg x y hk.le).symm)] at b1'
      rw [← b1'.2, ← b1.2]
      ring
  refine ⟨hs, ?_, a2, a2'⟩
  rw [h1, h2] at a3'
  have harea := sameSky_area hj hj' hsky
  rw [iso_abs hM, one_mul] at harea
  have key : ∀ (l : List (ℕ × ℕ)) (px px' : List Pixel),
      List.Forall₂ (fun (p : ℕ × ℕ) (q : Pixel) => q.ierr = 1 ∧ q.val = obs.image.get p.1 p.2 + i.s ∧
        (q.v, q.u) = obs.jac.getVU p.1 p.2 ∧ q.area = obs.jac.area) l px →
      List.Forall₂ (fun (p : ℕ × ℕ) (q : Pixel) => q.ierr = 1 ∧ q.val = obs'.image.get p.1 p.2 + i'.s ∧
        (q.v, q.u) = obs'.jac.getVU p.1 p.2 ∧ q.area = obs'.jac.area) l px' →
      List.Forall₂ (BrighterPixel k M) px px' := by
    intro l px px' q1
    induction q1 generalizing px' with
    | nil => intro q2; cases q2; exact .nil
    | cons x _ ih =>
      intro q2
      cases q2 with
      | cons y hy =>
        refine .cons ⟨?_, by rw [y.2.2.2, x.2.2.2, harea], by rw [y.2.1, x.2.1, h3, hs]; ring, by rw [y.1, x.1]⟩ (ih _ hy)
        rw [y.2.2.1, x.2.2.1, hsky]
  exact key _ _ _ a3 a3'

/-! ### Where the unit and the angle do matter -/

/-- One pixel of value `p` at the origin, and one gaussian of flux `p`, as the input of a fit. -/
def oneInput (p : ℝ) : EMInput (onePixel p) (oneGauss p) (some 0) :=
  ⟨onePixel p, 0, [⟨0, 0, 1, p, 1⟩], ⟨.model "gauss", 6, 1, [0, 0, 0, 0, 0, 1], [gauss2dSet 1 0 0 0 0 0]⟩,
    { resetObj .full 6 1 with data := [gauss2dSet p 0 0 1 0 1] }, rfl, rfl,
    by simp only [emPsf, onePixel]; rw [deltaPsf], rfl⟩

theorem oneInput_same (p k : ℝ) : SameInput k ⟨1, 0, 0, 1, 0, 0⟩ (oneInput p) (oneInput (k * p)) where
  guess := .cons (by simp [Brighter, Moved, gauss2dSet, SkyMap.point]) .nil
  pixels := .cons (by simp [BrighterPixel, SkyMap.point]) .nil
  sky := by simp [oneInput]
  psf := ⟨⟨1, 0, 0, 1, 0, 0⟩, ⟨rfl, rfl, rfl, rfl⟩, .cons (by simp [Moved, gauss2dSet, SkyMap.point]) .nil⟩

theorem one_elog (p v : ℝ) (hp : 0 < p) (hv : v ≠ 0) (g : Gauss) (hs : SameGauss (gauss2dSet p 0 0 1 0 1) g)
    (hd : DetCurrent g) (hn : NormsCurrent g) :
    Fl.fin 0 + (Fl.fin 0 + Fl.fin v * (logFl (.fin g.p) - Fl.fin 0.5 * logFl (.fin g.det) -
      Fl.fin 0.5 * emChi2 g ⟨0, 0, 1, p, 1⟩)) * Fl.fin (1 / v) = .fin (Real.log p) := by
  obtain ⟨s1, s2, s3, s4, s5, s6⟩ := hs
  simp only [gauss2dSet] at s1 s2 s3 s4 s5 s6
  have hdet : g.det = 1 := by
    have := hd
    unfold DetCurrent at this
    rw [this, ← s4, ← s5, ← s6]; norm_num
  obtain ⟨d, h1, -⟩ := hn
  have hchi : emChi2 g ⟨0, 0, 1, p, 1⟩ = .fin 0 := by
    simp only [emChi2, h1, gaussChi2, ← s2, ← s3]
    norm_num
  have e1 : logFl (.fin p) = .fin (Real.log p) := by
    simp only [logFl]; rw [if_neg (not_lt.2 hp.le), if_neg hp.ne']
  have e2 : logFl (.fin 1) = .fin 0 := by
    simp only [logFl]; rw [if_neg (by norm_num), if_neg (by norm_num), Real.log_one]
  rw [hchi, hdet, ← s1, e1, e2]
  simp only [Fl.fin_add, Fl.fin_mul, Fl.fin_sub, mul_zero, sub_zero, zero_add, Fl.fin.injEq]
  field_simp

/-- C96 (violation): the kinds of fit whose convergence is tested with the expected log likelihood depend on the unit of
brightness.  The same data and guess, a pixel of value `p` at the centre of a gaussian of flux `p` without sky, are
flagged with EM_RANGE_ERROR, and there is no mixture, exactly if `p` is 1 in the unit chosen. -/
theorem C96_unit_matters (p tol : ℝ) (hp : 0 < p) :
    ∃ res, emGo ⟨.fixcov, 1, 1, tol, false⟩ (onePixel p) (oneGauss p) (some 0) = some (.ok res) ∧
      (p = 1 → res.flags = Flags.EM_RANGE_ERROR ∧ res.gmix = none) ∧
      (p ≠ 1 → res.flags = Flags.EM_MAXITER ∧ ∃ gm, res.gmix = some gm ∧ gm.data.length = 1) := by
  obtain ⟨g, hn, hs, hd, hnc⟩ := oneGauss_norms p
  have hE := oneGauss_value p hp g hs hnc
  obtain ⟨conv, hc, e⟩ := emGo_eq (f := ⟨.fixcov, 1, 1, tol, false⟩) (oneInput p)
  have hc' : gmixConvolve [gauss2dSet p 0 0 1 0 1] [gauss2dSet 1 0 0 0 0 0] = .ok conv := hc
  rw [oneGauss_conv, Except.ok.injEq] at hc'
  subst hc'
  have hz : anyZeroWeight [⟨0, 0, 1, p, 1⟩] = false := by simp [anyZeroWeight]
  have hpl : ∃ ss, pixelLoop 1 ([g].zip (logtauLogdet [g])) 0 [⟨0, 0, 1, p, 1⟩]
      (clearSums [EMSums.zero], .fin 0, 0) = .ok ([ss], .fin (Real.log p), 0) ∧ ss.pnew = p ∧ ss.vsum = 0 ∧
      ss.usum = 0 := by
    have he := one_elog p (gaussEvalFast g 0 0 1) hp hE g hs hd hnc
    simp only [pixelLoop, doScratchSums, scratchAll, logtauLogdet, clearSums, List.map_cons, List.map_nil,
      List.zip_cons_cons, List.zip_nil_right, List.take_succ_cons, List.take_zero, List.foldl_cons, List.foldl_nil,
      scratchGauss, doSums, zero_add, add_zero, if_neg hE, zero_mul, zero_div, resetScratch, he]
    refine ⟨_, rfl, ?_, ?_, ?_⟩
    · simp only; rw [mul_div_cancel₀ _ hE]
    · simp [EMSums.zero]
    · simp [EMSums.zero]
  obtain ⟨ss, hpl, hss, hv, hu⟩ := hpl
  have hsf : setFromSums .fixcov [gauss2dSet p 0 0 1 0 1] [gauss2dSet 1 0 0 0 0 0] [ss] =
      .ok ([gauss2dSet p 0 0 1 0 1], [g]) := by
    have hl : setFromSumsLoop .fixcov (0, 0, 0) [gauss2dSet p 0 0 1 0 1] [ss] =
        .ok [gauss2dSet p 0 0 1 0 1] := by
      simp only [setFromSumsLoop, setGaussFromSums, hss, hv, hu, zero_mul]
      rw [if_neg hp.ne']
      rfl
    simp only [setFromSums, Except.bind, hl, oneGauss_conv, hn]
  have hit : emIter .fixcov ⟨tol, 1, 1, 0, false⟩ [gauss2dSet 1 0 0 0 0 0] false 1
      ⟨[gauss2dSet p 0 0 1 0 1], [g], [EMSums.zero], [⟨0, 0, 1, p, 1⟩], 0, .fin (-9999.9e9), none⟩ =
      emTest .fixcov ⟨tol, 1, 1, 0, false⟩ 1
        ⟨[gauss2dSet p 0 0 1 0 1], [g], [ss], [⟨0, 0, 1, p, 1⟩], 0, .fin (-9999.9e9), none⟩ (.fin (Real.log p)) := by
    unfold emIter
    simp only [Bool.false_eq_true, if_false, List.length_cons, List.length_nil, zero_add, hpl, Except.bind, hsf,
      emNewSky, emCur]
  have hrun : emRun .fixcov ⟨tol, 1, 1, 0, false⟩ [⟨0, 0, 1, p, 1⟩] [gauss2dSet p 0 0 1 0 1]
      [gauss2dSet 1 0 0 0 0 0] [gauss2dSet p 0 0 1 0 1] false =
      (emTest .fixcov ⟨tol, 1, 1, 0, false⟩ 1
        ⟨[gauss2dSet p 0 0 1 0 1], [g], [ss], [⟨0, 0, 1, p, 1⟩], 0, .fin (-9999.9e9), none⟩ (.fin (Real.log p))).map
        fun r => ⟨1, r.1.frac, r.1.sky, r.1.gmix.map fun g => { g with normSet := false }, r.1.conv, r.1.pixels⟩ := by
    simp only [emRun, hn]
    rw [if_neg (by norm_num)]
    simp only [Int.toNat_one, emLoop, List.length_cons, List.length_nil, zero_add, List.replicate_one,
      Nat.cast_zero, hit]
    rcases emTest .fixcov ⟨tol, 1, 1, 0, false⟩ 1
        ⟨[gauss2dSet p 0 0 1 0 1], [g], [ss], [⟨0, 0, 1, p, 1⟩], 0, .fin (-9999.9e9), none⟩ (.fin (Real.log p)) with
      x | ⟨st, b⟩
    · rfl
    · cases b <;> rfl
  have e' : emGo ⟨.fixcov, 1, 1, tol, false⟩ (onePixel p) (oneGauss p) (some 0) = some (emFinish 1
      (emRun .fixcov ⟨tol, 1, 1, 0, false⟩ [⟨0, 0, 1, p, 1⟩] [gauss2dSet p 0 0 1 0 1]
        [gauss2dSet 1 0 0 0 0 0] [gauss2dSet p 0 0 1 0 1] false)) := by
    rw [e, ← hz]
    rfl
  rw [e', hrun]
  by_cases h1 : p = 1
  · have ht : emTest .fixcov ⟨tol, 1, 1, 0, false⟩ 1
        ⟨[gauss2dSet p 0 0 1 0 1], [g], [ss], [⟨0, 0, 1, p, 1⟩], 0, .fin (-9999.9e9), none⟩ (.fin (Real.log p)) =
        .error .gmixRange := by
      simp only [emTest, emFrac]
      rw [if_pos (by norm_num), if_pos (by simp [Fl.isZero, h1])]
      rfl
    rw [ht]
    exact ⟨_, rfl, fun _ => ⟨rfl, rfl⟩, fun h => absurd h1 h⟩
  · have hl : Real.log p ≠ 0 := Real.log_ne_zero_of_pos_of_ne_one hp h1
    have ht : ∃ fr la b, emTest .fixcov ⟨tol, 1, 1, 0, false⟩ 1
        ⟨[gauss2dSet p 0 0 1 0 1], [g], [ss], [⟨0, 0, 1, p, 1⟩], 0, .fin (-9999.9e9), none⟩ (.fin (Real.log p)) =
        .ok (⟨[gauss2dSet p 0 0 1 0 1], [g], [ss], [⟨0, 0, 1, p, 1⟩], 0, la, fr⟩, b) := by
      simp only [emTest, emFrac]
      rw [if_pos (by norm_num), if_neg (by simp [Fl.isZero, hl])]
      simp only [Except.map]
      split
      · exact ⟨_, _, _, rfl⟩
      · exact ⟨_, _, _, rfl⟩
    obtain ⟨fr, la, b, ht⟩ := ht
    rw [ht]
    simp only [Except.map]
    obtain ⟨res, hr⟩ := finish_some 1 ⟨1, fr, 0, [gauss2dSet p 0 0 1 0 1].map fun g => { g with normSet := false },
      [g], [⟨0, 0, 1, p, 1⟩]⟩
    rcases emFinish_ok hr with ⟨r, gm, cv, h2, rfl, h3, -⟩ | ⟨h, -⟩
    · cases h2
      exact ⟨_, by rw [hr], fun h => absurd h h1, fun _ => ⟨by simp, _, rfl, by simpa using h3.length_eq.symm⟩⟩
    · simp at h


/-- One pixel at `(v, u)` and a round psf of unit size. -/
def blurPixel (v u : ℝ) : EMObs :=
  ⟨⟨1, 1, fun _ _ => 1⟩, ⟨0, 0, 1, 0, 0, 1, 1, 1⟩, some [⟨u, v, 1, 1, 1⟩], some (oneGauss 1)⟩

theorem blur_psf (v u : ℝ) : emPsf (blurPixel v u) = some (.ok { resetObj .full 6 1 with
    data := [gauss2dSet 1 0 0 1 0 1] }) := by
  simp [emPsf, blurPixel, copyGMix, oneGauss, setFluxObj, setFlux, gauss2dSet, resetObj, psum]

def blurInput (v u : ℝ) : EMInput (blurPixel v u) (oneGauss 1) (some 0) :=
  ⟨blurPixel v u, 0, [⟨u, v, 1, 1, 1⟩], { resetObj .full 6 1 with data := [gauss2dSet 1 0 0 1 0 1] },
    { resetObj .full 6 1 with data := [gauss2dSet 1 0 0 1 0 1] }, rfl, rfl, blur_psf v u, rfl⟩

theorem blur_conv (a b c : ℝ) :
    gmixConvolve [gauss2dSet 1 0 0 a b c] [gauss2dSet 1 0 0 1 0 1] = .ok [gauss2dSet 1 0 0 (a + 1) b (c + 1)] := by
  have hc : Centroid [gauss2dSet 1 0 0 1 0 1] 0 0 := by
    refine ⟨?_, ?_, ?_⟩ <;> norm_num [Flux, gauss2dSet]
  rw [gmixConvolve, (gmixGetCen_ok _ 0 0 _).mpr ⟨hc, rfl⟩]
  simp [Except.map, gauss2dSet, Flux]

theorem round_norms (a c : ℝ) (ha : 1 ≤ a) (hc : 1 ≤ c) :
    ∃ g, gmixSetNorms [gauss2dSet 1 0 0 a 0 c] = ([g], .ok ()) ∧
    SameGauss (gauss2dSet 1 0 0 a 0 c) g ∧ DetCurrent g ∧ NormsCurrent g := by
  have hu : ∀ g ∈ [gauss2dSet 1 0 0 a 0 c], Usable g := by
    intro g hg
    rw [List.mem_singleton] at hg
    subst hg
    have hl : gmixLowDetval < 1 := by norm_num [gmixLowDetval]
    have hac : 1 ≤ a * c := by nlinarith
    constructor <;> simp only [gauss2dSet] <;> linarith
  have hd : ∀ g ∈ [gauss2dSet 1 0 0 a 0 c], DetCurrent g := by
    intro g hg
    rw [List.mem_singleton] at hg
    subst hg
    rfl
  obtain ⟨h1, h2⟩ := (C20_set_norms _ hd).1 hu
  rcases hs : gmixSetNorms [gauss2dSet 1 0 0 a 0 c] with ⟨l, r⟩
  rw [hs] at h1 h2
  simp only at h1 h2
  subst h1
  cases h2 with
  | cons h3 h4 =>
    cases h4
    exact ⟨_, rfl, h3.1, h3.2.1, h3.2.2.1⟩

theorem blur_value (v u : ℝ) (hvu : v ^ 2 + u ^ 2 ≤ 4) (g : Gauss) (hs : SameGauss (gauss2dSet 1 0 0 2 0 2) g)
    (hn : NormsCurrent g) : gaussEvalFast g v u 1 ≠ 0 := by
  obtain ⟨s1, s2, s3, s4, s5, s6⟩ := hs
  simp only [gauss2dSet] at s1 s2 s3 s4 s5 s6
  obtain ⟨y, peak, h1, h2, h3⟩ := C26_eval g hn (by rw [← s4, ← s6]; norm_num) (by rw [← s1]; exact zero_le_one) v u 1
    zero_le_one
  obtain ⟨d, hd, h4, h5, h6, h7, h8, h9⟩ := hn
  have hpn : 0 < d.pnorm := by
    rw [h9, ← s1, ← s4, ← s5, ← s6]
    have := Real.pi_pos
    norm_num
    positivity
  simp only [gaussEval, hd, Option.map_some, Option.some.injEq, mul_one] at h1 h2
  have hy : 0 < y := by
    rw [← h1]
    positivity
  have hchi : gaussChi2 g d v u ≤ 2 ∧ gaussChi2 g d g.row g.col = 0 := by
    simp only [gaussChi2, h5, h6, h7, ← s2, ← s3, ← s4, ← s5, ← s6]
    constructor
    · norm_num
      nlinarith
    · norm_num
  rcases h3 with h3 | ⟨-, h3⟩
  · intro h0
    rw [h0, zero_sub, abs_neg, abs_of_pos hy] at h3
    norm_num at h3
    linarith
  · exfalso
    rw [hchi.2, mul_zero, Real.exp_zero, mul_one] at h2
    rw [← h1, ← h2, mul_comm d.pnorm] at h3
    have h3 := le_of_mul_le_mul_right h3 hpn
    rw [Real.exp_le_exp] at h3
    linarith [hchi.1]

/-- The fit with fixed centre of one gaussian to one pixel, one iteration: the covariance is the one of the pixel minus
that of the psf, as repaired by the fitter. -/
theorem blur_fit (v u : ℝ) (hvu : v ^ 2 + u ^ 2 ≤ 4) (m : ℝ × ℝ × ℝ)
    (hm : ∀ s : EMSums, s.pnew = 1 → s.v2sum = v ^ 2 → s.uvsum = u * v → s.u2sum = u ^ 2 → emCov (1, 0, 1) s = m)
    (hround : m.2.1 = 0) (h0 : 0 ≤ m.1) (h1 : 0 ≤ m.2.2) (tol : ℝ) :
    ∃ res gm g, emGo ⟨.fixcen, 2, 1, tol, false⟩ (blurPixel v u) (oneGauss 1) (some 0) = some (.ok res) ∧
      res.gmix = some gm ∧ gm.data = [g] ∧ g.p = 1 ∧ g.row = 0 ∧ g.col = 0 ∧ g.irr = m.1 ∧ g.irc = 0 ∧ g.icc = m.2.2 := by
  obtain ⟨g, hn, hs, hd, hnc⟩ := round_norms 2 2 one_le_two one_le_two
  have hE := blur_value v u hvu g hs hnc
  obtain ⟨conv, hc, e⟩ := emGo_eq (f := ⟨.fixcen, 2, 1, tol, false⟩) (blurInput v u)
  have hc' : gmixConvolve [gauss2dSet 1 0 0 1 0 1] [gauss2dSet 1 0 0 1 0 1] = .ok conv := hc
  rw [blur_conv, Except.ok.injEq, one_add_one_eq_two] at hc'
  subst hc'
  have hz : anyZeroWeight [⟨u, v, 1, 1, 1⟩] = false := by simp [anyZeroWeight]
  have hrc : g.row = 0 ∧ g.col = 0 := ⟨hs.2.1.symm, hs.2.2.1.symm⟩
  have hpl : ∃ ss el, pixelLoop 1 ([g].zip (logtauLogdet [g])) 0 [⟨u, v, 1, 1, 1⟩]
      (clearSums [EMSums.zero], .fin 0, 0) = .ok ([ss], el, 0) ∧ ss.pnew = 1 ∧ ss.v2sum = v ^ 2 ∧ ss.uvsum = u * v ∧
      ss.u2sum = u ^ 2 := by
    simp only [pixelLoop, doScratchSums, scratchAll, logtauLogdet, clearSums, List.map_cons, List.map_nil,
      List.zip_cons_cons, List.zip_nil_right, List.take_succ_cons, List.take_zero, List.foldl_cons, List.foldl_nil,
      scratchGauss, doSums, zero_add, add_zero, if_neg hE, zero_mul, zero_div, resetScratch, hrc.1, hrc.2, sub_zero]
    refine ⟨_, _, rfl, ?_, ?_, ?_, ?_⟩
    · simp only; rw [mul_div_cancel₀ _ hE]
    · simp only; generalize gaussEvalFast g v u 1 = E at hE; field_simp
    · simp only; generalize gaussEvalFast g v u 1 = E at hE; field_simp
    · simp only; generalize gaussEvalFast g v u 1 = E at hE; field_simp
  obtain ⟨ss, el, hpl, b1, b2, b3, b4⟩ := hpl
  have hcov := hm ss b1 b2 b3 b4
  obtain ⟨g', hn', hs', -, -⟩ := round_norms (m.1 + 1) (m.2.2 + 1) (by linarith) (by linarith)
  have hmom : emGetMoms [gauss2dSet 1 0 0 1 0 1] = .ok (1, 0, 1) := by
    have hc : Centroid [gauss2dSet 1 0 0 1 0 1] 0 0 := by
      refine ⟨?_, ?_, ?_⟩ <;> norm_num [Flux, gauss2dSet]
    rw [getMoms_eq, (gmixGetCen_ok _ 0 0 _).mpr ⟨hc, rfl⟩]
    simp [Except.bind, gauss2dSet, Flux]
  have hsf : setFromSums .fixcen [gauss2dSet 1 0 0 1 0 1] [gauss2dSet 1 0 0 1 0 1] [ss] =
      .ok ([gauss2dSet 1 0 0 m.1 0 m.2.2], [g']) := by
    have hl : setFromSumsLoop .fixcen (1, 0, 1) [gauss2dSet 1 0 0 1 0 1] [ss] =
        .ok [gauss2dSet 1 0 0 m.1 0 m.2.2] := by
      simp only [setFromSumsLoop, setGaussFromSums, b1, hcov, hround]
      rw [if_neg one_ne_zero]
      rfl
    simp only [setFromSums, Except.bind, hmom, hl, blur_conv, hn']
  have hrun : emRun .fixcen ⟨tol, 2, 1, 0, false⟩ [⟨u, v, 1, 1, 1⟩] [gauss2dSet 1 0 0 1 0 1]
      [gauss2dSet 1 0 0 1 0 1] [gauss2dSet 1 0 0 2 0 2] false = .ok ⟨1, none, 0,
        [gauss2dSet 1 0 0 m.1 0 m.2.2], [g'], [⟨u, v, 1, 1, 1⟩]⟩ := by
    have hit : emIter .fixcen ⟨tol, 2, 1, 0, false⟩ [gauss2dSet 1 0 0 1 0 1] false 1
        ⟨[gauss2dSet 1 0 0 1 0 1], [g], [EMSums.zero], [⟨u, v, 1, 1, 1⟩], 0, .fin (-9999.9e9), none⟩ =
        .ok (⟨[gauss2dSet 1 0 0 m.1 0 m.2.2], [g'], [ss], [⟨u, v, 1, 1, 1⟩], 0, el, none⟩, false) := by
      unfold emIter
      simp only [Bool.false_eq_true, if_false, List.length_cons, List.length_nil, zero_add, hpl, Except.bind, hsf,
        emNewSky, emTest, emCur]
      rw [if_neg (by norm_num)]
    simp only [emRun, hn]
    rw [if_neg (by norm_num)]
    simp only [Int.toNat_one, emLoop, List.length_cons, List.length_nil, zero_add, List.replicate_one,
      Nat.cast_zero, hit, Except.bind, Bool.false_eq_true, if_false, Except.map]
    rfl
  have e' : emGo ⟨.fixcen, 2, 1, tol, false⟩ (blurPixel v u) (oneGauss 1) (some 0) = some (emFinish 1
      (.ok ⟨1, none, 0, [gauss2dSet 1 0 0 m.1 0 m.2.2], [g'], [⟨u, v, 1, 1, 1⟩]⟩)) := by
    rw [e, ← hrun, ← hz]
    rfl
  obtain ⟨res, hr⟩ := finish_some 1 ⟨1, none, 0, [gauss2dSet 1 0 0 m.1 0 m.2.2], [g'], [⟨u, v, 1, 1, 1⟩]⟩
  rcases emFinish_ok hr with ⟨r, gm, cv, h2, rfl, h3, -⟩ | ⟨h, -⟩
  · cases h2
    rcases hgm : gm.data with _ | ⟨x, _ | ⟨y, l⟩⟩
    · rw [hgm] at h3; cases h3
    · rw [hgm] at h3
      cases h3 with
      | cons q _ =>
        obtain ⟨q1, q2, q3, q4, q5, q6⟩ := q
        simp only [gauss2dSet] at q1 q2 q3 q4 q5 q6
        exact ⟨_, gm, x, by rw [e', hr], rfl, hgm, q1.symm, q2.symm, q3.symm, q4.symm, q5.symm, q6.symm⟩
    · rw [hgm] at h3
      cases h3 with
      | cons _ q => cases q
  · simp at h

/-- The axes turned by the angle of the triangle with sides 3, 4 and 5. -/
def turn345 : SkyMap := ⟨3 / 5, -4 / 5, 4 / 5, 3 / 5, 0, 0⟩

theorem blur_same : SameInput 1 turn345 (blurInput (5 / 3) 0) (blurInput 1 (4 / 3)) where
  guess := .cons (by simp only [Brighter, Moved, gauss2dSet, SkyMap.point, turn345]; norm_num) .nil
  pixels := .cons (by simp only [BrighterPixel, SkyMap.point, turn345]; norm_num) .nil
  sky := by simp [blurInput]
  psf := ⟨turn345, ⟨rfl, rfl, rfl, rfl⟩, .cons (by simp only [Moved, gauss2dSet, SkyMap.point, turn345]; norm_num) .nil⟩

/-- C96 (violation): with a psf the fits that change covariances depend on the angle of the axes.  The same data, psf and
guess in axes turned by 53 degrees give gaussians of different sizes, because the repair of a covariance smaller than
that of the psf looks at the two axes. -/
theorem C96_rotated_psf (tol : ℝ) : turn345.Iso ∧ SameInput 1 turn345 (blurInput (5 / 3) 0) (blurInput 1 (4 / 3)) ∧
    ∃ res res' gm gm' g g',
      emGo ⟨.fixcen, 2, 1, tol, false⟩ (blurPixel (5 / 3) 0) (oneGauss 1) (some 0) = some (.ok res) ∧
      emGo ⟨.fixcen, 2, 1, tol, false⟩ (blurPixel 1 (4 / 3)) (oneGauss 1) (some 0) = some (.ok res') ∧
      res.gmix = some gm ∧ res'.gmix = some gm' ∧ gm.data = [g] ∧ gm'.data = [g'] ∧
      g.irr + g.icc = 2e-4 ∧ g'.irr + g'.icc = 7 / 9 ∧ ¬ Brighter 1 turn345 g g' := by
  have hI : turn345.Iso := by simp only [SkyMap.Iso, turn345]; norm_num
  refine ⟨hI, blur_same, ?_⟩
  obtain ⟨res, gm, g, h1, h2, h3, -, -, -, h4, -, h5⟩ := blur_fit (5 / 3) 0 (by norm_num) (1.0e-4, 0, 1.0e-4)
    (fun s e1 e2 e3 e4 => by
      simp only [emCov, e1, e2, e3, e4]
      have hc : ((5 / 3 : ℝ)) ^ 2 * (1 / 1) - 1 < 0 ∨ (0 : ℝ) ^ 2 * (1 / 1) - 1 < 0 := by right; norm_num
      simp only [if_pos hc]
      rw [if_neg (by norm_num [gmixLowDetval])]) rfl (by norm_num) (by norm_num) tol
  obtain ⟨res', gm', g', h1', h2', h3', -, -, -, h4', -, h5'⟩ := blur_fit 1 (4 / 3) (by norm_num)
    (7 / 18, 0, 7 / 18)
    (fun s e1 e2 e3 e4 => by
      simp only [emCov, e1, e2, e3, e4]
      have hc : ¬ (((1 : ℝ)) ^ 2 * (1 / 1) - 1 < 0 ∨ (4 / 3 : ℝ) ^ 2 * (1 / 1) - 1 < 0) := by norm_num
      simp only [if_neg hc]
      rw [if_pos (by norm_num [gmixLowDetval])]
      norm_num) rfl (by norm_num) (by norm_num) tol
  refine ⟨_, _, _, _, _, _, h1, h1', h2, h2', h3, h3', by rw [h4, h5]; norm_num, by rw [h4', h5']; norm_num, ?_⟩
  intro hb
  have := br_T hI hb
  rw [h4, h5, h4', h5'] at this
  norm_num at this

/-- Changes of axes and inputs meeting the hypotheses. -/
example : (⟨0, 1, 1, 0, 3, -2⟩ : SkyMap).Iso ∧ (⟨0, 1, 1, 0, 3, -2⟩ : SkyMap).Axes ∧ turn345.Iso := by
  refine ⟨?_, ?_, ?_⟩
  · simp only [SkyMap.Iso]; norm_num
  · exact .inr ⟨rfl, rfl⟩
  · simp only [SkyMap.Iso, turn345]; norm_num

example : SameInput 2 ⟨1, 0, 0, 1, 0, 0⟩ (oneInput 3) (oneInput (2 * 3)) := oneInput_same 3 2

example : (oneInput 3).o.psf = none ∧ (∀ g ∈ (oneInput 3).g0.data, 0 ≤ g.p) ∧
    (∀ p ∈ (oneInput 3).px, 0 ≤ p.val ∧ 0 ≤ p.area) ∧ 0 ≤ (oneInput 3).s := by
  refine ⟨rfl, ?_, ?_, le_refl _⟩
  · intro g hg
    have hg : g ∈ [gauss2dSet 3 0 0 1 0 1] := hg
    rw [List.mem_singleton] at hg
    subst hg
    simp [gauss2dSet]
  · intro p hp
    have hp : p ∈ [(⟨0, 0, 1, 3, 1⟩ : Pixel)] := hp
    rw [List.mem_singleton] at hp
    subst hp
    norm_num

/-- Rows and columns exchanged. -/
example : SameSky ⟨0, 1, 1, 0, 0, 0⟩ (Jacobian.finishInit 5 6 0.3 0 0.1 0.2) (Jacobian.finishInit 5 6 0.1 0.2 0.3 0) := by
  intro r c
  simp only [SkyMap.point, Jacobian.getVU, Jacobian.finishInit, Prod.mk.injEq]
  constructor <;> ring

end

end Ngmix.Props
