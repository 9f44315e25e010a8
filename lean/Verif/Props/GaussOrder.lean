import Verif.Spec.GaussOrder
import Verif.Proof.GaussOrder
import Verif.Props.Order
import Verif.Model.WSums

/-!
# The order of the gaussians of a mixture (C113)
-/

namespace Ngmix.Props

open Ngmix Ngmix.Spec Ngmix.Proof.GaussOrder Ngmix.Proof.EMUnit

noncomputable section

/-! ### Summaries and derived mixtures -/

theorem getCen_perm {gm gm' : List Gauss} (h : gm.Perm gm') : getCen gm = getCen gm' := by
  unfold getCen
  rw [psum_perm h, perm_map_sum h, perm_map_sum h]

theorem getMoms_perm {gm gm' : List Gauss} (h : gm.Perm gm') : getMoms gm = getMoms gm' := by
  unfold getMoms
  rw [getCen_perm h, psum_perm h]
  congr 1
  funext c
  rw [perm_map_sum h, perm_map_sum h, perm_map_sum h]

/-- C113.  Flux, centre, size and shape do not depend on the order of the gaussians, nor do those of the compiled functions. -/
theorem C113_summaries {gm gm' : List Gauss} (h : gm.Perm gm') :
    psum gm = psum gm' ∧ getCen gm = getCen gm' ∧ gmGetT gm = gmGetT gm' ∧ gmGetE1e2T gm = gmGetE1e2T gm' ∧
    gmGetG1g2T gm = gmGetG1g2T gm' ∧ gmixGetCen gm = gmixGetCen gm' ∧ gmixGetE1e2T gm = gmixGetE1e2T gm' := by
  refine ⟨psum_perm h, getCen_perm h, ?_, ?_, ?_, cen_perm h, ?_⟩
  · unfold gmGetT; rw [getMoms_perm h]
  · unfold gmGetE1e2T; rw [getMoms_perm h]
  · unfold gmGetG1g2T gmGetE1e2T; rw [getMoms_perm h]
  · unfold gmixGetE1e2T e1e2TSums
    rw [cen_perm h]
    congr 1
    funext c
    rw [h.foldl_eq' (fun x _ y _ z => by
      refine Prod.ext ?_ (Prod.ext ?_ (Prod.ext ?_ ?_)) <;> simp only <;> ring) (0, 0, 0, 0)]

/-- C113.  Moving to another centre, scaling to another flux, making round and convolving give the same gaussians in another
order, or fail in the same way; so does convolving with a psf whose gaussians are in another order. -/
theorem C113_derived {gm gm' psf psf' : List Gauss} (h : gm.Perm gm') (hp : psf.Perm psf') (row col flux : ℝ) (ps : Bool) :
    SameOption List.Perm (setCen gm row col) (setCen gm' row col) ∧
    SameOption List.Perm (setFlux gm flux) (setFlux gm' flux) ∧
    SameOption (SameOutcome List.Perm) (makeRound gm ps) (makeRound gm' ps) ∧
    SameOutcome List.Perm (gmixConvolve gm psf) (gmixConvolve gm' psf') := by
  refine ⟨?_, ?_, ?_, ?_⟩
  · unfold setCen
    rw [getCen_perm h]
    rcases getCen gm' with _ | c
    · exact trivial
    · exact h.map _
  · unfold setFlux
    rw [psum_perm h]
    split_ifs
    · exact trivial
    · exact h.map _
  · unfold makeRound
    have : roundFactorOf gm ps = roundFactorOf gm' ps := by
      unfold roundFactorOf
      rw [(C113_summaries h).2.2.2.1, (C113_summaries h).2.2.2.2.1]
    rw [this]
    rcases roundFactorOf gm' ps with _ | r
    · exact trivial
    · rcases r with e | f
      · exact rfl
      · exact h.map _
  · rw [convolve_eq, convolve_eq, cen_perm hp]
    rcases gmixGetCen psf' with e | c
    · exact rfl
    · refine (h.flatMap_right _).trans ?_
      exact List.Perm.flatMap_left _ fun o _ => hp.map _

/-- C113.  Shearing gives the same gaussians in another order, or fails for both (the exception is that of the first gaussian
that fails). -/
theorem C113_sheared {gm gm' : List Gauss} (h : gm.Perm gm') (s1 s2 : ℝ) :
    (∃ d d', shearData s1 s2 gm = .ok d ∧ shearData s1 s2 gm' = .ok d' ∧ d.Perm d') ∨
    ∃ e e', shearData s1 s2 gm = .error e ∧ shearData s1 s2 gm' = .error e' := by
  have hall : ∀ l : List Gauss, (∀ d, shearData s1 s2 l = .ok d ↔ List.Forall₂ (fun g x => shearGauss s1 s2 g = .ok x) l d) := by
    intro l
    induction l with
    | nil => intro d; cases d <;> simp [shearData]
    | cons g l ih =>
      intro d
      rw [shearData]
      rcases hg : shearGauss s1 s2 g with e | x
      · simp only [Except.bind]
        refine ⟨fun h => (by cases h), fun h => ?_⟩
        cases h with
        | cons h1 _ => rw [hg] at h1; cases h1
      · simp only [Except.bind]
        rcases hl : shearData s1 s2 l with e | t
        · refine ⟨fun h => (by cases h), fun h => ?_⟩
          cases h with
          | cons _ h2 => rw [← ih, hl] at h2; cases h2
        · simp only [Except.map, Except.ok.injEq]
          constructor
          · rintro rfl
            exact .cons hg ((ih t).1 hl)
          · intro h
            cases h with
            | cons h1 h2 =>
              rw [hg] at h1
              rw [← ih, hl] at h2
              cases h1; cases h2; rfl
  have hfwd : ∀ {l l' : List Gauss}, l.Perm l' → ∀ d, shearData s1 s2 l = .ok d →
      ∃ d', shearData s1 s2 l' = .ok d' ∧ d.Perm d' := by
    intro l l' hp d hd
    obtain ⟨d', h1, h2⟩ := List.perm_comp_forall₂ hp.symm ((hall l d).1 hd)
    exact ⟨d', (hall l' d').2 h1, h2.symm⟩
  rcases e : shearData s1 s2 gm with er | d <;> rcases e' : shearData s1 s2 gm' with er' | d'
  · exact .inr ⟨er, er', rfl, rfl⟩
  · obtain ⟨x, hx, -⟩ := hfwd h.symm d' e'
    rw [e] at hx; cases hx
  · obtain ⟨x, hx, -⟩ := hfwd h d e
    rw [e'] at hx; cases hx
  · obtain ⟨x, hx, hp⟩ := hfwd h d e
    rw [e'] at hx; cases hx
    exact .inl ⟨d, d', rfl, rfl, hp⟩

/-! ### Use of mixtures -/

theorem norms_perm {gm gm' : List Gauss} (h : gm.Perm gm') :
    ((∃ l, gmixSetNorms gm = (l, .error .gmixRange)) ∧ ∃ l, gmixSetNorms gm' = (l, .error .gmixRange)) ∨
    (gmixSetNorms gm = (gm.map normed, .ok ()) ∧ gmixSetNorms gm' = (gm'.map normed, .ok ())) := by
  by_cases ha : ∀ g ∈ gm, (gauss2dSetNorm g).2 = .ok ()
  · exact .inr ⟨(norms_all gm).1 ha, (norms_all gm').1 fun g hg => ha g (h.mem_iff.2 hg)⟩
  · exact .inl ⟨(norms_all gm).2 ha, (norms_all gm').2 fun h' => ha fun g hg => h' g (h.mem_iff.1 hg)⟩

theorem needed_perm {gm gm' : List Gauss} (h : gm.Perm gm') (hn : EvenNorms gm) :
    SameUse (setNormsIfNeeded gm) (setNormsIfNeeded gm') := by
  have hstored : ∀ l : List Gauss, (∀ g ∈ l, g.normSet = true) → setNormsIfNeeded l = (l, .ok ()) := by
    intro l hl
    rcases l with _ | ⟨g, l⟩
    · rfl
    · simp [setNormsIfNeeded, hl g]
  have hnot : ∀ l : List Gauss, (∀ g ∈ l, g.normSet = false) → setNormsIfNeeded l = gmixSetNorms l := by
    intro l hl
    rcases l with _ | ⟨g, l⟩
    · rfl
    · simp [setNormsIfNeeded, hl g]
  rcases hn with hn | hn
  · rw [hnot gm hn, hnot gm' fun g hg => hn g (h.mem_iff.2 hg)]
    rcases norms_perm h with ⟨⟨l, e1⟩, l', e2⟩ | ⟨e1, e2⟩ <;> rw [e1, e2]
    · exact ⟨rfl, fun a ha => by cases ha⟩
    · exact ⟨rfl, fun _ _ => h.map _⟩
  · rw [hstored gm hn, hstored gm' fun g hg => hn g (h.mem_iff.2 hg)]
    exact ⟨rfl, fun _ _ => h⟩

theorem loglikeLoop_perm {gm gm' : List Gauss} (h : gm.Perm gm') (pixels : List Pixel) :
    loglikeLoop gm pixels = loglikeLoop gm' pixels := by
  unfold loglikeLoop
  simp only [evalFast_perm h]

/-- C113.  The likelihood, the residuals, the signal to noise sum and images do not depend on the order of the gaussians
(norms stored for all or none of them). -/
theorem C113_uses {gm gm' : List Gauss} (h : gm.Perm gm') (hn : EvenNorms gm) (pixels : List Pixel) (start : ℕ)
    (fdiff : List ℝ) (coords : List Coord) (image : List (Option ℝ)) (fast : Bool) :
    SameUse (getLoglike gm pixels) (getLoglike gm' pixels) ∧
    SameUse (fillFdiffNb gm pixels start fdiff) (fillFdiffNb gm' pixels start fdiff) ∧
    SameUse (modelS2nSum gm pixels) (modelS2nSum gm' pixels) ∧
    SameUse (render gm coords image fast) (render gm' coords image fast) := by
  obtain ⟨h1, h2⟩ := needed_perm h hn
  unfold getLoglike fillFdiffNb modelS2nSum render
  rcases e : setNormsIfNeeded gm with ⟨l, er | u⟩ <;> rcases e' : setNormsIfNeeded gm' with ⟨l', er' | u'⟩ <;>
    rw [e, e'] at h1 h2 <;> simp only at h1 h2
  · cases h1
    exact ⟨⟨rfl, fun a ha => by cases ha⟩, ⟨rfl, fun a ha => by cases ha⟩, ⟨rfl, fun a ha => by cases ha⟩,
      rfl, fun a ha => by cases ha⟩
  · cases h1
  · cases h1
  · have hp := h2 u trivial
    simp only
    refine ⟨⟨by rw [loglikeLoop_perm hp], fun _ _ => hp⟩, ⟨?_, fun _ _ => hp⟩, ⟨?_, fun _ _ => hp⟩, ?_, fun _ _ => hp⟩
    · unfold fdiffLoop
      simp only [evalFast_perm hp]
    · simp only [evalFast_perm hp]
    · simp only [evalFast_perm hp, eval_perm hp]

/-! ### EM -/

theorem fullPars_refill (gm : List Gauss) :
    fillFull (getFullPars gm) = gm.map fun g => gauss2dSet g.p g.row g.col g.irr g.irc g.icc := by
  induction gm with
  | nil => rfl
  | cons g gm ih =>
    have : getFullPars (g :: gm) = g.p :: g.row :: g.col :: g.irr :: g.irc :: g.icc :: getFullPars gm := rfl
    rw [this, fillFull, ih]
    rfl

theorem newFull_ok (gm : List Gauss) : ∃ o, newGMix none (some (getFullPars gm)) = .ok o ∧
    o.data = gm.map fun g => gauss2dSet g.p g.row g.col g.irr g.irc g.icc := by
  unfold newGMix
  simp only
  rw [if_neg (by rw [getFullPars_length]; omega)]
  exact ⟨_, rfl, fullPars_refill gm⟩

theorem emFinish_ord (m : ℤ) {x x' : Except PyErr EMRun}
    (h : SameOutcome (fun r r' : EMRun => r.numiter = r'.numiter ∧ r.frac = r'.frac ∧ r.sky = r'.sky ∧ r.gmix.Perm r'.gmix ∧
        r.conv.Perm r'.conv ∧ r.pixels = r'.pixels) x x') : SameOutcome SameEMOrd (emFinish m x) (emFinish m x') := by
  rcases x with e | r <;> rcases x' with e' | r'
  · cases (show e = e' from h)
    cases e <;> simp [emFinish, Except.bind, SameOutcome, SameEMOrd, SameOption]
  · exact h.elim
  · exact h.elim
  · obtain ⟨h1, h2, h3, h4, h5, -⟩ := h
    obtain ⟨o, e1, d1⟩ := newFull_ok r.gmix
    obtain ⟨o2, e2, d2⟩ := newFull_ok r.conv
    obtain ⟨o', e1', d1'⟩ := newFull_ok r'.gmix
    obtain ⟨o2', e2', d2'⟩ := newFull_ok r'.conv
    simp only [emFinish, Except.bind, e1, e2, e1', e2', Except.map]
    refine ⟨by rw [h1], by rw [h1], h2, by rw [h3], ?_, ?_⟩
    · show o.data.Perm o'.data
      rw [d1, d1']
      exact h4.map _
    · show o2.data.Perm o2'.data
      rw [d2, d2']
      exact h5.map _

theorem emPsf_ord (o o' : EMObs) (h : SameOption Shuffled o.psf o'.psf) :
    SameOption (SameOutcome fun q q' : GMixObj => q.data.Perm q'.data) (emPsf o) (emPsf o') := by
  unfold emPsf
  rcases e : o.psf with _ | g <;> rcases e' : o'.psf with _ | g' <;> rw [e, e'] at h
  · rcases newGMixModel [0, 0, 0, 0, 0, 1] (.str "gauss") with x | x
    · exact rfl
    · exact List.Perm.refl _
  · exact h.elim
  · exact h.elim
  · obtain ⟨c, c', h1, h2, h3⟩ := h
    simp only [h1, h2, setFluxObj]
    have := (C113_derived h3 (List.Perm.refl []) 0 0 1 true).2.1
    rcases x : setFlux c.data 1 with _ | d <;> rcases x' : setFlux c'.data 1 with _ | d' <;> rw [x, x'] at this
    · exact trivial
    · exact this.elim
    · exact this.elim
    · exact this

/-- C113.  EM with the gaussians of the guess, of the psf, or of both in another order: the same flags, number of iterations,
convergence and sky, the same gaussians in another order, and the same exceptions. -/
theorem C113_em (f : EMFitter) (obs : EMObs) (psf' : Option GMixObj) (guess guess' : GMixObj) (sky : Option ℝ)
    (hp : SameOption Shuffled obs.psf psf') (hg : Shuffled guess guess') :
    SameOption (SameOutcome SameEMOrd) (emGo f obs guess sky) (emGo f { obs with psf := psf' } guess' sky) := by
  have hstart : SameOutcome (fun r r' : EMObs × ℝ => r.2 = r'.2 ∧ r.1.pixels = r'.1.pixels ∧ SameOption Shuffled r.1.psf r'.1.psf)
      (emStart obs sky) (emStart { obs with psf := psf' } sky) := by
    unfold emStart
    rcases sky with _ | s
    · simp only [prepObs]
      rcases prepImage obs.image with e | r
      · exact rfl
      · simp only [Except.bind]
        rcases makePixels r.1 ⟨r.1.nrow, r.1.ncol, fun _ _ => 1⟩ obs.jac true with e | px
        · exact rfl
        · exact ⟨rfl, rfl, hp⟩
    · exact ⟨rfl, rfl, hp⟩
  unfold emGo
  rcases e : emStart obs sky with er | ⟨o, s⟩ <;> rcases e' : emStart { obs with psf := psf' } sky with er' | ⟨o', s'⟩ <;>
    rw [e, e'] at hstart
  · exact hstart
  · exact hstart.elim
  · exact hstart.elim
  · obtain ⟨h1, h2, h3⟩ := hstart
    simp only at h1 h2 h3 ⊢
    subst h1
    have hq := emPsf_ord o o' h3
    rcases x : emPsf o with _ | p <;> rcases x' : emPsf o' with _ | p' <;> rw [x, x'] at hq
    · exact trivial
    · exact hq.elim
    · exact hq.elim
    · obtain ⟨c, c', k1, k2, k3⟩ := hg
      refine so_bind (show SameOutcome _ p p' from hq) fun q q' _ hqq => ?_
      rw [k1, k2, ← h2]
      simp only [Except.bind, convolveObj]
      have hc := (C113_derived k3 hqq 0 0 1 true).2.2.2
      rcases y : gmixConvolve c.data q.data with er | cv <;> rcases y' : gmixConvolve c'.data q'.data with er' | cv' <;>
        rw [y, y'] at hc
      · exact hc
      · exact hc.elim
      · exact hc.elim
      · simp only [Except.map]
        rcases o.pixels with _ | px
        · exact rfl
        · exact emFinish_ord _ (emRun_ord _ _ _ _ k3 hqq y y')

/-! ### Fits -/

theorem so_same {α : Type} (x : Except PyErr α) : SameOutcome Eq x x := by
  rcases x with e | a <;> exact rfl

theorem initOne_ord (kind : FMKind) (d : Bool) (bp : List ℝ) {i i' : Img} (h : ShuffledPsf i i') :
    SameOutcome (fun g g' : GMixObj × GMixObj => g.1 = g'.1 ∧ (d = false → g = g')) (initOne kind d bp i) (initOne kind d bp i') := by
  unfold initOne
  rcases makeGmixModel bp kind.arg with e | gm0
  · exact rfl
  · simp only [Except.bind]
    cases d
    · simp only [Bool.false_eq_true, if_false]
      rcases copyGMix gm0 with e | g
      · exact rfl
      · exact ⟨rfl, fun _ => rfl⟩
    · simp only [if_true]
      refine so_bind h.2 fun q q' _ hq => ?_
      unfold convolveObj
      have hc := (C113_derived (List.Perm.refl gm0.data) hq 0 0 1 true).2.2.2
      exact so_map (so_map (S := fun _ _ => True) hc fun a b _ => trivial) fun a b _ => ⟨rfl, fun h => by cases h⟩

theorem initBand_ord (kind : FMKind) (d : Bool) (bp : List ℝ) {is is' : List Img} (h : List.Forall₂ ShuffledPsf is is') :
    SameOutcome (List.Forall₂ fun g g' : GMixObj × GMixObj => g.1 = g'.1 ∧ (d = false → g = g'))
      (initBand kind d bp is) (initBand kind d bp is') := by
  induction h with
  | nil => exact .nil
  | cons h _ ih =>
    exact so_bind (initOne_ord kind d bp h) fun g g' _ hg => so_map ih fun a b hab => .cons hg hab

theorem initAll_ord (kind : FMKind) (d : Bool) (pars : List ℝ) {obs obs' : List (List Img)}
    (h : List.Forall₂ (List.Forall₂ ShuffledPsf) obs obs') : ∀ b,
    SameOutcome (List.Forall₂ (List.Forall₂ fun g g' : GMixObj × GMixObj => g.1 = g'.1 ∧ (d = false → g = g')))
      (initAll kind d pars b obs) (initAll kind d pars b obs') := by
  induction h with
  | nil => intro b; exact .nil
  | cons h _ ih =>
    intro b
    unfold initAll
    refine so_bind (so_same _) fun bp bp' _ hbp => ?_
    subst hbp
    exact so_bind (initBand_ord kind d bp h) fun g g' _ hg => so_map (ih (b + 1)) fun a b hab => .cons hg hab

/-- Filled mixtures of two fits: equal, or the same gaussians in another order and no norms stored. -/
def DataOrd (d d' : List Gauss) : Prop := d = d' ∨ d.Perm d' ∧ ∀ g ∈ d, g.normSet = false

/-- Shapes of the mixtures of two fits. -/
def ShOrd (d : Bool) (s s' : Sh × Sh) : Prop := s.1 = s'.1 ∧ (d = false → s.2 = s'.2)

theorem onePure_ord (d : Bool) (bp : List ℝ) {i i' : Img} (h : ShuffledPsf i i') {s s' : Sh × Sh} (hs : ShOrd d s s') :
    SameOutcome DataOrd (onePure d bp i s) (onePure d bp i' s') := by
  unfold onePure
  cases d
  · simp only [Bool.false_eq_true, if_false]
    rw [hs.2 rfl]
    rcases fillPure s'.2 bp with e | x
    · exact rfl
    · exact .inl rfl
  · simp only [if_true]
    refine so_bind h.2 fun q q' _ hq => ?_
    rw [hs.1]
    rcases fillPure s'.1 bp with e | x
    · exact rfl
    · simp only [Except.bind]
      have hc := (C113_derived (List.Perm.refl x) hq 0 0 1 true).2.2.2
      rcases y : gmixConvolve x q.data with er | cv <;> rcases y' : gmixConvolve x q'.data with er' | cv' <;> rw [y, y'] at hc
      · exact hc
      · exact hc.elim
      · exact hc.elim
      · refine .inr ⟨hc, fun g hg => ?_⟩
        rw [convolve_eq] at y
        obtain ⟨c, -, rfl⟩ := exMap_ok y
        simp only [List.mem_flatMap, List.mem_map] at hg
        obtain ⟨o, -, p, -, rfl⟩ := hg
        rfl

theorem bandPure_ord (d : Bool) (bp : List ℝ) {is is' : List Img} (h : List.Forall₂ ShuffledPsf is is') :
    ∀ {ss ss' : List (Sh × Sh)}, List.Forall₂ (ShOrd d) ss ss' →
      SameOutcome (List.Forall₂ DataOrd) (bandPure d bp is ss) (bandPure d bp is' ss') := by
  induction h with
  | nil => intro ss ss' _; exact .nil
  | cons h _ ih =>
    intro ss ss' hss
    cases hss with
    | nil => exact rfl
    | cons h1 h2 => exact so_bind (onePure_ord d bp h h1) fun g g' _ hg => so_map (ih h2) fun a b hab => .cons hg hab

theorem allPure_ord (kind : FMKind) (d : Bool) (pars : List ℝ) {obs obs' : List (List Img)}
    (h : List.Forall₂ (List.Forall₂ ShuffledPsf) obs obs') : ∀ b {st st' : List (List (Sh × Sh))},
    List.Forall₂ (List.Forall₂ (ShOrd d)) st st' →
      SameOutcome (List.Forall₂ (List.Forall₂ DataOrd)) (allPure kind d pars b obs st) (allPure kind d pars b obs' st') := by
  induction h with
  | nil => intro b st st' _; exact .nil
  | cons h _ ih =>
    intro b st st' hst
    cases hst with
    | nil => exact rfl
    | cons h1 h2 =>
      unfold allPure
      refine so_bind (so_same _) fun bp bp' _ hbp => ?_
      subst hbp
      exact so_bind (bandPure_ord d bp h h1) fun g g' _ hg => so_map (ih (b + 1) h2) fun a b hab => .cons hg hab

theorem fillFdiffFl_ord {d d' : List Gauss} (h : DataOrd d d') (px : List Pixel) (start : ℕ) (fdiff : List Fl) :
    (fillFdiffFl d px start fdiff).2 = (fillFdiffFl d' px start fdiff).2 := by
  rcases h with rfl | ⟨hp, hn⟩
  · rfl
  · obtain ⟨h1, h2⟩ := needed_perm hp (.inl hn)
    unfold fillFdiffFl
    rcases e : setNormsIfNeeded d with ⟨l, er | u⟩ <;> rcases e' : setNormsIfNeeded d' with ⟨l', er' | u'⟩ <;>
      rw [e, e'] at h1 h2 <;> simp only at h1 h2
    · cases h1; rfl
    · cases h1
    · cases h1
    · have := h2 u trivial
      simp only [fdiffLoopFl, evalFast_perm this]

theorem getLoglike_ord {d d' : List Gauss} (h : DataOrd d d') (px : List Pixel) :
    (getLoglike d px).2 = (getLoglike d' px).2 := by
  rcases h with rfl | ⟨hp, hn⟩
  · rfl
  · exact (C113_uses hp (.inl hn) px 0 [] [] [] true).1.1

theorem fdBandPure_ord {is is' : List Img} (h : List.Forall₂ ShuffledPsf is is') :
    ∀ {ds ds' : List (List Gauss)}, List.Forall₂ DataOrd ds ds' → ∀ fdiff start,
      fdBandPure is ds fdiff start = fdBandPure is' ds' fdiff start := by
  induction h with
  | nil => intro ds ds' _ fdiff start; rfl
  | cons h _ ih =>
    intro ds ds' hd fdiff start
    cases hd with
    | nil => rfl
    | cons h1 h2 =>
      unfold fdBandPure
      rw [h.1, fillFdiffFl_ord h1]
      congr 1
      funext x
      exact ih h2 _ _

theorem fdAllPure_ord {obs obs' : List (List Img)} (h : List.Forall₂ (List.Forall₂ ShuffledPsf) obs obs') :
    ∀ {ds ds' : List (List (List Gauss))}, List.Forall₂ (List.Forall₂ DataOrd) ds ds' → ∀ fdiff start,
      fdAllPure obs ds fdiff start = fdAllPure obs' ds' fdiff start := by
  induction h with
  | nil => intro ds ds' _ fdiff start; rfl
  | cons h _ ih =>
    intro ds ds' hd fdiff start
    cases hd with
    | nil => rfl
    | cons h1 h2 =>
      unfold fdAllPure
      rw [fdBandPure_ord h h1]
      congr 1
      funext x
      exact ih h2 _ _

theorem llBandPure_ord {is is' : List Img} (h : List.Forall₂ ShuffledPsf is is') :
    ∀ {ds ds' : List (List Gauss)}, List.Forall₂ DataOrd ds ds' → ∀ acc, llBandPure is ds acc = llBandPure is' ds' acc := by
  induction h with
  | nil => intro ds ds' _ acc; rfl
  | cons h _ ih =>
    intro ds ds' hd acc
    cases hd with
    | nil => rfl
    | cons h1 h2 =>
      unfold llBandPure
      rw [h.1, getLoglike_ord h1]
      congr 1
      funext x
      exact ih h2 _

theorem llAllPure_ord {obs obs' : List (List Img)} (h : List.Forall₂ (List.Forall₂ ShuffledPsf) obs obs') :
    ∀ {ds ds' : List (List (List Gauss))}, List.Forall₂ (List.Forall₂ DataOrd) ds ds' → ∀ acc,
      llAllPure obs ds acc = llAllPure obs' ds' acc := by
  induction h with
  | nil => intro ds ds' _ acc; rfl
  | cons h _ ih =>
    intro ds ds' hd acc
    cases hd with
    | nil => rfl
    | cons h1 h2 =>
      unfold llAllPure
      rw [llBandPure_ord h h1]
      congr 1
      funext x
      exact ih h2 _

theorem totpix_ord {obs obs' : List (List Img)} (h : List.Forall₂ (List.Forall₂ ShuffledPsf) obs obs') :
    ((obs.flatten).map fun i => i.pixels.length).sum = ((obs'.flatten).map fun i => i.pixels.length).sum := by
  have h1 : ∀ {is is' : List Img}, List.Forall₂ ShuffledPsf is is' →
      (is.map fun i => i.pixels.length) = is'.map fun i => i.pixels.length := by
    intro is is' h
    induction h with
    | nil => rfl
    | cons h _ ih => rw [List.map_cons, List.map_cons, h.1, ih]
  induction h with
  | nil => rfl
  | cons h _ ih => simp only [List.flatten_cons, List.map_append, List.sum_append, ih, h1 h]

theorem hasPsf_ord {i i' : Img} (h : ShuffledPsf i i') : i.hasPsfGmix = i'.hasPsfGmix := by
  have := h.2
  unfold Img.hasPsfGmix
  rcases e : i.psf with x | x <;> rcases e' : i'.psf with y | y <;> rw [e, e'] at this <;> exact this.elim

/-- C113.  Fits with the gaussians of the psf mixtures in another order: the constructor accepts or refuses both, with the same
exception; then residuals and log probabilities are equal, whatever was evaluated before. -/
theorem C113_fits (kind : FMKind) (prior : Option JointPrior) {obs obs' : List (List Img)} (guess : List ℝ)
    (ho : List.Forall₂ (List.Forall₂ ShuffledPsf) obs obs') :
    SameOutcome (fun x x' : FitModel × FMState => ∀ (calls calls' : List Call) (pars : List ℝ),
        (calcFdiff x.1 (runCalls x.1 x.2 calls) pars).2 = (calcFdiff x'.1 (runCalls x'.1 x'.2 calls') pars).2 ∧
        (calcLnprob x.1 (runCalls x.1 x.2 calls) pars).2 = (calcLnprob x'.1 (runCalls x'.1 x'.2 calls') pars).2)
      (newFitModel kind prior obs guess) (newFitModel kind prior obs' guess) := by
  have hnew : SameOutcome (fun x x' : FitModel × FMState =>
      (∃ d, x.1 = ⟨kind, prior, obs, d⟩ ∧ x'.1 = ⟨kind, prior, obs', d⟩ ∧
        List.Forall₂ (List.Forall₂ fun g g' : GMixObj × GMixObj => g.1 = g'.1 ∧ (d = false → g = g')) x.2 x'.2))
      (newFitModel kind prior obs guess) (newFitModel kind prior obs' guess) := by
    unfold newFitModel
    rw [← ho.length_eq]
    rcases kind.npars obs.length with e | n
    · exact rfl
    simp only [Except.bind]
    rcases kind.nPriorPars prior obs.length with e | m
    · exact rfl
    simp only
    split_ifs
    · exact rfl
    cases ho with
    | nil => exact rfl
    | cons hb hr =>
      cases hb with
      | nil => exact rfl
      | cons hi hs =>
        simp only
        rw [← hasPsf_ord hi]
        generalize hd : Img.hasPsfGmix _ = d
        have hall := initAll_ord kind d guess (.cons (.cons hi hs) hr) 0
        revert hall
        generalize initAll kind d guess 0 _ = a
        generalize initAll kind d guess 0 _ = a'
        intro hall
        rcases a with e | st <;> rcases a' with e' | st'
        · cases (show e = e' from hall)
          cases e <;> exact rfl
        · exact hall.elim
        · exact hall.elim
        · exact ⟨_, rfl, rfl, hall⟩
  rcases e : newFitModel kind prior obs guess with er | ⟨fm, st⟩ <;>
    rcases e' : newFitModel kind prior obs' guess with er' | ⟨fm', st'⟩ <;> rw [e, e'] at hnew
  · exact hnew
  · exact hnew.elim
  · exact hnew.elim
  · obtain ⟨d, h1, h2, h3⟩ := hnew
    intro calls calls' pars
    rw [(C67_history_free kind prior obs guess fm st e calls pars).1, (C67_history_free kind prior obs guess fm st e calls pars).2,
      (C67_history_free kind prior obs' guess fm' st' e' calls' pars).1,
      (C67_history_free kind prior obs' guess fm' st' e' calls' pars).2]
    have hfits : ∀ {o : List (List Img)} {f : FitModel} {s : FMState}, newFitModel kind prior o guess = .ok (f, s) →
        Fits f.obs s := by
      intro o f s h
      obtain ⟨-, -, ho, -, -, -, ⟨gk, ng, hF, hC⟩, hsh⟩ := new_shape h
      rw [ho]
      exact fits_of_map _ o s (hsh gk ng hF hC)
    rw [(calcFdiff_pure fm st (hfits e) pars).1, (calcFdiff_pure fm' st' (hfits e') pars).1,
      (calcLnprob_pure fm st (hfits e) pars).1, (calcLnprob_pure fm' st' (hfits e') pars).1]
    simp only at h1 h2 h3
    have hshape : List.Forall₂ (List.Forall₂ (ShOrd d)) (shape st) (shape st') := by
      unfold shape
      rw [List.forall₂_map_left_iff, List.forall₂_map_right_iff]
      refine h3.imp fun a b hab => ?_
      rw [List.forall₂_map_left_iff, List.forall₂_map_right_iff]
      exact hab.imp fun g g' hg => ⟨by unfold shP; rw [hg.1], fun hd => by rw [hg.2 hd]⟩
    have hsz : fm.fdiffSize = fm'.fdiffSize := by
      unfold FitModel.fdiffSize FitModel.totpix
      rw [h1, h2]
      simp only
      rw [totpix_ord ho, ho.length_eq]
    have hP := allPure_ord kind d pars ho 0 hshape
    unfold fdiffPure lnprobPure
    rw [hsz, h1, h2]
    simp only
    rcases x : allPure kind d pars 0 obs (shape st) with er | D <;>
      rcases x' : allPure kind d pars 0 obs' (shape st') with er' | D' <;> rw [x, x'] at hP
    · cases (show er = er' from hP)
      exact ⟨rfl, rfl⟩
    · exact hP.elim
    · exact hP.elim
    · simp only [Except.bind, fdAllPure_ord ho hP, llAllPure_ord ho hP, and_self]

/-! ### Template fluxes -/

/-- C113.  Template fluxes with mixtures whose gaussians are in another order: the same result. -/
theorem C113_flux (obs obs' : List PFObs) (gs gs' : List GMixObj) (doPsf nz : Bool) (hne : obs ≠ [])
    (h : List.Forall₂ (fun o g => (∃ s, pfSource doPsf o = .ok s ∧ s.gmix = some g) ∧ Renderable g ∧
      o.coords.length = o.image.length ∧ o.weight.length = o.image.length) obs gs)
    (h' : List.Forall₂ (fun o g => (∃ s, pfSource doPsf o = .ok s ∧ s.gmix = some g) ∧ Renderable g ∧
      o.coords.length = o.image.length ∧ o.weight.length = o.image.length) obs' gs')
    (ho : List.Forall₂ (fun o o' : PFObs => o.image = o'.image ∧ o.weight = o'.weight ∧ o.npixels = o'.npixels ∧
      o.coords = o'.coords) obs obs')
    (hg : List.Forall₂ (fun g g' : GMixObj => g.data.Perm g'.data) gs gs') :
    ∃ r, psfFlux obs doPsf nz = .ok r ∧ psfFlux obs' doPsf nz = .ok r := by
  have hne' : obs' ≠ [] := by
    rintro rfl
    cases ho
    exact hne rfl
  obtain ⟨r, e, hr⟩ := C46_mixtures obs gs doPsf nz hne h
  obtain ⟨r', e', hr'⟩ := C46_mixtures obs' gs' doPsf nz hne' h'
  have hunit : ∀ {g g' : GMixObj}, g.data.Perm g'.data → ∀ c, unitImage doPsf nz g c = unitImage doPsf nz g' c := by
    intro g g' hp c
    have h1 : imageOf g.data c = imageOf g'.data c := by
      unfold imageOf
      exact List.map_congr_left fun x _ => perm_map_sum hp _
    have h2 : Flux g.data = Flux g'.data := perm_map_sum hp _
    unfold unitImage
    rw [h1, h2]
  have hpix : pixelsOf obs ((obs.zip gs).map fun og => unitImage doPsf nz og.2 og.1.coords) =
      pixelsOf obs' ((obs'.zip gs').map fun og => unitImage doPsf nz og.2 og.1.coords) ∧
      (obs.map PFObs.npixels) = obs'.map PFObs.npixels := by
    clear hr hr' e e' h h' hne hne'
    unfold pixelsOf
    induction ho generalizing gs gs' with
    | nil => exact ⟨rfl, rfl⟩
    | cons h1 _ ih =>
      cases hg with
      | nil => exact ⟨by simp, by simp only [List.map_cons, h1.2.2.1, (ih [] [] .nil).2]⟩
      | cons g1 g2 =>
        obtain ⟨i1, i2⟩ := ih _ _ g2
        simp only [List.zip_cons_cons, List.map_cons, List.flatMap_cons]
        rw [i1, h1.1, h1.2.1, h1.2.2.2, hunit g1, h1.2.2.1, i2]
        exact ⟨rfl, rfl⟩
  rw [hpix.1, hpix.2] at hr
  rw [outcomeUnique (List.Perm.refl _) hr hr'] at e
  exact ⟨r', e, e'⟩

/-! ### Weighted moments: the first gaussian decides -/

theorem normed_cen (g : Gauss) : (normed g).row = g.row ∧ (normed g).col = g.col := by
  unfold normed gauss2dSetNorm
  by_cases h1 : g.det < gmixLowDetval
  · rw [if_pos h1]; exact ⟨rfl, rfl⟩
  · rw [if_neg h1]
    by_cases h2 : g.irr + g.icc ≤ gmixLowDetval
    · simp only [if_pos h2, and_self]
    · simp only [if_neg h2, and_self]

theorem needed_cens {gm l : List Gauss} {u : Unit} (h : setNormsIfNeeded gm = (l, .ok u)) :
    ∀ x ∈ l, ∃ g ∈ gm, x.row = g.row ∧ x.col = g.col := by
  rcases gm with _ | ⟨g, gm⟩
  · cases h
    intro x hx
    cases hx
  · rw [setNormsIfNeeded] at h
    by_cases hs : g.normSet = true
    · rw [if_pos hs] at h
      cases h
      exact fun x hx => ⟨x, hx, rfl, rfl⟩
    · rw [if_neg hs] at h
      rcases norms_perm (List.Perm.refl (g :: gm)) with ⟨⟨k, e⟩, -⟩ | ⟨e, -⟩
      · rw [e] at h; cases h
      · rw [e] at h
        cases h
        intro x hx
        obtain ⟨y, hy, rfl⟩ := List.mem_map.1 hx
        exact ⟨y, hy, normed_cen y⟩

theorem wsLoop_ord (higher : Bool) {g g' : Gauss} (hr : g.row = g'.row) (hc : g.col = g'.col) {wt wt' : List Gauss}
    (h : wt.Perm wt') (m : Option ℝ) (pixels : List Pixel) : ∀ res,
    wsLoop higher g wt m pixels res = wsLoop higher g' wt' m pixels res := by
  induction pixels with
  | nil => intro res; rfl
  | cons px pxs ih =>
    intro res
    unfold wsLoop
    simp only [hr, hc, eval_perm h, ih]

/-- C113.  Weighted sums with a weight of several gaussians at one centre do not depend on their order (norms stored for all or
none of them). -/
theorem C113_weighted {gm gm' : List Gauss} (h : gm.Perm gm') (hn : EvenNorms gm)
    (hc : ∀ g ∈ gm, ∀ x ∈ gm, g.row = x.row ∧ g.col = x.col) (pixels : List Pixel) (maxrad : Option ℝ) (higher : Bool)
    (res : WRes) :
    SameUse (getWeightedSums gm pixels maxrad higher res) (getWeightedSums gm' pixels maxrad higher res) := by
  obtain ⟨h1, h2⟩ := needed_perm h hn
  unfold getWeightedSums
  rcases e : setNormsIfNeeded gm with ⟨l, er | u⟩ <;> rcases e' : setNormsIfNeeded gm' with ⟨l', er' | u'⟩ <;>
    rw [e, e'] at h1 h2 <;> simp only at h1 h2
  · cases h1
    exact ⟨rfl, fun a ha => by cases ha⟩
  · cases h1
  · cases h1
  · have hp := h2 u trivial
    have hcen := needed_cens e
    rcases l with _ | ⟨g, l⟩
    · rw [List.nil_perm.1 hp]
      exact ⟨rfl, fun _ _ => List.Perm.refl _⟩
    · rcases l' with _ | ⟨g', l'⟩
      · exact absurd hp.length_eq (by simp)
      · obtain ⟨a, ha, a1, a2⟩ := hcen g (by simp)
        obtain ⟨b, hb, b1, b2⟩ := hcen g' (hp.mem_iff.2 (by simp))
        obtain ⟨c1, c2⟩ := hc a ha b hb
        have hm : wsMaxrad2 (g :: l) maxrad = wsMaxrad2 (g' :: l') maxrad := by
          cases maxrad
          · simp only [wsMaxrad2, (C113_summaries hp).2.2.1]
          · rfl
        refine ⟨?_, fun _ _ => hp⟩
        simp only
        rw [hm, wsLoop_ord higher (a1.trans (c1.trans b1.symm)) (a2.trans (c2.trans b2.symm)) hp]

theorem two_norms {a b : Gauss} (ha : DetCurrent a) (hb : DetCurrent b) (ua : Usable a) (ub : Usable b) (na : a.normSet = false) :
    setNormsIfNeeded [a, b] = ([normed a, normed b], .ok ()) := by
  have h1 := ((C20_set_norm a ha).1 ua).1
  have h2 := ((C20_set_norm b hb).1 ub).1
  have := (norms_all [a, b]).1 (by
    intro g hg
    simp only [List.mem_cons, List.not_mem_nil, or_false] at hg
    rcases hg with rfl | rfl <;> assumption)
  simpa [setNormsIfNeeded, na] using this

/-- C113, violation.  Radii and second moments of weighted sums are taken about the centre of the first gaussian of the weight: a
pixel at the centre of `a`, and not within `m` of that of `b`, is used with the weight `[a, b]` and left out with `[b, a]`. -/
theorem C113_first_centre {a b : Gauss} (ha : DetCurrent a) (hb : DetCurrent b) (ua : Usable a) (ub : Usable b)
    (na : a.normSet = false) (nb : b.normSet = false) (px : Pixel) (hi : px.ierr ≠ 0) (hv : px.v = a.row) (hu : px.u = a.col)
    (m : ℝ) (hm : m ≠ 0) (hd : m ^ 2 ≤ (a.row - b.row) ^ 2 + (a.col - b.col) ^ 2) (higher : Bool) :
    (∃ r, (getWeightedSums [a, b] [px] (some m) higher WRes.zero).2 = .ok r ∧ r.npix = 1) ∧
    ∃ r, (getWeightedSums [b, a] [px] (some m) higher WRes.zero).2 = .ok r ∧ r.npix = 0 := by
  have ra := normed_cen a
  have rb := normed_cen b
  have hm2 : 0 < m ^ 2 := by positivity
  constructor
  · unfold getWeightedSums
    rw [two_norms ha hb ua ub na]
    simp only [wsLoop, wsMaxrad2]
    have hin : ∃ k ∈ some (m ^ 2), (px.u - (normed a).col) * (px.u - (normed a).col) +
        (px.v - (normed a).row) * (px.v - (normed a).row) < k := by
      refine ⟨_, rfl, ?_⟩
      rw [ra.1, ra.2, hv, hu]
      simpa using hm2
    exact ⟨_, (if_pos hin).trans (if_neg (mul_ne_zero hi hi)), rfl⟩
  · unfold getWeightedSums
    rw [two_norms hb ha ub ua nb]
    simp only [wsLoop, wsMaxrad2]
    have hout : ¬ ∃ k ∈ some (m ^ 2), (px.u - (normed b).col) * (px.u - (normed b).col) +
        (px.v - (normed b).row) * (px.v - (normed b).row) < k := by
      rintro ⟨k, hk, hlt⟩
      cases hk
      rw [rb.1, rb.2, hv, hu] at hlt
      nlinarith
    exact ⟨_, if_neg hout, rfl⟩

/-- C113, violation.  After a failure the order matters: a mixture of a usable and an unusable gaussian raises at the first
evaluation; the second gives a value when the usable one is first, and raises again, as at every evaluation, when it is last. -/
theorem C113_after_failure {g bad : Gauss} (hg : DetCurrent g) (hu : Usable g) (ng : g.normSet = false) (hb : DetCurrent bad)
    (hbad : ¬ Usable bad) (nb : bad.normSet = false) (db : bad.d = none) (pixels : List Pixel) :
    (getLoglike [g, bad] pixels).2 = .error .gmixRange ∧
    (∃ r, (getLoglike (getLoglike [g, bad] pixels).1 pixels).2 = .ok r) ∧
    getLoglike [bad, g] pixels = ([bad, g], .error .gmixRange) := by
  obtain ⟨l, h1, h2, -⟩ := C20_partial_failure g bad [] hg hu ng hb hbad db (by simp)
  have e1 : getLoglike [g, bad] pixels = (l, .error .gmixRange) := by
    unfold getLoglike
    rw [h1]
  refine ⟨by rw [e1], ?_, ?_⟩
  · rw [e1]
    unfold getLoglike
    simp only
    rw [h2]
    exact ⟨_, rfl⟩
  · have hb' := (C20_set_norm bad hb).2 hbad
    have : setNormsIfNeeded [bad, g] = ([bad, g], .error .gmixRange) := by
      simp [setNormsIfNeeded, nb, gmixSetNorms, hb']
    unfold getLoglike
    rw [this]

/-! ### Concrete cases -/

/-- Two gaussians of different flux, centre and size. -/
def goA : Gauss := gauss2dSet 1 0 0 1 0 1
def goB : Gauss := gauss2dSet 2 5 0 3 1 2
def goBad : Gauss := gauss2dSet 1 0 0 0 0 0

theorem goAB_perm : [goA, goB].Perm [goB, goA] := .swap _ _ _

/-- The two orders are different mixtures, with fresh norms. -/
theorem goAB_ne : [goA, goB] ≠ [goB, goA] := by
  intro h
  have := congrArg (fun l : List Gauss => (l.map Gauss.p).head?) h
  simp [goA, goB, gauss2dSet] at this

theorem goA_usable : DetCurrent goA ∧ Usable goA ∧ goA.normSet = false := by
  refine ⟨?_, ?_, rfl⟩ <;> norm_num [DetCurrent, Usable, goA, gauss2dSet, gmixLowDetval]

theorem goB_usable : DetCurrent goB ∧ Usable goB ∧ goB.normSet = false := by
  refine ⟨?_, ?_, rfl⟩ <;> norm_num [DetCurrent, Usable, goB, gauss2dSet, gmixLowDetval]

theorem goAB_even : EvenNorms [goA, goB] := .inl (by simp [goA, goB, gauss2dSet])

/-- The centre of the two, in either order. -/
example : getCen [goA, goB] = getCen [goB, goA] ∧ getCen [goA, goB] = some (10 / 3, 0) := by
  refine ⟨(C113_summaries goAB_perm).2.1, ?_⟩
  norm_num [getCen, psum, goA, goB, gauss2dSet]

/-- A likelihood that is computed, not refused. -/
example (pixels : List Pixel) : ∃ r, (getLoglike [goA, goB] pixels).2 = .ok r ∧ (getLoglike [goB, goA] pixels).2 = .ok r := by
  have h := (C113_uses goAB_perm goAB_even pixels 0 [] [] [] true).1.1
  obtain ⟨a1, a2, a3⟩ := goA_usable
  obtain ⟨b1, b2, -⟩ := goB_usable
  have : ∃ r, (getLoglike [goA, goB] pixels).2 = .ok r := by
    unfold getLoglike
    rw [two_norms a1 b1 a2 b2 a3]
    exact ⟨_, rfl⟩
  obtain ⟨r, hr⟩ := this
  exact ⟨r, hr, by rw [← h, hr]⟩

/-- Full mixtures as guess and psf of EM. -/
example (f : EMFitter) (im : Image) (jac : Jacobian) (px : Option (List Pixel)) (sky : Option ℝ) :
    SameOption (SameOutcome SameEMOrd)
      (emGo f ⟨im, jac, px, some ⟨.full, 12, 2, [], [goA, goB]⟩⟩ ⟨.full, 12, 2, [], [goA, goB]⟩ sky)
      (emGo f ⟨im, jac, px, some ⟨.full, 12, 2, [], [goB, goA]⟩⟩ ⟨.full, 12, 2, [], [goB, goA]⟩ sky) :=
  have h : Shuffled ⟨.full, 12, 2, [], [goA, goB]⟩ ⟨.full, 12, 2, [], [goB, goA]⟩ := ⟨_, _, rfl, rfl, goAB_perm⟩
  C113_em f ⟨im, jac, px, some ⟨.full, 12, 2, [], [goA, goB]⟩⟩ (some ⟨.full, 12, 2, [], [goB, goA]⟩) _ _ sky h h

/-- A fit with a psf of two gaussians, accepted in both orders. -/
example (a : List Pixel) (pars : List ℝ) : ∃ x x',
    newFitModel (.std "gauss") none [[⟨a, .ok ⟨.full, 12, 2, [], [goA, goB]⟩⟩]] [0, 0, 0, 0, 4, 1] = .ok x ∧
    newFitModel (.std "gauss") none [[⟨a, .ok ⟨.full, 12, 2, [], [goB, goA]⟩⟩]] [0, 0, 0, 0, 4, 1] = .ok x' ∧
    (calcLnprob x.1 x.2 pars).2 = (calcLnprob x'.1 x'.2 pars).2 := by
  have hk : CanFit (.std "gauss") := by simp [CanFit]
  have hf : Feasible (.std "gauss") [0, 0, 0, 0, 4, 1] := by
    simp [Feasible, InDisk]
  have h := C113_fits (.std "gauss") none [0, 0, 0, 0, 4, 1]
    (obs := [[⟨a, .ok ⟨.full, 12, 2, [], [goA, goB]⟩⟩]]) (obs' := [[⟨a, .ok ⟨.full, 12, 2, [], [goB, goA]⟩⟩]])
    (.cons (.cons ⟨rfl, goAB_perm⟩ .nil) .nil)
  obtain ⟨st, hst⟩ : ∃ st, newFitModel (.std "gauss") none [[⟨a, .ok ⟨.full, 12, 2, [], [goA, goB]⟩⟩]] [0, 0, 0, 0, 4, 1] =
      .ok (⟨.std "gauss", none, [[⟨a, .ok ⟨.full, 12, 2, [], [goA, goB]⟩⟩]], true⟩, st) := by
    refine ((C92_setup (.std "gauss") hk none ⟨a, .ok ⟨.full, 12, 2, [], [goA, goB]⟩⟩ [] [] [0, 0, 0, 0, 4, 1] 0 rfl rfl).2.2 hf
      ⟨_, rfl⟩).1 ?_
    norm_num [psfRefusal, goA, goB, gauss2dSet, Flux]
  rcases e' : newFitModel (.std "gauss") none [[⟨a, .ok ⟨.full, 12, 2, [], [goB, goA]⟩⟩]] [0, 0, 0, 0, 4, 1] with er | x'
  · rw [hst, e'] at h
    exact h.elim
  · rw [hst, e'] at h
    exact ⟨_, x', hst, rfl, (h [] [] pars).2⟩

/-- Template fluxes of one observation. -/
example (y w : ℝ) : ∃ r,
    psfFlux [⟨[y], [w], 1, [⟨0, 0, 1⟩], ⟨none, none⟩, some ⟨some ⟨.full, 12, 2, [], [goA, goB]⟩, none⟩⟩] true true = .ok r ∧
    psfFlux [⟨[y], [w], 1, [⟨0, 0, 1⟩], ⟨none, none⟩, some ⟨some ⟨.full, 12, 2, [], [goB, goA]⟩, none⟩⟩] true true = .ok r := by
  obtain ⟨a1, a2, a3⟩ := goA_usable
  obtain ⟨b1, b2, b3⟩ := goB_usable
  have hr : ∀ l : List Gauss, l.Perm [goA, goB] → Renderable ⟨.full, 12, 2, [], l⟩ := by
    intro l hl
    have hall : ∀ P : Gauss → Prop, P goA → P goB → ∀ g ∈ l, P g := by
      intro P hA hB g hg
      have := hl.mem_iff.1 hg
      simp only [List.mem_cons, List.not_mem_nil, or_false] at this
      rcases this with rfl | rfl <;> assumption
    refine ⟨.inl ⟨rfl, hall _ a1 b1, .inl (hall _ a3 b3)⟩, ?_, hall _ a2 b2⟩
    have : Flux l = Flux [goA, goB] := perm_map_sum hl _
    simp only [this]
    norm_num [Flux, goA, goB, gauss2dSet]
  exact C113_flux _ _ [⟨.full, 12, 2, [], [goA, goB]⟩] [⟨.full, 12, 2, [], [goB, goA]⟩] true true (by simp)
    (.cons ⟨⟨_, rfl, rfl⟩, hr _ (List.Perm.refl _), rfl, rfl⟩ .nil) (.cons ⟨⟨_, rfl, rfl⟩, hr _ goAB_perm.symm, rfl, rfl⟩ .nil)
    (.cons ⟨rfl, rfl, rfl, rfl⟩ .nil) (.cons goAB_perm .nil)

/-- The weighted sums count a pixel in one order only. -/
example (higher : Bool) (y : ℝ) : ∃ r r',
    (getWeightedSums [goA, goB] [⟨0, 0, 1, y, 1⟩] (some 4) higher WRes.zero).2 = .ok r ∧
    (getWeightedSums [goB, goA] [⟨0, 0, 1, y, 1⟩] (some 4) higher WRes.zero).2 = .ok r' ∧ r.npix = 1 ∧ r'.npix = 0 := by
  obtain ⟨a1, a2, a3⟩ := goA_usable
  obtain ⟨b1, b2, b3⟩ := goB_usable
  obtain ⟨⟨r, h1, h2⟩, r', h3, h4⟩ := C113_first_centre a1 b1 a2 b2 a3 b3 ⟨0, 0, 1, y, 1⟩ (by norm_num) rfl rfl 4 (by norm_num)
    (by norm_num [goA, goB, gauss2dSet]) higher
  exact ⟨r, r', h1, h3, h2, h4⟩

example (pixels : List Pixel) : (∃ r, (getLoglike (getLoglike [goA, goBad] pixels).1 pixels).2 = .ok r) ∧
    getLoglike [goBad, goA] pixels = ([goBad, goA], .error .gmixRange) := by
  obtain ⟨a1, a2, a3⟩ := goA_usable
  exact (C113_after_failure a1 a2 a3 (bad := goBad) (by norm_num [DetCurrent, goBad, gauss2dSet])
    (by norm_num [Usable, goBad, gauss2dSet, gmixLowDetval]) rfl rfl pixels).2

end

end Ngmix.Props
