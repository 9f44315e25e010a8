import Verif.Proof.EM
import Verif.Props.Pixels
import Verif.Props.Composite

/-!
# C48, C49, C50: the EM fitters

In every theorem `o` and `s` are the observation that is used and the starting sky (`emStart`: the given
observation when the caller gives the sky, else the one prepared by `prep_obs`, see C50), `px` its pixels, `psf`
the mixture of its psf with unit flux and `g0` the copy of the guess.
-/

namespace Ngmix.Props

open Ngmix Ngmix.Spec Ngmix.Proof.EM

noncomputable section

/-! ## The fit as a whole -/

/-- The inputs a fit works on. -/
structure EMInput (obs : EMObs) (guess : GMixObj) (sky : Option ℝ) where
  o : EMObs
  s : ℝ
  px : List Pixel
  psf : GMixObj
  g0 : GMixObj
  start : emStart obs sky = .ok (o, s)
  pixels : o.pixels = some px
  hpsf : emPsf o = some (.ok psf)
  copy : copyGMix guess = .ok g0

theorem deltaPsf : newGMixModel [0, 0, 0, 0, 0, 1] (.str "gauss") =
    .ok ⟨.model "gauss", 6, 1, [0, 0, 0, 0, 0, 1], [gauss2dSet 1 0 0 0 0 0]⟩ := by
  have h0 : g1g2ToE1E2nb 0 0 = .ok (0, 0) := by
    rw [g1g2ToE1E2nb_closed (by norm_num [InDisk])]; norm_num
  simp [newGMixModel, num_facts, name_facts, ngauss_facts, npars_facts, Except.bind, fillNames, built,
    fillChecked, fillObj, fillFunc, resetObj, fillSimple, h0, Except.map, fvalsGauss, pvalsGauss, coGauss]

theorem emPsf_flux {o : EMObs} {psf : GMixObj} (h : emPsf o = some (.ok psf)) : Flux psf.data = 1 := by
  unfold emPsf at h
  rcases hp : o.psf with _ | g
  · rw [hp] at h
    simp only [Option.some.injEq] at h
    rw [deltaPsf, Except.ok.injEq] at h
    rw [← h]
    simp [Flux, gauss2dSet]
  · rw [hp] at h
    simp only at h
    rcases hc : copyGMix g with e | c
    · rw [hc] at h; simp at h
    · rw [hc] at h
      simp only [setFluxObj, Option.map_map, Option.map_eq_some_iff] at h
      obtain ⟨d, h1, h2⟩ := h
      simp only [Function.comp_apply, Except.ok.injEq] at h2
      rw [← h2]
      exact ((C18_set_flux c.data 1).2 d h1).1

/-- The convolution never fails and the result of the fit is that of the runner. -/
theorem emGo_eq {f : EMFitter} {obs : EMObs} {guess : GMixObj} {sky : Option ℝ} (i : EMInput obs guess sky) :
    ∃ conv, gmixConvolve i.g0.data i.psf.data = .ok conv ∧
      emGo f obs guess sky = some (emFinish f.maxiter
        (emRun f.kind ⟨f.tol, f.miniter, f.maxiter, i.s, f.varySky⟩ i.px i.g0.data i.psf.data conv
          (anyZeroWeight i.px))) := by
  obtain ⟨conv, hc⟩ := (C19_fails i.g0.data i.psf.data).2 (by rw [emPsf_flux i.hpsf]; norm_num)
  refine ⟨conv, hc, ?_⟩
  simp only [emGo, i.start, i.hpsf, Option.map_some, Except.bind, i.copy, convolveObj, hc, Except.map, i.pixels]

theorem emFinish_ok {maxiter : ℤ} {run : Except PyErr EMRun} {res : EMResult}
    (h : emFinish maxiter run = .ok res) :
    (∃ r gm cv, run = .ok r ∧ res = ⟨if (r.numiter : ℤ) ≥ maxiter then Flags.EM_MAXITER else 0, some r.numiter,
        r.frac, some r.sky, some gm, some cv⟩ ∧ List.Forall₂ SameGauss r.gmix gm.data ∧
        List.Forall₂ SameGauss r.conv cv.data ∧ gm.kind = .full ∧ cv.kind = .full ∧
        ∀ g ∈ cv.data, DetCurrent g ∧ g.normSet = false) ∨
    ((run = .error .gmixRange ∨ run = .error .zeroDiv) ∧
      res = ⟨Flags.EM_RANGE_ERROR, none, none, none, none, none⟩) := by
  rcases run with e | r
  · right
    unfold emFinish at h
    simp only [Except.bind] at h
    cases e <;> simp at h <;> simp [h.symm]
  · left
    unfold emFinish at h
    have key : ∀ l : List Gauss, newGMix none (some (getFullPars l)) = .ok ⟨.full, (getFullPars l).length,
        (getFullPars l).length / 6, getFullPars l, fillFull (getFullPars l)⟩ := by
      intro l
      simp only [newGMix]
      rw [if_neg (by rw [getFullPars_length]; omega)]
      rfl
    simp only [Except.bind, key, Except.map, Except.ok.injEq] at h
    refine ⟨r, _, _, rfl, h.symm, ?_, ?_, rfl, rfl, fillFull_fresh _ _ le_rfl⟩
    · exact (fillFull_getFullPars r.gmix).imp fun a b h => h.1
    · exact (fillFull_getFullPars r.conv).imp fun a b h => h.1

/-! ## C48 -/

/-- C48: a fit that returns a mixture did exactly `numiter` EM updates of the copied guess, starting with the
given sky, and returns the last point. -/
theorem C48_fit (f : EMFitter) (obs : EMObs) (guess : GMixObj) (sky : Option ℝ) (i : EMInput obs guess sky)
    (res : EMResult) (h : emGo f obs guess sky = some (.ok res)) (gm : GMixObj) (hg : res.getGmix = .ok gm) :
    ∃ n conv0 b cv, res.numiter = some n ∧ IsConvolved i.g0.data i.psf.data conv0 ∧
      EMChain f.kind f.varySky (anyZeroWeight i.px) i.psf.data n ⟨i.g0.data, conv0, i.px, i.s⟩ b ∧
      res.sky = some b.sky ∧ List.Forall₂ SameGauss b.gmix gm.data ∧ res.conv = some cv ∧
      List.Forall₂ SameGauss b.conv cv.data ∧ cv.kind = .full ∧ ∀ g ∈ cv.data, DetCurrent g ∧ g.normSet = false := by
  obtain ⟨conv, hc, e⟩ := emGo_eq (f := f) i
  rw [e, Option.some.injEq] at h
  rcases emFinish_ok h with ⟨r, g, cv, hr, rfl, h1, h2, h3, h4⟩ | ⟨-, rfl⟩
  · obtain ⟨-, -, conv0, c1, c2⟩ := emRun_ok _ _ _ _ _ _ _ hc r hr
    refine ⟨r.numiter, conv0, _, cv, rfl, c1, c2, rfl, ?_, rfl, h2, h4⟩
    simp only [EMResult.getGmix, copyGMix, h3, Except.ok.injEq] at hg
    rw [← hg]
    exact h1
  · simp [EMResult.getGmix] at hg

theorem flux_same {a b : List Gauss} (h : List.Forall₂ SameGauss a b) : Flux a = Flux b := by
  unfold Flux
  congr 1
  induction h with
  | nil => rfl
  | cons h _ ih => rw [List.map_cons, List.map_cons, h.1, ih]

/-- The pixels at the end: those with positive weight are untouched, the others have another value. -/
def SamePixels (p q : Pixel) : Prop :=
  q.v = p.v ∧ q.u = p.u ∧ q.area = p.area ∧ q.ierr = p.ierr ∧ (0 < p.ierr → q.val = p.val)

theorem chain_pixels {kind : EMKind} {vary fill : Bool} {psf : List Gauss} {n : ℕ} {a b : EMPoint}
    (h : EMChain kind vary fill psf n a b) : List.Forall₂ SamePixels a.pixels b.pixels := by
  refine chain_keeps (fun a b => List.Forall₂ SamePixels a.pixels b.pixels) ?_ ?_ h
  · intro a b h
    rw [h.1]
    unfold filled
    rw [List.forall₂_map_right_iff, List.forall₂_same]
    intro p _
    split_ifs with hc
    · exact ⟨rfl, rfl, rfl, rfl, fun h => absurd hc.2 (not_le.mpr h)⟩
    · exact ⟨rfl, rfl, rfl, rfl, fun _ => rfl⟩
  · intro a b c h1 h2
    rw [List.forall₂_iff_get] at *
    refine ⟨h1.1.trans h2.1, ?_⟩
    intro i i1 i2
    have hi : i < b.pixels.length := by rw [← h1.1]; exact i1
    obtain ⟨a1, a2, a3, a4, a5⟩ := h1.2 i i1 hi
    obtain ⟨b1, b2, b3, b4, b5⟩ := h2.2 i hi i2
    exact ⟨b1.trans a1, b2.trans a2, b3.trans a3, b4.trans a4, fun hp => (b5 (by rw [a4]; exact hp)).trans (a5 hp)⟩

/-- C48: flux conservation.  With a varying sky, total flux plus the sky in all the pixels is the sum of the
pixel values, the masked pixels having the value predicted for them; with a fixed sky the reported sky is the
given one, and if it is zero the total flux is that sum. -/
theorem C48_flux (f : EMFitter) (obs : EMObs) (guess : GMixObj) (sky : Option ℝ) (i : EMInput obs guess sky)
    (res : EMResult) (h : emGo f obs guess sky = some (.ok res)) (gm : GMixObj) (hg : res.getGmix = .ok gm) :
    ∃ px' sky', List.Forall₂ SamePixels i.px px' ∧ res.sky = some sky' ∧
      (f.varySky = true → Flux gm.data + sky' * i.px.length = (px'.map fun p => p.val).sum) ∧
      (f.varySky = false → sky' = i.s ∧ (i.s = 0 → Flux gm.data = (px'.map fun p => p.val).sum)) := by
  obtain ⟨n, conv0, b, cv, -, c1, c2, hs, hgm, -, -⟩ := C48_fit f obs guess sky i res h gm hg
  obtain ⟨a, ha, hu⟩ := chain_last c2 c1
  have hp := chain_pixels c2
  have ht := update_total ha hu
  have hsk := hu.2.2.2.2
  refine ⟨b.pixels, b.sky, hp, hs, ?_, ?_⟩
  · intro hv
    rw [if_pos hv] at hsk
    rw [← flux_same hgm, hp.length_eq, hsk.2, ht]
  · intro hv
    have hsk0 : b.sky = i.s := by
      have := chain_keeps (fun a b => b.sky = a.sky) (fun a b hu => by
        have := hu.2.2.2.2
        rw [if_neg (by rw [hv]; simp)] at this
        exact this) (fun a b c h1 h2 => h2.trans h1) c2
      exact this
    refine ⟨hsk0, fun h0 => ?_⟩
    rw [if_neg (by rw [hv]; simp)] at hsk
    have ha0 : a.sky = 0 := by rw [← hsk, hsk0, h0]
    rw [ha0] at ht
    simp only [mul_zero, zero_div, List.map_const', List.sum_replicate, smul_zero, add_zero] at ht
    rw [← flux_same hgm, ht]

/-- C48: with no masked pixel, the sum of the given pixel values is conserved. -/
theorem C48_flux_unmasked (f : EMFitter) (obs : EMObs) (guess : GMixObj) (sky : Option ℝ)
    (i : EMInput obs guess sky) (hm : ∀ p ∈ i.px, 0 < p.ierr) (res : EMResult)
    (h : emGo f obs guess sky = some (.ok res)) (gm : GMixObj) (hg : res.getGmix = .ok gm) :
    ∃ sky', res.sky = some sky' ∧
      (f.varySky = true → Flux gm.data + sky' * i.px.length = (i.px.map fun p => p.val).sum) ∧
      (f.varySky = false → sky' = i.s ∧ (i.s = 0 → Flux gm.data = (i.px.map fun p => p.val).sum)) := by
  obtain ⟨px', sky', h1, h2, h3, h4⟩ := C48_flux f obs guess sky i res h gm hg
  have e : px'.map (fun p => p.val) = i.px.map (fun p => p.val) := by
    have : ∀ (l l' : List Pixel), (∀ p ∈ l, 0 < p.ierr) → List.Forall₂ SamePixels l l' →
        l'.map (fun p => p.val) = l.map (fun p => p.val) := by
      intro l l' hl h
      induction h with
      | nil => rfl
      | cons h _ ih =>
        rw [List.map_cons, List.map_cons, h.2.2.2.2 (hl _ List.mem_cons_self),
          ih fun p hp => hl p (List.mem_cons_of_mem _ hp)]
    exact this _ _ hm h1
  rw [e] at h3 h4
  exact ⟨sky', h2, h3, h4⟩

theorem forall2_trans {R : Gauss → Gauss → Prop} (ht : ∀ a b c, R a b → R b c → R a c) {l k m : List Gauss}
    (h1 : List.Forall₂ R l k) (h2 : List.Forall₂ R k m) : List.Forall₂ R l m := by
  rw [List.forall₂_iff_get] at *
  refine ⟨h1.1.trans h2.1, fun i i1 i2 => ?_⟩
  have hi : i < k.length := by rw [← h1.1]; exact i1
  exact ht _ _ _ (h1.2 i i1 hi) (h2.2 i hi i2)

/-- C48: for any number of iterations, the number and order of the components is kept; the fits that do not
move the centres return those of the guess, and those that do not change covariances return those of the
guess. -/
theorem C48_fixed (f : EMFitter) (obs : EMObs) (guess : GMixObj) (sky : Option ℝ) (i : EMInput obs guess sky)
    (res : EMResult) (h : emGo f obs guess sky = some (.ok res)) (gm : GMixObj) (hg : res.getGmix = .ok gm) :
    gm.data.length = i.g0.data.length ∧
    (f.kind = .fixcen ∨ f.kind = .fluxonly →
      List.Forall₂ (fun g g' => g'.row = g.row ∧ g'.col = g.col) i.g0.data gm.data) ∧
    (f.kind = .fixcov ∨ f.kind = .fluxonly →
      List.Forall₂ (fun g g' => g'.irr = g.irr ∧ g'.irc = g.irc ∧ g'.icc = g.icc) i.g0.data gm.data) := by
  obtain ⟨n, conv0, b, cv, -, c1, c2, hs, hgm, -, -⟩ := C48_fit f obs guess sky i res h gm hg
  refine ⟨?_, ?_, ?_⟩
  · rw [← hgm.length_eq]
    exact chain_keeps (fun a b => b.gmix.length = a.gmix.length)
      (fun a b hu => (update_components hu).length_eq.symm) (fun a b c h1 h2 => h2.trans h1) c2
  · intro hk
    have h1 := chain_keeps (fun a b => List.Forall₂ (fun (g g' : Gauss) => g'.row = g.row ∧ g'.col = g.col) a.gmix b.gmix)
      (fun a b hu => (update_components hu).imp fun g g' ⟨blk, hc⟩ => by
        have := hc.2.2.1
        rw [if_neg (by rcases hk with hk | hk <;> rw [hk] <;> simp [movesCen])] at this
        exact this)
      (fun a b c h1 h2 => forall2_trans (fun a b c h1 h2 => ⟨h2.1.trans h1.1, h2.2.trans h1.2⟩) h1 h2) c2
    refine forall2_trans (fun a b c h1 h2 => ⟨h2.1.trans h1.1, h2.2.trans h1.2⟩) h1 ?_
    exact hgm.imp fun a b h => ⟨h.2.1.symm, h.2.2.1.symm⟩
  · intro hk
    have h1 := chain_keeps (fun a b => List.Forall₂
        (fun (g g' : Gauss) => g'.irr = g.irr ∧ g'.irc = g.irc ∧ g'.icc = g.icc) a.gmix b.gmix)
      (fun a b hu => (update_components hu).imp fun g g' ⟨blk, hc⟩ => by
        have := hc.2.2.2
        rw [if_neg (by rcases hk with hk | hk <;> rw [hk] <;> simp [movesCov])] at this
        exact this)
      (fun a b c h1 h2 => forall2_trans
        (fun a b c h1 h2 => ⟨h2.1.trans h1.1, h2.2.1.trans h1.2.1, h2.2.2.trans h1.2.2⟩) h1 h2) c2
    refine forall2_trans
      (fun a b c h1 h2 => ⟨h2.1.trans h1.1, h2.2.1.trans h1.2.1, h2.2.2.trans h1.2.2⟩) h1 ?_
    exact hgm.imp fun a b h => ⟨h.2.2.2.1.symm, h.2.2.2.2.1.symm, h.2.2.2.2.2.symm⟩

/-- C48: whatever the pixels, the covariances that a fit returns are positive semidefinite. -/
theorem C48_covariance (f : EMFitter) (obs : EMObs) (guess : GMixObj) (sky : Option ℝ)
    (i : EMInput obs guess sky) (hk : f.kind = .free ∨ f.kind = .fixcen)
    (res : EMResult) (h : emGo f obs guess sky = some (.ok res)) (gm : GMixObj) (hg : res.getGmix = .ok gm) :
    ∀ g ∈ gm.data, 0 ≤ g.irr ∧ 0 ≤ g.icc ∧ g.irc ^ 2 ≤ g.irr * g.icc := by
  obtain ⟨n, conv0, b, cv, -, c1, c2, hs, hgm, -, -⟩ := C48_fit f obs guess sky i res h gm hg
  obtain ⟨a, ha, hu⟩ := chain_last c2 c1
  have hcu := update_components hu
  intro g hgm'
  obtain ⟨j, hj, rfl⟩ := List.getElem_of_mem hgm'
  rw [List.forall₂_iff_get] at hcu hgm
  have hj' : j < b.gmix.length := by rw [hgm.1]; exact hj
  obtain ⟨-, -, -, e1, e2, e3⟩ := hgm.2 j hj' hj
  obtain ⟨blk, hc⟩ := hcu.2 j (by rw [hcu.1]; exact hj') hj'
  have := hc.2.2.2
  rw [if_pos (by rcases hk with hk | hk <;> rw [hk] <;> rfl)] at this
  obtain ⟨q1, q2, q3, -, hr⟩ := this
  have := regular_psd hr
  simp only [List.get_eq_getElem] at this e1 e2 e3
  rw [e1, e2, e3] at this
  exact this

/-- C48: with nonnegative pixel values, sky and starting fluxes, the returned sky and fluxes are nonnegative,
and the fluxes positive unless only fluxes are fitted. -/
theorem C48_positive (f : EMFitter) (obs : EMObs) (guess : GMixObj) (sky : Option ℝ)
    (i : EMInput obs guess sky) (hpx : ∀ p ∈ i.px, 0 ≤ p.val ∧ 0 ≤ p.area) (hs0 : 0 ≤ i.s)
    (hg0 : ∀ g ∈ i.g0.data, 0 ≤ g.p) (hpsf : ∀ g ∈ i.psf.data, 0 ≤ g.p)
    (res : EMResult) (h : emGo f obs guess sky = some (.ok res)) (gm : GMixObj) (hg : res.getGmix = .ok gm) :
    (∀ g ∈ gm.data, 0 ≤ g.p ∧ (f.kind ≠ .fluxonly → 0 < g.p)) ∧ ∃ sky', res.sky = some sky' ∧ 0 ≤ sky' := by
  obtain ⟨n, conv0, b, cv, -, c1, c2, hs, hgm, -, -⟩ := C48_fit f obs guess sky i res h gm hg
  have hb := chain_inv (Nonneg i.psf.data) (update_nonneg hpsf) c2 ⟨c1, hg0, hpx, hs0⟩
  obtain ⟨a, ha, hu⟩ := chain_last c2 c1
  have hcu := update_components hu
  refine ⟨?_, b.sky, hs, hb.2.2.2⟩
  intro g hgm'
  obtain ⟨j, hj, rfl⟩ := List.getElem_of_mem hgm'
  rw [List.forall₂_iff_get] at hcu hgm
  have hj' : j < b.gmix.length := by rw [hgm.1]; exact hj
  have e := (hgm.2 j hj' hj).1
  obtain ⟨blk, hc⟩ := hcu.2 j (by rw [hcu.1]; exact hj') hj'
  have h0 := hb.2.1 _ (List.getElem_mem hj')
  have hne := hc.2.1
  simp only [List.get_eq_getElem] at e hne
  rw [e] at h0 hne
  exact ⟨h0, fun hk => lt_of_le_of_ne h0 (Ne.symm (hne hk))⟩

/-! ## C49 -/

theorem pixelLoop_err (m : ℕ) (cv : List (Gauss × Fl × Fl)) (sky : ℝ) : ∀ (pxs : List Pixel)
    (st : List EMSums × Fl × ℝ) (e : PyErr), pixelLoop m cv sky pxs st = .error e → e = .gmixRange := by
  intro pxs
  induction pxs with
  | nil => intro st e h; simp [pixelLoop] at h
  | cons px pxs ih =>
    intro st e h
    simp only [pixelLoop] at h
    split at h
    · exact (Except.error.inj h).symm
    · exact ih _ e h

/-- The exceptions that the fitter turns into a flag. -/
def Caught (e : PyErr) : Prop := e = .gmixRange ∨ e = .zeroDiv

theorem bind_err {α β : Type} {x : Except PyErr α} {k : α → Except PyErr β} {e : PyErr}
    (h : x.bind k = .error e) : x = .error e ∨ ∃ a, x = .ok a ∧ k a = .error e := by
  rcases x with e' | a
  · left; simpa [Except.bind] using h
  · right; exact ⟨a, rfl, h⟩

theorem map_err {α β : Type} {x : Except PyErr α} {k : α → β} {e : PyErr}
    (h : x.map k = .error e) : x = .error e := by
  rcases x with e' | a
  · simpa [Except.map] using h
  · simp [Except.map] at h

theorem getCen_err (gm : List Gauss) (e : PyErr) (h : gmixGetCen gm = .error e) : Caught e := by
  rw [gmixGetCen_eq] at h
  split_ifs at h
  exact .inr (Except.error.inj h).symm

theorem getMoms_err (gm : List Gauss) (e : PyErr) (h : emGetMoms gm = .error e) : Caught e := by
  unfold emGetMoms at h
  rcases bind_err h with h | ⟨a, -, h⟩
  · exact getCen_err gm e h
  · simp only at h
    split_ifs at h
    exact .inr (Except.error.inj h).symm

theorem setNorms_err : ∀ (gm : List Gauss) (e : PyErr), (gmixSetNorms gm).2 = .error e → Caught e := by
  intro gm
  induction gm with
  | nil => intro e h; simp [gmixSetNorms] at h
  | cons g gm ih =>
    intro e h
    rcases hs : gauss2dSetNorm g with ⟨g', _ | _⟩
    · rename_i e'
      simp only [gmixSetNorms, hs] at h
      left
      rw [← Except.error.inj h]
      unfold gauss2dSetNorm at hs
      split_ifs at hs with h1
      · exact (Except.error.inj (Prod.mk.inj hs).2).symm
      · simp only at hs
        split_ifs at hs with h2
        · exact (Except.error.inj (Prod.mk.inj hs).2).symm
        · exact absurd (Prod.mk.inj hs).2 (by simp)
    · simp only [gmixSetNorms, hs] at h
      exact ih e h

theorem setLoop_err (kind : EMKind) (q : ℝ × ℝ × ℝ) : ∀ (gs : List Gauss) (ss : List EMSums) (e : PyErr),
    setFromSumsLoop kind q gs ss = .error e → Caught e := by
  intro gs
  induction gs with
  | nil => intro ss e h; simp [setFromSumsLoop] at h
  | cons g gs ih =>
    intro ss e h
    rcases ss with _ | ⟨s, ss⟩
    · simp [setFromSumsLoop] at h
    simp only [setFromSumsLoop] at h
    rcases bind_err h with h | ⟨a, -, h⟩
    · cases kind <;> simp only [setGaussFromSums] at h <;> try split_ifs at h
      all_goals first | exact .inr (Except.error.inj h).symm | simp at h
    · exact ih ss e (map_err h)

theorem emFrac_err (kind : EMKind) (cur last : Fl) (e : PyErr) (h : emFrac kind cur last = .error e) :
    Caught e := by
  cases kind <;> simp only [emFrac] at h <;> split_ifs at h
  · exact .inl (Except.error.inj h).symm
  · exact .inl (Except.error.inj h).symm
  · exact .inl (Except.error.inj h).symm
  · exact .inr (Except.error.inj h).symm

theorem emIter_err (kind : EMKind) (conf : EMConf) (psf : List Gauss) (fill : Bool) (n : ℤ) (st : EMState)
    (e : PyErr) (h : emIter kind conf psf fill n st = .error e) : Caught e := by
  unfold emIter at h
  rcases bind_err h with h | ⟨r, -, h⟩
  · exact .inl (pixelLoop_err _ _ _ _ _ e h)
  rcases bind_err h with h | ⟨gm, -, h⟩
  · unfold setFromSums at h
    rcases bind_err h with h | ⟨q, -, h⟩
    · cases kind <;> simp only at h
      · exact getMoms_err psf e h
      · exact getMoms_err psf e h
      · simp at h
      · simp at h
    rcases bind_err h with h | ⟨gm', -, h⟩
    · exact setLoop_err kind _ _ _ e h
    rcases bind_err h with h | ⟨cv, -, h⟩
    · exact getCen_err psf e (map_err h)
    · rcases hn : gmixSetNorms cv with ⟨cv', e' | u⟩
      · rw [hn] at h
        simp only [Except.error.injEq] at h
        subst h
        exact setNorms_err cv e' (by rw [hn])
      · rw [hn] at h; simp at h
  rcases bind_err h with h | ⟨sky, -, h⟩
  · generalize (if fill = true then fillZeroWeight st.conv st.sky st.pixels else st.pixels).length = np at h
    unfold emNewSky at h
    split_ifs at h
    exact .inr (Except.error.inj h).symm
  · unfold emTest at h
    by_cases hm : n ≥ conf.miniter
    · rw [if_pos hm] at h
      exact emFrac_err _ _ _ e (map_err h)
    · rw [if_neg hm] at h; simp at h

theorem emLoop_err (kind : EMKind) (conf : EMConf) (psf : List Gauss) (fill : Bool) : ∀ (k i : ℕ)
    (st : EMState) (e : PyErr), emLoop kind conf psf fill k i st = .error e → Caught e := by
  intro k
  induction k with
  | zero => intro i st e h; simp [emLoop] at h
  | succ k ih =>
    intro i st e h
    simp only [emLoop] at h
    rcases bind_err h with h | ⟨r, -, h⟩
    · exact emIter_err _ _ _ _ _ _ e h
    · split_ifs at h
      exact ih _ _ e h

theorem emRun_err (kind : EMKind) (conf : EMConf) (pixels : List Pixel) (gmix psf conv : List Gauss)
    (fill : Bool) (hm : 1 ≤ conf.maxiter) (e : PyErr)
    (h : emRun kind conf pixels gmix psf conv fill = .error e) : Caught e := by
  unfold emRun at h
  rcases hn : gmixSetNorms conv with ⟨cv, e' | u⟩
  · rw [hn] at h
    simp only [Except.error.injEq] at h
    subst h
    exact setNorms_err conv e' (by rw [hn])
  · rw [hn] at h
    simp only at h
    rw [if_neg (by omega)] at h
    exact emLoop_err _ _ _ _ _ _ _ e (map_err h)

/-- C49: with at least one iteration allowed, no failure of the computation escapes: the fit returns either a
mixture, or the flag EM_RANGE_ERROR without any mixture, and asking for the mixture then is a RuntimeError. -/
theorem C49_total (f : EMFitter) (obs : EMObs) (guess : GMixObj) (sky : Option ℝ) (i : EMInput obs guess sky)
    (hm : 1 ≤ f.maxiter) : ∃ res, emGo f obs guess sky = some (.ok res) ∧
      ((∃ gm cv n s, res.getGmix = .ok gm ∧ res.conv = some cv ∧ res.numiter = some n ∧ res.sky = some s ∧
          res.flags ≠ Flags.EM_RANGE_ERROR) ∨
        (res.flags = Flags.EM_RANGE_ERROR ∧ res.getGmix = .error .runtime ∧ res.conv = none ∧
          res.numiter = none ∧ res.sky = none ∧ res.fdiff = none)) := by
  obtain ⟨conv, hc, e⟩ := emGo_eq (f := f) i
  rw [e]
  have : ∃ res, emFinish f.maxiter (emRun f.kind ⟨f.tol, f.miniter, f.maxiter, i.s, f.varySky⟩ i.px i.g0.data
      i.psf.data conv (anyZeroWeight i.px)) = .ok res := by
    rcases hr : emRun f.kind ⟨f.tol, f.miniter, f.maxiter, i.s, f.varySky⟩ i.px i.g0.data
      i.psf.data conv (anyZeroWeight i.px) with e | r
    · rcases emRun_err _ _ _ _ _ _ _ hm e hr with rfl | rfl
      · exact ⟨_, rfl⟩
      · exact ⟨_, rfl⟩
    · obtain ⟨a, ha, -⟩ := C18_full_pars_roundtrip r.gmix
      obtain ⟨b, hb, -⟩ := C18_full_pars_roundtrip r.conv
      exact ⟨_, by simp only [emFinish, Except.bind, ha, hb, Except.map]; rfl⟩
  obtain ⟨res, hres⟩ := this
  refine ⟨res, by rw [hres], ?_⟩
  rcases emFinish_ok hres with ⟨r, g, cv, hr, rfl, h1, h2, h3, h4⟩ | ⟨-, rfl⟩
  · left
    refine ⟨_, cv, r.numiter, r.sky, by simp only [EMResult.getGmix, copyGMix, h3]; rfl, rfl, rfl, rfl, ?_⟩
    simp only
    split_ifs <;> decide
  · right
    exact ⟨rfl, rfl, rfl, rfl, rfl, rfl⟩

theorem emTest_ok {kind : EMKind} {conf : EMConf} {n : ℤ} {st st' : EMState} {cur : Fl} {b : Bool}
    (h : emTest kind conf n st cur = .ok (st', b)) :
    (n < conf.miniter → st'.frac = st.frac ∧ b = false) ∧
    (conf.miniter ≤ n → ∃ f, st'.frac = some f ∧ (b = true ↔ Fl.lt f (.fin conf.tol))) := by
  unfold emTest at h
  split_ifs at h with h1
  · refine ⟨fun h2 => absurd h1 (not_le.mpr h2), fun _ => ?_⟩
    obtain ⟨f, -, h⟩ := exMap_ok h
    refine ⟨f, ?_⟩
    split_ifs at h with h2
    · simp only [Prod.mk.injEq] at h
      rw [← h.1, ← h.2]
      exact ⟨rfl, by simp [h2]⟩
    · simp only [Prod.mk.injEq] at h
      rw [← h.1, ← h.2]
      exact ⟨rfl, by simp [h2]⟩
  · simp only [Except.ok.injEq, Prod.mk.injEq] at h
    rw [← h.1, ← h.2]
    exact ⟨fun _ => ⟨rfl, rfl⟩, fun h2 => absurd h2 h1⟩

theorem emIter_test {kind : EMKind} {conf : EMConf} {psf : List Gauss} {fill : Bool} {n : ℤ} {st st' : EMState}
    {b : Bool} (h : emIter kind conf psf fill n st = .ok (st', b)) :
    (n < conf.miniter → st'.frac = st.frac ∧ b = false) ∧
    (conf.miniter ≤ n → ∃ f, st'.frac = some f ∧ (b = true ↔ Fl.lt f (.fin conf.tol))) := by
  unfold emIter at h
  obtain ⟨r, -, h⟩ := exBind_ok h
  obtain ⟨gm, -, h⟩ := exBind_ok h
  obtain ⟨sky, -, h⟩ := exBind_ok h
  have := emTest_ok h
  exact this

theorem emLoop_test (kind : EMKind) (conf : EMConf) (psf : List Gauss) (fill : Bool) : ∀ (k i : ℕ)
    (st : EMState) (r : EMState × ℕ), emLoop kind conf psf fill k i st = .ok r → i ≤ r.2 ∧
    ((r.2 : ℤ) < conf.miniter → r.1.frac = st.frac) ∧
    (conf.miniter ≤ r.2 → i < r.2 → ∃ f, r.1.frac = some f) ∧
    (r.2 < i + k → conf.miniter ≤ r.2 ∧ ∃ f, r.1.frac = some f ∧ Fl.lt f (.fin conf.tol)) := by
  intro k
  induction k with
  | zero =>
    intro i st r h
    simp only [emLoop, Except.ok.injEq] at h
    subst h
    exact ⟨le_refl _, fun _ => rfl, fun _ h => absurd h (lt_irrefl _), fun h => absurd h (by simp)⟩
  | succ k ih =>
    intro i st r h
    simp only [emLoop] at h
    obtain ⟨⟨st1, b⟩, e1, h⟩ := exBind_ok h
    obtain ⟨t1, t2⟩ := emIter_test e1
    simp only at h
    split_ifs at h with hb
    · simp only [Except.ok.injEq] at h
      subst h
      simp only
      push_cast
      refine ⟨by omega, ?_, ?_, ?_⟩
      · intro h1; exact (t1 h1).1
      · intro h1 _; obtain ⟨f, hf, -⟩ := t2 h1; exact ⟨f, hf⟩
      · intro _
        by_cases h1 : (i : ℤ) + 1 < conf.miniter
        · have := (t1 h1).2; rw [hb] at this; simp at this
        · obtain ⟨f, hf, hl⟩ := t2 (not_lt.mp h1)
          exact ⟨not_lt.mp h1, f, hf, hl.mp hb⟩
    · obtain ⟨j1, j2, j3, j4⟩ := ih (i + 1) st1 r h
      refine ⟨by omega, ?_, ?_, ?_⟩
      · intro h1
        rw [j2 h1]
        exact (t1 (by omega)).1
      · intro h1 h2
        by_cases h3 : i + 1 < r.2
        · exact j3 h1 h3
        · have h4 : r.2 = i + 1 := by omega
          rcases Nat.eq_zero_or_pos k with hk | hk
          · subst hk
            simp only [emLoop, Except.ok.injEq] at h
            subst h
            obtain ⟨f, hf, -⟩ := t2 (by push_cast at h1; exact h1)
            exact ⟨f, hf⟩
          · obtain ⟨-, f, hf, -⟩ := j4 (by omega)
            exact ⟨f, hf⟩
      · intro h1; exact j4 (by omega)

/-- C49: a returned mixture comes with `1 <= numiter <= maxiter`; the flags are EM_MAXITER exactly when
`numiter = maxiter` and otherwise zero; with flags zero the fit did converge: at least `miniter` iterations were
done and the last relative change is below the tolerance.  `fdiff` has been computed exactly when `miniter`
iterations were done. -/
theorem C49_flags (f : EMFitter) (obs : EMObs) (guess : GMixObj) (sky : Option ℝ) (i : EMInput obs guess sky)
    (res : EMResult) (h : emGo f obs guess sky = some (.ok res)) (gm : GMixObj) (hg : res.getGmix = .ok gm) :
    ∃ n, res.numiter = some n ∧ 1 ≤ n ∧ (n : ℤ) ≤ f.maxiter ∧
      (res.flags = Flags.EM_MAXITER ↔ (n : ℤ) = f.maxiter) ∧ (res.flags = 0 ↔ (n : ℤ) < f.maxiter) ∧
      (res.flags = 0 → f.miniter ≤ n ∧ ∃ d, res.fdiff = some d ∧ Fl.lt d (.fin f.tol)) ∧
      (res.fdiff = none ↔ (n : ℤ) < f.miniter) := by
  obtain ⟨conv, hc, e⟩ := emGo_eq (f := f) i
  rw [e, Option.some.injEq] at h
  rcases emFinish_ok h with ⟨r, g, cv, hr, rfl, h1, h2, h3, h4⟩ | ⟨-, rfl⟩
  · obtain ⟨k1, k2, -⟩ := emRun_ok _ _ _ _ _ _ _ hc r hr
    simp only at k2
    refine ⟨r.numiter, rfl, k1, k2, ?_, ?_, ?_⟩
    · simp only
      split_ifs with hx
      · exact ⟨fun _ => by omega, fun _ => rfl⟩
      · exact ⟨fun hh => absurd hh (by decide), fun hh => by omega⟩
    · simp only
      split_ifs with hx
      · exact ⟨fun hh => absurd hh (by decide), fun hh => by omega⟩
      · exact ⟨fun _ => by omega, fun _ => rfl⟩
    · unfold emRun at hr
      rcases hn : gmixSetNorms conv with ⟨cv, _ | u⟩
      · rw [hn] at hr; simp at hr
      · rw [hn] at hr
        simp only at hr
        split_ifs at hr with hm
        obtain ⟨x, e, rfl⟩ := exMap_ok hr
        obtain ⟨-, j2, j3, j4⟩ := emLoop_test _ _ _ _ _ _ _ x e
        simp only at j2 j3 j4 k1 k2 ⊢
        constructor
        · intro hf
          have : (x.2 : ℤ) < f.maxiter := by
            by_contra hx
            rw [if_pos (not_lt.mp hx)] at hf
            exact absurd hf (by decide)
          exact j4 (by omega)
        · constructor
          · intro hf
            by_contra hx
            obtain ⟨d, hd⟩ := j3 (not_lt.mp hx) (by omega)
            rw [hf] at hd
            simp at hd
          · intro hx; exact j2 hx
  · simp [EMResult.getGmix] at hg


/-! The two surprises. -/

/-- A flux fit of one pixel at the centre of a round gaussian, without sky. -/
def oneGauss (p : ℝ) : GMixObj := ⟨.full, 6, 1, [0, 0, 0, 0, 0, 0], [gauss2dSet p 0 0 1 0 1]⟩
def onePixel (p : ℝ) : EMObs := ⟨⟨1, 1, fun _ _ => p⟩, ⟨0, 0, 1, 0, 0, 1, 1, 1⟩, some [⟨0, 0, 1, p, 1⟩], none⟩

theorem oneGauss_norms (p : ℝ) : ∃ g, gmixSetNorms [gauss2dSet p 0 0 1 0 1] = ([g], .ok ()) ∧
    SameGauss (gauss2dSet p 0 0 1 0 1) g ∧ DetCurrent g ∧ NormsCurrent g := by
  have hu : ∀ g ∈ [gauss2dSet p 0 0 1 0 1], Usable g := by
    intro g hg
    rw [List.mem_singleton] at hg
    subst hg
    constructor <;> norm_num [gauss2dSet, gmixLowDetval]
  have hd : ∀ g ∈ [gauss2dSet p 0 0 1 0 1], DetCurrent g := by
    intro g hg
    rw [List.mem_singleton] at hg
    subst hg
    rfl
  obtain ⟨h1, h2⟩ := (C20_set_norms _ hd).1 hu
  rcases hs : gmixSetNorms [gauss2dSet p 0 0 1 0 1] with ⟨l, r⟩
  rw [hs] at h1 h2
  simp only at h1 h2
  subst h1
  cases h2 with
  | cons h3 h4 =>
    cases h4
    exact ⟨_, rfl, h3.1, h3.2.1, h3.2.2.1⟩

theorem oneGauss_value (p : ℝ) (hp : 0 < p) (g : Gauss) (hs : SameGauss (gauss2dSet p 0 0 1 0 1) g)
    (hn : NormsCurrent g) : gaussEvalFast g 0 0 1 ≠ 0 := by
  obtain ⟨s1, s2, s3, s4, s5, s6⟩ := hs
  simp only [gauss2dSet] at s1 s2 s3 s4 s5 s6
  obtain ⟨y, peak, h1, h2, h3⟩ := C26_eval g hn (by rw [← s4, ← s6]; norm_num) (by rw [← s1]; exact hp.le) 0 0 1
    zero_le_one
  obtain ⟨d, hd, h4, h5, h6, h7, h8, h9⟩ := hn
  have hy : 0 < y := by
    simp only [gaussEval, hd, Option.map_some, Option.some.injEq] at h1
    rw [← h1, h9]
    rw [← s1, ← s4, ← s5, ← s6]
    have := Real.pi_pos
    have := Real.exp_pos (-0.5 * gaussChi2 g d 0 0)
    norm_num
    positivity
  have hpk : peak = y := by
    rw [← s2, ← s3, h1] at h2
    exact (Option.some.inj h2).symm
  rcases h3 with h3 | ⟨-, h3⟩
  · intro h0
    rw [h0, zero_sub, abs_neg, abs_of_pos hy] at h3
    norm_num at h3
    linarith
  · exfalso
    rw [hpk] at h3
    have : Real.exp (-12.5) < 1 := by rw [Real.exp_lt_one_iff]; norm_num
    nlinarith

theorem oneGauss_conv (p : ℝ) :
    gmixConvolve [gauss2dSet p 0 0 1 0 1] [gauss2dSet 1 0 0 0 0 0] = .ok [gauss2dSet p 0 0 1 0 1] := by
  have hc : Centroid [gauss2dSet 1 0 0 0 0 0] 0 0 := by
    refine ⟨?_, ?_, ?_⟩ <;> norm_num [Flux, gauss2dSet]
  rw [gmixConvolve, (gmixGetCen_ok _ 0 0 _).mpr ⟨hc, rfl⟩]
  simp [Except.map, gauss2dSet, Flux]

/-- C49 (violation of "EM_MAXITER means not converged"): a fit that starts at the solution and is allowed one
iteration converges in it, with relative change zero, and is flagged EM_MAXITER. -/
theorem C49_converged_yet_flagged (p tol : ℝ) (hp : 0 < p) (ht : 0 < tol) :
    ∃ res gm, emGo ⟨.fluxonly, 1, 1, tol, false⟩ (onePixel p) (oneGauss p) (some 0) = some (.ok res) ∧
      res.getGmix = .ok gm ∧ res.flags = Flags.EM_MAXITER ∧ res.numiter = some 1 ∧
      res.fdiff = some (.fin 0) ∧ Fl.lt (.fin 0) (.fin tol) := by
  obtain ⟨g, hn, hs, hd, hnc⟩ := oneGauss_norms p
  have hE := oneGauss_value p hp g hs hnc
  let i : EMInput (onePixel p) (oneGauss p) (some 0) :=
    ⟨onePixel p, 0, [⟨0, 0, 1, p, 1⟩], _, { resetObj .full 6 1 with data := [gauss2dSet p 0 0 1 0 1] }, rfl, rfl,
      by simp only [emPsf, onePixel]; rw [deltaPsf], rfl⟩
  obtain ⟨conv, hc, e⟩ := emGo_eq (f := ⟨.fluxonly, 1, 1, tol, false⟩) i
  have hc' : gmixConvolve [gauss2dSet p 0 0 1 0 1] [gauss2dSet 1 0 0 0 0 0] = .ok conv := hc
  rw [oneGauss_conv, Except.ok.injEq] at hc'
  subst hc'
  have hz : anyZeroWeight [⟨0, 0, 1, p, 1⟩] = false := by simp [anyZeroWeight]
  have hpl : ∃ ss el, pixelLoop 1 ([g].zip (logtauLogdet [g])) 0 [⟨0, 0, 1, p, 1⟩]
      (clearSums [EMSums.zero], .fin 0, 0) = .ok ([ss], el, 0) ∧ ss.pnew = p := by
    simp only [pixelLoop, doScratchSums, scratchAll, logtauLogdet, clearSums, List.map_cons, List.map_nil,
      List.zip_cons_cons, List.zip_nil_right, List.take_succ_cons, List.take_zero, List.foldl_cons, List.foldl_nil,
      scratchGauss, doSums, zero_add, add_zero, if_neg hE, zero_mul, zero_div, resetScratch]
    exact ⟨_, _, rfl, by simp only; rw [mul_div_cancel₀ _ hE]⟩
  obtain ⟨ss, el, hpl, hss⟩ := hpl
  have hsf : setFromSums .fluxonly [gauss2dSet p 0 0 1 0 1] [gauss2dSet 1 0 0 0 0 0] [ss] =
      .ok ([gauss2dSet p 0 0 1 0 1], [g]) := by
    have hl : setFromSumsLoop .fluxonly (0, 0, 0) [gauss2dSet p 0 0 1 0 1] [ss] =
        .ok [gauss2dSet p 0 0 1 0 1] := by
      simp only [setFromSumsLoop, setGaussFromSums, Except.bind, Except.map, hss]
      rfl
    simp only [setFromSums, Except.bind, hl, oneGauss_conv, hn]
  have hps : psum [gauss2dSet p 0 0 1 0 1] = p := by rw [psum_eq_flux]; simp [Flux, gauss2dSet]
  have hfr : emFrac .fluxonly (.fin p) (.fin p) = .ok (.fin 0) := by
    have h1 : (Fl.fin p / Fl.fin p) = .fin 1 := by
      show Fl.div _ _ = _
      simp only [Fl.div, if_neg hp.ne', div_self hp.ne']
    have h2 : (Fl.fin 1 - Fl.fin 1) = .fin 0 := by
      show Fl.add _ (Fl.neg _) = _
      simp [Fl.add, Fl.neg]
    simp only [emFrac, h1, h2, Fl.abs, abs_zero]
    rw [if_neg (by simpa [Fl.isZero] using hp.ne')]
  have hrun : emRun .fluxonly ⟨tol, 1, 1, 0, false⟩ [⟨0, 0, 1, p, 1⟩] [gauss2dSet p 0 0 1 0 1]
      [gauss2dSet 1 0 0 0 0 0] [gauss2dSet p 0 0 1 0 1] false = .ok ⟨1, some (.fin 0), 0,
        [gauss2dSet p 0 0 1 0 1], [g], [⟨0, 0, 1, p, 1⟩]⟩ := by
    have hit : emIter .fluxonly ⟨tol, 1, 1, 0, false⟩ [gauss2dSet 1 0 0 0 0 0] false 1
        ⟨[gauss2dSet p 0 0 1 0 1], [g], [EMSums.zero], [⟨0, 0, 1, p, 1⟩], 0, .fin p, none⟩ =
        .ok (⟨[gauss2dSet p 0 0 1 0 1], [g], [ss], [⟨0, 0, 1, p, 1⟩], 0, .fin p, some (.fin 0)⟩, true) := by
      unfold emIter
      simp only [Bool.false_eq_true, if_false, List.length_cons, List.length_nil, zero_add, hpl, Except.bind, hsf,
        emNewSky, emTest, emCur, hps, hfr, Except.map, ge_iff_le, le_refl, if_true]
      rw [if_pos (by simpa [Fl.lt] using ht)]
    simp only [emRun, hn]
    rw [if_neg (by norm_num)]
    simp only [Int.toNat_one, emLoop, hps, List.length_cons, List.length_nil, zero_add, List.replicate_one,
      Nat.cast_zero, hit, Except.bind, if_true, Except.map]
    rfl
  have e' : emGo ⟨.fluxonly, 1, 1, tol, false⟩ (onePixel p) (oneGauss p) (some 0) = some (emFinish 1
      (.ok ⟨1, some (.fin 0), 0, [gauss2dSet p 0 0 1 0 1], [g], [⟨0, 0, 1, p, 1⟩]⟩)) := by
    rw [e, ← hrun, ← hz]
  rw [e']
  obtain ⟨a, ha, -⟩ := C18_full_pars_roundtrip [gauss2dSet p 0 0 1 0 1]
  obtain ⟨b, hb, -⟩ := C18_full_pars_roundtrip [g]
  rcases hf : emFinish 1 (.ok ⟨1, some (.fin 0), 0, [gauss2dSet p 0 0 1 0 1], [g], [⟨0, 0, 1, p, 1⟩]⟩) with x | res
  · simp only [emFinish, Except.bind, ha, hb, Except.map] at hf
    simp at hf
  · rcases emFinish_ok hf with ⟨r, gm, cv, hr, rfl, h1, h2, h3, h4⟩ | ⟨h, -⟩
    · cases hr
      exact ⟨_, _, rfl, by simp only [EMResult.getGmix, copyGMix, h3]; rfl, by simp, rfl, rfl,
        by simpa [Fl.lt] using ht⟩
    · simp at h


/-- C49 (violation): with `maxiter < miniter` a fit that returns a mixture reports a relative change that was
never computed. -/
theorem C49_fdiff_unassigned (f : EMFitter) (hm : f.maxiter < f.miniter) (obs : EMObs) (guess : GMixObj)
    (sky : Option ℝ) (i : EMInput obs guess sky) (res : EMResult) (h : emGo f obs guess sky = some (.ok res))
    (gm : GMixObj) (hg : res.getGmix = .ok gm) : res.fdiff = none ∧ res.flags = Flags.EM_MAXITER := by
  obtain ⟨n, -, -, h2, h3, h4, h5, h6⟩ := C49_flags f obs guess sky i res h gm hg
  refine ⟨h6.mpr (by omega), ?_⟩
  rw [h3]
  by_contra hx
  have := (h5 (h4.mpr (by omega))).1
  omega

/-! ## C50 -/

theorem foldl_min_spec : ∀ (l : List ℝ) (x : ℝ), (l.foldl min x ∈ x :: l) ∧ ∀ y ∈ x :: l, l.foldl min x ≤ y := by
  intro l
  induction l with
  | nil => intro x; simp
  | cons a l ih =>
    intro x
    rw [List.foldl_cons]
    obtain ⟨h1, h2⟩ := ih (min x a)
    constructor
    · rcases List.mem_cons.mp h1 with h | h
      · rw [h]
        rcases min_choice x a with e | e <;> rw [e] <;> simp
      · exact List.mem_cons_of_mem _ (List.mem_cons_of_mem _ h)
    · have h0 := h2 _ List.mem_cons_self
      intro y hy
      rcases List.mem_cons.mp hy with rfl | hy
      · exact h0.trans (min_le_left _ _)
      · rcases List.mem_cons.mp hy with rfl | hy
        · exact h0.trans (min_le_right _ _)
        · exact h2 y (List.mem_cons_of_mem _ hy)

theorem foldl_max_spec : ∀ (l : List ℝ) (x : ℝ), (l.foldl max x ∈ x :: l) ∧ ∀ y ∈ x :: l, y ≤ l.foldl max x := by
  intro l
  induction l with
  | nil => intro x; simp
  | cons a l ih =>
    intro x
    rw [List.foldl_cons]
    obtain ⟨h1, h2⟩ := ih (max x a)
    constructor
    · rcases List.mem_cons.mp h1 with h | h
      · rw [h]
        rcases max_choice x a with e | e <;> rw [e] <;> simp
      · exact List.mem_cons_of_mem _ (List.mem_cons_of_mem _ h)
    · have h0 := h2 _ List.mem_cons_self
      intro y hy
      rcases List.mem_cons.mp hy with rfl | hy
      · exact (le_max_left _ _).trans h0
      · rcases List.mem_cons.mp hy with rfl | hy
        · exact (le_max_right _ _).trans h0
        · exact h2 y (List.mem_cons_of_mem _ hy)

/-- The pixel values of an image. -/
def PixelValues (im : Image) : Set ℝ := {x | ∃ r c, r < im.nrow ∧ c < im.ncol ∧ im.get r c = x}

theorem mem_imVals (im : Image) (x : ℝ) : x ∈ imVals im ↔ x ∈ PixelValues im := by
  simp only [imVals, PixelValues, List.mem_flatMap, List.mem_range, List.mem_map, Set.mem_ofPred_eq]
  constructor
  · rintro ⟨r, hr, c, hc, h⟩; exact ⟨r, c, hr, hc, h⟩
  · rintro ⟨r, c, hr, hc, h⟩; exact ⟨r, hr, c, hc, h⟩

/-- C50: an image without pixels is a ValueError; for any other image `prep_image` returns an image of the
same shape, in which the reported sky has been added to every pixel; its smallest value is 0.001 times the
range of the image, so not negative, and positive exactly when the image is not constant. -/
theorem C50_prep_image (im : Image) :
    (im.nrow * im.ncol = 0 → prepImage im = .error .value) ∧
    (im.nrow * im.ncol ≠ 0 → ∃ im' sky mn mx, prepImage im = .ok (im', sky) ∧
      IsLeast (PixelValues im) mn ∧ IsGreatest (PixelValues im) mx ∧
      im'.nrow = im.nrow ∧ im'.ncol = im.ncol ∧ (∀ r c, im'.get r c = im.get r c + sky) ∧
      IsLeast (PixelValues im') (0.001 * (mx - mn)) ∧ 0 ≤ 0.001 * (mx - mn) ∧
      (0 < 0.001 * (mx - mn) ↔ ∃ x ∈ PixelValues im, ∃ y ∈ PixelValues im, x ≠ y)) := by
  have hne : imVals im = [] ↔ im.nrow * im.ncol = 0 := by
    constructor
    · intro h
      by_contra hx
      have h1 : 0 < im.nrow := Nat.pos_of_ne_zero fun e => hx (by rw [e, zero_mul])
      have h2 : 0 < im.ncol := Nat.pos_of_ne_zero fun e => hx (by rw [e, mul_zero])
      have := (mem_imVals im (im.get 0 0)).mpr ⟨0, 0, h1, h2, rfl⟩
      rw [h] at this
      simp at this
    · intro h
      rcases hv : imVals im with _ | ⟨x, xs⟩
      · rfl
      · have : x ∈ imVals im := by rw [hv]; exact List.mem_cons_self
        obtain ⟨r, c, hr, hc, -⟩ := (mem_imVals im x).mp this
        have := Nat.mul_pos (lt_of_le_of_lt (Nat.zero_le r) hr) (lt_of_le_of_lt (Nat.zero_le c) hc)
        omega
  constructor
  · intro h
    have := hne.mpr h
    simp only [prepImage, imMin, this, Except.bind]
  · intro h
    rcases hv : imVals im with _ | ⟨x, xs⟩
    · exact absurd (hne.mp hv) h
    have hmem : ∀ y, y ∈ x :: xs ↔ y ∈ PixelValues im := fun y => by rw [← hv]; exact mem_imVals im y
    obtain ⟨a1, a2⟩ := foldl_min_spec xs x
    obtain ⟨b1, b2⟩ := foldl_max_spec xs x
    refine ⟨⟨im.nrow, im.ncol, fun r c => im.get r c + (0.001 * (xs.foldl max x - xs.foldl min x) -
        xs.foldl min x)⟩, _, xs.foldl min x, xs.foldl max x, by simp only [prepImage, imMin, imMax, hv, Except.bind],
      ⟨(hmem _).mp a1, fun y hy => a2 y ((hmem y).mpr hy)⟩, ⟨(hmem _).mp b1, fun y hy => b2 y ((hmem y).mpr hy)⟩,
      rfl, rfl, fun _ _ => rfl, ?_, ?_, ?_⟩
    · obtain ⟨r, c, hr, hc, e⟩ := (hmem _).mp a1
      refine ⟨⟨r, c, hr, hc, by simp only; rw [e]; ring⟩, ?_⟩
      rintro y ⟨r, c, hr, hc, rfl⟩
      have := a2 _ ((hmem _).mpr ⟨r, c, hr, hc, rfl⟩)
      simp only
      linarith
    · have := a2 _ b1
      norm_num
      linarith
    · constructor
      · intro hpos
        refine ⟨_, (hmem _).mp a1, _, (hmem _).mp b1, fun e => ?_⟩
        rw [e, sub_self, mul_zero] at hpos
        exact lt_irrefl _ hpos
      · rintro ⟨y, hy, z, hz, hyz⟩
        have y1 := a2 y ((hmem y).mpr hy)
        have y2 := b2 y ((hmem y).mpr hy)
        have z1 := a2 z ((hmem z).mpr hz)
        have z2 := b2 z ((hmem z).mpr hz)
        have : xs.foldl min x < xs.foldl max x := by
          rcases lt_or_gt_of_ne hyz with h | h <;> linarith
        norm_num
        linarith

/-- The pixels of an observation made by `prep_obs`. -/
theorem prepObs_pixels (obs o : EMObs) (s : ℝ) (h : prepObs obs = .ok (o, s)) :
    ∃ im' px, prepImage obs.image = .ok (im', s) ∧ o.pixels = some px ∧ o.psf = obs.psf ∧
      List.Forall₂ (fun (p : ℕ × ℕ) (q : Pixel) => q.ierr = 1 ∧ q.val = im'.get p.1 p.2 ∧
        (q.v, q.u) = obs.jac.getVU p.1 p.2 ∧ q.area = obs.jac.area) (rowMajor im'.nrow im'.ncol) px := by
  unfold prepObs at h
  obtain ⟨⟨im', sky⟩, h1, h⟩ := exBind_ok h
  obtain ⟨px, h2, h⟩ := exMap_ok h
  simp only [Prod.mk.injEq] at h
  obtain ⟨rfl, rfl⟩ := h
  refine ⟨im', px, h1, rfl, rfl, ?_⟩
  obtain ⟨k0, k⟩ := C17_make_pixels_ignore im' ⟨im'.nrow, im'.ncol, fun _ _ => 1⟩ obs.jac ⟨rfl, rfl⟩
  have hall : positiveWeight im'.nrow im'.ncol (fun _ _ => 1) = rowMajor im'.nrow im'.ncol := by
    simp [positiveWeight]
  simp only [hall] at k k0
  simp only at h2
  by_cases hr : rowMajor im'.nrow im'.ncol = []
  · rw [k0 hr] at h2; simp at h2
  · obtain ⟨px', e, hf⟩ := k hr
    rw [e, Except.ok.injEq] at h2
    subst h2
    refine hf.imp fun p q hq => ?_
    obtain ⟨q1, q2, q3, q4, q5⟩ := hq
    refine ⟨?_, q3, q1, q2⟩
    rw [max_eq_left zero_le_one] at q5
    nlinarith

/-- C50 (finding): the observation that `prep_obs` makes keeps the psf but not the weights: every pixel of the
image is used with weight one, in row-major order, whatever its weight was. -/
theorem C50_prep_obs (obs o : EMObs) (s : ℝ) (h : prepObs obs = .ok (o, s)) :
    ∃ px, o.pixels = some px ∧ o.psf = obs.psf ∧
      List.Forall₂ (fun (p : ℕ × ℕ) (q : Pixel) => q.ierr = 1 ∧ q.val = obs.image.get p.1 p.2 + s ∧
        (q.v, q.u) = obs.jac.getVU p.1 p.2 ∧ q.area = obs.jac.area)
        (rowMajor obs.image.nrow obs.image.ncol) px := by
  obtain ⟨im', px, h1, h2, h3, h4⟩ := prepObs_pixels obs o s h
  by_cases hz : obs.image.nrow * obs.image.ncol = 0
  · rw [(C50_prep_image obs.image).1 hz] at h1; simp at h1
  · obtain ⟨im2, sky, mn, mx, e, -, -, e1, e2, e3, -⟩ := (C50_prep_image obs.image).2 hz
    rw [e, Except.ok.injEq, Prod.mk.injEq] at h1
    obtain ⟨rfl, rfl⟩ := h1
    refine ⟨px, h2, h3, ?_⟩
    rw [e1, e2] at h4
    exact h4.imp fun p q hq => ⟨hq.1, by rw [hq.2.1, e3], hq.2.2⟩

/-- C50: a constant image cannot be fitted when the sky is to be guessed: the prepared image is zero
everywhere, and every fit other than that of the fluxes alone ends with EM_RANGE_ERROR. -/
theorem C50_constant_image (f : EMFitter) (obs : EMObs) (guess : GMixObj) (i : EMInput obs guess none)
    (hm : 1 ≤ f.maxiter) (hk : f.kind ≠ .fluxonly) (hg : i.g0.data ≠ [])
    (hc : ∀ x ∈ PixelValues obs.image, ∀ y ∈ PixelValues obs.image, x = y) :
    ∃ res, emGo f obs guess none = some (.ok res) ∧ res.flags = Flags.EM_RANGE_ERROR ∧
      res.getGmix = .error .runtime := by
  obtain ⟨res, h, hres⟩ := C49_total f obs guess none i hm
  refine ⟨res, h, ?_⟩
  rcases hres with ⟨gm, cv, n, s, hgm, -⟩ | ⟨h1, h2, -⟩
  swap
  · exact ⟨h1, h2⟩
  exfalso
  obtain ⟨px, e1, -, hpx⟩ := C50_prep_obs obs i.o i.s i.start
  rw [i.pixels, Option.some.injEq] at e1
  subst e1
  have hstart : prepObs obs = .ok (i.o, i.s) := i.start
  -- the values are zero
  have hzero : ∀ q ∈ i.px, q.ierr = 1 ∧ q.val = 0 := by
    obtain ⟨im', px, h1, -, -, -⟩ := prepObs_pixels obs i.o i.s hstart
    by_cases hz : obs.image.nrow * obs.image.ncol = 0
    · rw [(C50_prep_image obs.image).1 hz] at h1; simp at h1
    · obtain ⟨im2, sky, mn, mx, e, m1, m2, e1, e2, e3, e4, -⟩ := (C50_prep_image obs.image).2 hz
      rw [e, Except.ok.injEq, Prod.mk.injEq] at h1
      obtain ⟨rfl, rfl⟩ := h1
      have : mx = mn := hc _ m2.1 _ m1.1
      rw [this, sub_self, mul_zero] at e4
      obtain ⟨r0, c0, hr0, hc0, e5⟩ := e4.1
      rw [e3] at e5
      intro q hq
      obtain ⟨j, hj, rfl⟩ := List.getElem_of_mem hq
      rw [List.forall₂_iff_get] at hpx
      have hj' : j < (rowMajor obs.image.nrow obs.image.ncol).length := by rw [hpx.1]; exact hj
      obtain ⟨q1, q2, -⟩ := hpx.2 j hj' hj
      have hmem : (rowMajor obs.image.nrow obs.image.ncol)[j] ∈ rowMajor obs.image.nrow obs.image.ncol :=
        List.getElem_mem hj'
      simp only [rowMajor, List.mem_flatMap, List.mem_range, List.mem_map] at hmem
      obtain ⟨r, hr, c, hcc, e6⟩ := hmem
      refine ⟨q1, ?_⟩
      simp only [List.get_eq_getElem] at q2
      rw [q2]
      have : (rowMajor obs.image.nrow obs.image.ncol)[j] = (r, c) := e6.symm
      rw [this]
      simp only
      rw [hc _ ⟨r, c, hr, hcc, rfl⟩ _ ⟨r0, c0, e1 ▸ hr0, e2 ▸ hc0, rfl⟩]
      exact e5
  obtain ⟨n, conv0, b, cv, -, c1, c2, -, hgb, -, -⟩ := C48_fit f obs guess none i res h gm hgm
  obtain ⟨a, ha, hu⟩ := chain_last c2 c1
  have hsame := chain_pixels c2
  have hbz : ∀ q ∈ b.pixels, q.val = 0 := by
    intro q hq
    obtain ⟨j, hj, rfl⟩ := List.getElem_of_mem hq
    rw [List.forall₂_iff_get] at hsame
    have hj' : j < i.px.length := by have := hsame.1; simp only at this; rw [this]; exact hj
    have hs := (hsame.2 j hj' hj).2.2.2.2
    obtain ⟨z1, z2⟩ := hzero _ (List.getElem_mem hj')
    simp only [List.get_eq_getElem] at hs
    rw [hs (by rw [z1]; norm_num), z2]
  have hcu := update_components hu
  have hlen := (C48_fixed f obs guess none i res h gm hgm).1
  have hpos : 0 < b.gmix.length := by
    rw [hgb.length_eq, hlen]
    exact List.length_pos_iff.mpr hg
  rw [List.forall₂_iff_get] at hcu
  obtain ⟨blk, hcomp⟩ := hcu.2 0 (by rw [hcu.1]; exact hpos) hpos
  refine hcomp.2.1 hk ?_
  rw [hcomp.1]
  refine List.sum_eq_zero ?_
  intro x hx
  obtain ⟨q, hq, rfl⟩ := List.mem_map.mp hx
  simp only [share, hbz q hq, zero_mul, zero_div]

/-! ## Cases -/

/-- The hypotheses of the theorems hold for the fit above: it has an input, and it returns a mixture. -/
example : ∃ i : EMInput (onePixel 3) (oneGauss 3) (some 0), i.g0.data ≠ [] ∧ (∀ p ∈ i.px, 0 < p.ierr) ∧
    ∃ res gm, emGo ⟨.fluxonly, 1, 1, 0.1, false⟩ (onePixel 3) (oneGauss 3) (some 0) = some (.ok res) ∧
      res.getGmix = .ok gm := by
  refine ⟨⟨onePixel 3, 0, [⟨0, 0, 1, 3, 1⟩], _, { resetObj .full 6 1 with data := [gauss2dSet 3 0 0 1 0 1] },
    rfl, rfl, by simp only [emPsf, onePixel]; rw [deltaPsf], rfl⟩, by simp, by simp, ?_⟩
  obtain ⟨res, gm, h1, h2, -⟩ := C49_converged_yet_flagged 3 0.1 (by norm_num) (by norm_num)
  exact ⟨res, gm, h1, h2⟩

/-- A constant image. -/
example : ∀ x ∈ PixelValues ⟨2, 3, fun _ _ => 7⟩, ∀ y ∈ PixelValues ⟨2, 3, fun _ _ => 7⟩, x = y := by
  rintro x ⟨_, _, _, _, rfl⟩ y ⟨_, _, _, _, rfl⟩
  rfl

end

end Ngmix.Props
