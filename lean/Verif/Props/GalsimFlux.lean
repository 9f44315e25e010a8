import Verif.Spec.GalsimFlux
import Verif.Proof.PSFFlux
import Verif.Props.PSFFlux

/-!
# C82: template fluxes with GalSim
-/

namespace Ngmix.Props

open Ngmix Ngmix.Spec Ngmix.Proof.PSFFlux

noncomputable section

variable {L : GPLib} {model : Option L.Obj}

/-- One observation: the template, and the template with unit sum. -/
def MixedGood (om : PFObs × PFModel) (t : List ℝ) : Prop :=
  om.2 = .tmpl (t.map Fl.fin) (.fin 1) ∧ t.sum ≠ 0 ∧ t.length = om.1.image.length

theorem mixed_model2 (t : List ℝ) (coords : List Coord) (f : ℝ) (h0 : t.sum ≠ 0) :
    pfModel2 (.tmpl (t.map Fl.fin) (.fin 1)) coords (.fin f) = .ok ((unitSum t).map fun x => .fin (x * f)) := by
  simp only [pfModel2, flSum_fin, Fl.fin_mul, Fl.fin_div _ _ h0, List.map_map, unitSum]
  congr 1
  refine List.map_congr_left fun x _ => ?_
  simp only [Function.comp_apply, Fl.fin_mul]
  congr 1
  field_simp

theorem mixed_passes (l : List (PFObs × PFModel)) (ts : List (List ℝ)) (h : List.Forall₂ MixedGood l ts) :
    ∀ x m : ℝ, pfPass1 l (.fin x) (.fin m) =
      .ok (l, .fin (x + tCorr (pixelsOf (l.map Prod.fst) ts)), .fin (m + tPower (pixelsOf (l.map Prod.fst) ts))) ∧
      ∀ f c : ℝ, pfPass2 (.fin f) l (.fin c) =
        .ok (.fin (c + tChi2 (pixelsOf (l.map Prod.fst) (ts.map unitSum)) f)) := by
  induction h with
  | nil =>
    intro x m
    exact ⟨by simp [pfPass1, pixelsOf, tCorr, tPower], fun f c => by simp [pfPass2, pixelsOf, tChi2]⟩
  | @cons om t l ts hg _ ih =>
    intro x q
    obtain ⟨o, md⟩ := om
    obtain ⟨hmd, h0, hl⟩ := hg
    simp only at hmd hl
    subst hmd
    obtain ⟨e1, e2⟩ := ih (x + ((t.zip (o.image.zip o.weight)).map fun p => p.2.2 * (p.1 * p.2.1)).sum)
      (q + ((t.zip (o.image.zip o.weight)).map fun p => p.2.2 * p.1 ^ 2).sum)
    refine ⟨?_, ?_⟩
    · simp only [pfPass1, pfModel1, Except.bind, List.length_map]
      rw [if_neg (not_not.mpr hl)]
      rw [prod3, prodsq t o.image o.weight hl, flSum_fin, flSum_fin, Fl.fin_add, Fl.fin_add, e1]
      simp only [Except.map, List.map_cons, pixelsOf_cons, tCorr, tPower, List.map_append, List.sum_append,
        add_assoc]
    · intro f c
      simp only [pfPass2, mixed_model2 t o.coords f h0, Except.bind, pfChi2]
      rw [prodchi, flSum_fin, Fl.fin_add, e2]
      simp only [List.map_cons, pixelsOf_cons, tChi2, List.map_append, List.sum_append, add_assoc]

theorem mixed_finish (obs : List PFObs) (px qx : List (ℝ × ℝ × ℝ)) (hd : pfDof obs = tDof px) (totpix : ℕ) :
    (tPower px = 0 → MixedOutcome px qx totpix (pfFinish obs totpix (.fin pfPDEF) (.fin 0) (.fin (tPower px)))) ∧
    (tPower px ≠ 0 → MixedOutcome px qx totpix
      (pfFinish obs totpix (.fin (tCorr px / tPower px)) (.fin (tChi2 qx (tCorr px / tPower px))) (.fin (tPower px)))) := by
  have hp := tDof_pos px
  constructor
  · intro h0
    refine ⟨?_, fun _ => ?_, fun hne => absurd h0 hne⟩
    · simp [pfFinish, h0, hd]
    · simp only [pfFinish, hd, hp, if_true, h0, Fl.isZero_fin, true_or, Fl.fin_div _ _ hp.ne', zero_div]
      simp
  · intro h0
    refine ⟨?_, fun hc => absurd hc h0, fun _ => ⟨tCorr px / tPower px, ?_, by field_simp, ?_, ?_, ?_, ?_⟩⟩
    · simp only [pfFinish, hd]; split_ifs <;> rfl
    · simp only [pfFinish]; split_ifs <;> rfl
    · simp only [pfFinish, hd, hp, if_true, Fl.fin_div _ _ hp.ne']; split_ifs <;> rfl
    · intro ht
      simp [pfFinish, hd, hp, ht]
    · intro ht harg
      have ht' : (totpix : ℝ) - 1 ≠ 0 := by
        rw [sub_ne_zero]; exact_mod_cast ht
      simp only [pfFinish, hd, hp, if_true, Fl.isZero_fin, h0, ht, or_self, if_false, Fl.fin_div _ _ h0,
        Fl.fin_div _ _ ht', Fl.pos_fin]
      rw [if_pos (by rcases harg.eq_or_lt with h | h; exacts [.inl h.symm, .inr h])]
      exact ⟨rfl, by simp [Fl.sqrt, not_lt.mpr harg]⟩
    · intro ht harg
      have ht' : (totpix : ℝ) - 1 ≠ 0 := by
        rw [sub_ne_zero]; exact_mod_cast ht
      simp only [pfFinish, hd, hp, if_true, Fl.isZero_fin, h0, ht, or_self, if_false, Fl.fin_div _ _ h0,
        Fl.fin_div _ _ ht', Fl.pos_fin]
      rw [if_neg (by rintro (h | h) <;> linarith)]
      exact ⟨by simp, rfl⟩

theorem wcsOf_iff (j : Jacobian) (w : Wcs) : WcsOf j w ↔ w = j.galsimWcs := by
  obtain ⟨a, b, c, d⟩ := w
  simp [WcsOf, Jacobian.galsimWcs]

theorem atCentre_iff (nrow ncol : ℕ) (j : Jacobian) (off : ℝ × ℝ) : AtCentre nrow ncol j off ↔ off = gpOffset nrow ncol j := by
  obtain ⟨a, b⟩ := off
  simp only [AtCentre, gpOffset, Prod.mk.injEq]
  norm_num
  constructor
  · rintro ⟨h1, h2⟩; exact ⟨by linarith, by linarith⟩
  · rintro ⟨h1, h2⟩; exact ⟨by linarith, by linarith⟩

theorem psf_of {o : GPObs} {obj : L.Obj} (h : PsfObject L o obj) : gpPsfModel L o = .ok obj := by
  obtain ⟨p, w, off, hp, hw, hoff, h0, hi⟩ := h
  rw [wcsOf_iff] at hw
  rw [atCentre_iff] at hoff
  subst hw; subst hoff
  unfold gpPsfModel
  rw [hp]
  dsimp only
  rw [← hi]
  congr 1
  rw [flSum_fin, Fl.fin_div _ _ h0, List.map_map]
  refine List.map_congr_left fun x _ => ?_
  simp only [Function.comp_apply, Fl.fin_mul]
  congr 1
  field_simp

/-- The observations of an argument. -/
def gpList : GPArg → Option (List GPObs)
  | .obs o => some [o]
  | .obsList l => some l
  | .other => none

theorem unit_of (hmodel : ∀ m, model = some m → ∃ m1, L.unitFlux m = .ok m1) : ∃ mu : Option L.Obj,
    gpUnit L model = .ok mu ∧ (model = none → mu = none) ∧
      (∀ m m1, model = some m → L.unitFlux m = .ok m1 → mu = some m1) := by
  cases model with
  | none => exact ⟨none, rfl, fun _ => rfl, fun m _ h => by cases h⟩
  | some m =>
    obtain ⟨m1, h1⟩ := hmodel m rfl
    refine ⟨some m1, by simp only [gpUnit, h1, Except.map], fun h => (by cases h), ?_⟩
    intro m' m1' hm hm1
    cases hm
    rw [h1] at hm1
    cases hm1
    rfl

theorem build {arg : GPArg} {obs : List GPObs} (harg : gpList arg = some obs) (ts : List (List ℝ))
    (hmodel : ∀ m, model = some m → ∃ m1, L.unitFlux m = .ok m1)
    (h : List.Forall₂ (GPTemplate L model) obs ts) :
    newGPFit L model arg = .ok
      ⟨(obs.map gpObs).zip (ts.map fun t => .tmpl (t.map Fl.fin) (.fin 1)), (obs.map GPObs.npixels).sum⟩ := by
  obtain ⟨mu, hu1, hu2, hu3⟩ := unit_of (L := L) hmodel
  have key : ∃ psfs, gpEach (gpPsfModel L) obs = .ok psfs ∧
      gpEach (fun x => gpTemplate L mu x.1 x.2) (psfs.zip obs) = .ok ts := by
    clear harg
    induction h with
    | nil => exact ⟨[], rfl, rfl⟩
    | @cons o t _ _ ht _ ih =>
      obtain ⟨psfs, e1, e2⟩ := ih
      obtain ⟨psf, obj, w, off, hp, hn, hs, hw, hoff, hd⟩ := ht
      rw [wcsOf_iff] at hw
      rw [atCentre_iff] at hoff
      subst hw; subst hoff
      refine ⟨psf :: psfs, ?_, ?_⟩
      · simp only [gpEach, psf_of hp, e1, Except.bind, Except.map]
      · have : gpTemplate L mu psf o = .ok t := by
          unfold gpTemplate
          cases hm : model with
          | none =>
            rw [hu2 hm, ← hn hm]
            simp only [gpDraw, hd]
          | some m =>
            obtain ⟨m1, h1, h2⟩ := hs m hm
            rw [hu3 m m1 hm h1]
            simp only [h2, Except.bind, gpDraw, hd]
        simp only [List.zip_cons_cons, gpEach, this, e2, Except.bind, Except.map]
  obtain ⟨psfs, e1, e2⟩ := key
  have hl : gpObsList arg = .ok obs := by
    cases arg <;> simp only [gpList, Option.some.injEq, reduceCtorEq] at harg <;> subst harg <;> rfl
  unfold newGPFit
  rw [hu1]
  simp only [Except.bind, hl, e1, e2, Except.map]

theorem gpPixels_eq (obs : List GPObs) (ts : List (List ℝ)) : pixelsOf (obs.map gpObs) ts = gpPixels obs ts := by
  induction obs generalizing ts with
  | nil => simp [pixelsOf, gpPixels]
  | cons o obs ih =>
    cases ts with
    | nil => simp [pixelsOf, gpPixels]
    | cons t ts =>
      have := ih ts
      simp only [pixelsOf, gpPixels, List.map_cons, List.zip_cons_cons, List.flatMap_cons] at this ⊢
      rw [this]
      rfl

/-- C82: with templates that can be drawn, as large as the images and of nonzero sum, the fit succeeds.  The flux is
the best fit of the templates to the data, while chi squared and with it the error of the flux are those of the
templates scaled to unit sum. -/
theorem C82_flux (arg : GPArg) (obs : List GPObs) (harg : gpList arg = some obs) (ts : List (List ℝ))
    (hmodel : ∀ m, model = some m → ∃ m1, L.unitFlux m = .ok m1)
    (h : List.Forall₂ (fun o t => GPTemplate L model o t ∧ t.sum ≠ 0 ∧ t.length = o.img.data.length ∧
      o.weight.length = o.img.data.length) obs ts) :
    ∃ r, gpGo L model arg = .ok r ∧
      MixedOutcome (gpPixels obs ts) (gpPixels obs (ts.map unitSum)) (obs.map GPObs.npixels).sum r := by
  have hb := build (L := L) (model := model) harg ts hmodel (h.imp fun _ _ x => x.1)
  have hlen : obs.length = ts.length := h.length_eq
  have hfst : ((obs.map gpObs).zip (ts.map fun t => PFModel.tmpl (t.map Fl.fin) (.fin 1))).map Prod.fst = obs.map gpObs :=
    List.map_fst_zip (by simp [hlen])
  have hgood : List.Forall₂ MixedGood
      ((obs.map gpObs).zip (ts.map fun t => PFModel.tmpl (t.map Fl.fin) (.fin 1))) ts := by
    clear hb hlen hfst harg hmodel
    induction h with
    | nil => exact .nil
    | cons hx _ ih => exact .cons ⟨rfl, hx.2.1, hx.2.2.1⟩ ih
  obtain ⟨e1, e2⟩ := mixed_passes _ ts hgood 0 0
  rw [hfst] at e1 e2
  have hd : pfDof (obs.map gpObs) = tDof (gpPixels obs ts) := by
    rw [← gpPixels_eq]
    apply pfDof_eq
    rw [List.forall₂_map_left_iff]
    exact h.imp fun _ _ x => x.2.2
  obtain ⟨f1, f2⟩ := mixed_finish (obs.map gpObs) (gpPixels obs ts) (gpPixels obs (ts.map unitSum)) hd
    (obs.map GPObs.npixels).sum
  unfold gpGo
  rw [hb]
  simp only [Except.bind, pfGo, e1, zero_add, Fl.isZero_fin, hfst, gpPixels_eq] at *
  by_cases h0 : tPower (gpPixels obs ts) = 0
  · rw [if_pos h0]
    exact ⟨_, rfl, f1 h0⟩
  · rw [if_neg h0, Fl.fin_div _ _ h0, e2]
    simp only [Except.map, zero_add]
    exact ⟨_, rfl, f2 h0⟩

/-- C82: if the templates have unit sum (the objects lie inside their images), all that is reported is that of the best
fit. -/
theorem C82_unit_sum (obs : List GPObs) (ts : List (List ℝ)) (totpix : ℕ) (r : PFResult)
    (h : MixedOutcome (gpPixels obs ts) (gpPixels obs (ts.map unitSum)) totpix r) (h1 : ∀ t ∈ ts, t.sum = 1) :
    Outcome (gpPixels obs ts) totpix r := by
  have : ts.map unitSum = ts := by
    conv_rhs => rw [← List.map_id ts]
    refine List.map_congr_left fun t ht => ?_
    simp [unitSum, h1 t ht]
  rw [this] at h
  exact ⟨h.dof, h.noPower, h.fit⟩

/-- C82: what is refused, and with which exception. -/
theorem C82_refused (o : GPObs) (os : List GPObs) (hmodel : ∀ m, model = some m → ∃ m1, L.unitFlux m = .ok m1) :
    gpGo L model .other = .error .value ∧
    (o.psf = none → gpGo L model (.obs o) = .error .attribute ∧ gpGo L model (.obsList (o :: os)) = .error .attribute) ∧
    (∀ psf obj w off, PsfObject L o psf → (model = none → obj = psf) →
      (∀ m, model = some m → ∃ m1, L.unitFlux m = .ok m1 ∧ L.convolve m1 psf = .ok obj) →
      WcsOf o.img.jac w → AtCentre o.img.nrow o.img.ncol o.img.jac off →
      L.draw obj o.img.ncol o.img.nrow w off = .error .runtime → gpGo L model (.obs o) = .error .gmixRange) := by
  obtain ⟨mu, hu1, hu2, hu3⟩ := unit_of (L := L) hmodel
  refine ⟨?_, ?_, ?_⟩
  · unfold gpGo newGPFit
    rw [hu1]
    rfl
  · intro hp
    have : gpPsfModel L o = .error .attribute := by unfold gpPsfModel; rw [hp]
    constructor <;>
    · unfold gpGo newGPFit
      rw [hu1]
      simp only [Except.bind, gpObsList, gpEach, this]
  · intro psf obj w off hp hn hs hw hoff hd
    rw [wcsOf_iff] at hw
    rw [atCentre_iff] at hoff
    subst hw; subst hoff
    have : gpTemplate L mu psf o = .error .gmixRange := by
      unfold gpTemplate
      cases hm : model with
      | none =>
        rw [hu2 hm, ← hn hm]
        simp only [gpDraw, hd]
      | some m =>
        obtain ⟨m1, h1, h2⟩ := hs m hm
        rw [hu3 m m1 hm h1]
        simp only [h2, Except.bind, gpDraw, hd]
    unfold gpGo newGPFit
    rw [hu1]
    simp only [Except.bind, gpObsList, gpEach, psf_of hp, Except.map, List.zip_cons_cons, this]

/-- C82: an empty list is fitted and flagged. -/
theorem C82_empty (hmodel : ∀ m, model = some m → ∃ m1, L.unitFlux m = .ok m1) :
    ∃ r, gpGo L model (.obsList []) = .ok r ∧ r.flags = Flags.DIV_ZERO ∧ r.flux = .fin pfPDEF ∧
      r.fluxErr = .fin pfCDEF := by
  obtain ⟨r, hr, ho⟩ := C82_flux (L := L) (model := model) (.obsList []) [] rfl [] hmodel .nil
  obtain ⟨h1, h2, h3, -⟩ := ho.noPower (by simp [gpPixels, tPower])
  exact ⟨r, hr, h3, h1, h2⟩

/-! ### Concrete cases -/

/-- Objects are factors: every template is the factor in every pixel. -/
def toyGP (x : ℝ) : GPLib where
  Obj := ℝ
  unitFlux _ := .ok 1
  interp _ _ _ _ _ := .ok x
  convolve a b := .ok (a * b)
  draw o nx ny _ _ := .ok (List.replicate (nx * ny) o)

/-- Two pixels of value `y`, each of weight one. -/
def toyGPObs (y : ℝ) : GPObs :=
  ⟨⟨1, 2, [y, y], ⟨0, 0, 1, 0, 0, 1, 1, 1⟩⟩, [1, 1], 2, some ⟨1, 1, [1], ⟨0, 0, 1, 0, 0, 1, 1, 1⟩⟩⟩

theorem toyGP_template (x y : ℝ) : GPTemplate (toyGP x) none (toyGPObs y) [x, x] := by
  refine ⟨x, x, Jacobian.galsimWcs ⟨0, 0, 1, 0, 0, 1, 1, 1⟩, gpOffset 1 2 ⟨0, 0, 1, 0, 0, 1, 1, 1⟩,
    ⟨_, Jacobian.galsimWcs ⟨0, 0, 1, 0, 0, 1, 1, 1⟩, gpOffset 1 1 ⟨0, 0, 1, 0, 0, 1, 1, 1⟩, rfl, (wcsOf_iff _ _).mpr rfl,
      (atCentre_iff _ _ _ _).mpr rfl, by simp, rfl⟩,
    fun _ => rfl, fun m h => (by cases h), (wcsOf_iff _ _).mpr rfl, (atCentre_iff _ _ _ _).mpr rfl, rfl⟩

theorem toyGP_run (x y : ℝ) (hx : x ≠ 0) : ∃ r, gpGo (toyGP x) none (.obs (toyGPObs y)) = .ok r ∧
    MixedOutcome (gpPixels [toyGPObs y] [[x, x]]) (gpPixels [toyGPObs y] [[1 / 2, 1 / 2]]) 2 r := by
  obtain ⟨r, hr, ho⟩ := C82_flux (L := toyGP x) (model := none) (.obs (toyGPObs y)) [toyGPObs y] rfl [[x, x]]
    (fun m h => by cases h) (.cons ⟨toyGP_template x y, by simp; intro h; apply hx; linarith, rfl, rfl⟩ .nil)
  refine ⟨r, hr, ?_⟩
  have : [[x, x]].map unitSum = [[(1 / 2 : ℝ), 1 / 2]] := by
    simp only [List.map_cons, List.map_nil, unitSum, List.sum_cons, List.sum_nil, add_zero]
    have : x / (x + x) = 1 / 2 := by field_simp; ring
    rw [this]
  rw [this] at ho
  exact ho

/-- A template of unit sum, data of flux six: the flux is found, and chi squared is zero. -/
example : ∃ r, gpGo (toyGP (1 / 2)) none (.obs (toyGPObs 3)) = .ok r ∧ r.flux = .fin 6 ∧ r.chi2per = .fin 0 ∧
    r.flags = 0 ∧ r.fluxErr = .fin 0 := by
  obtain ⟨r, hr, ho⟩ := toyGP_run (1 / 2) 3 (by norm_num)
  obtain ⟨f, h1, h2, h3, -, h5, -⟩ := ho.fit (by simp [gpPixels, toyGPObs, tPower])
  have hf : f = 6 := by
    simp [gpPixels, toyGPObs, tPower, tCorr] at h2
    linarith
  subst hf
  have hc : tChi2 (gpPixels [toyGPObs 3] [[1 / 2, 1 / 2]]) 6 = 0 := by
    simp [gpPixels, toyGPObs, tChi2]
    norm_num
  rw [hc] at h3 h5
  obtain ⟨h6, h7⟩ := h5 (by norm_num) (by simp)
  exact ⟨r, hr, h1, by rw [h3]; simp, h6, by rw [h7]; simp⟩

/-- C82 (violation): half of the object falls outside the image.  The data are exactly the template with flux six, and
six is the flux that is found, but chi squared is that of a model twice as bright. -/
theorem C82_chi2_wrong : ∃ r, gpGo (toyGP (1 / 4)) none (.obs (toyGPObs (3 / 2))) = .ok r ∧ r.flux = .fin 6 ∧
    tChi2 (gpPixels [toyGPObs (3 / 2)] [[1 / 4, 1 / 4]]) 6 = 0 ∧ r.chi2per = .fin (9 / 2) := by
  obtain ⟨r, hr, ho⟩ := toyGP_run (1 / 4) (3 / 2) (by norm_num)
  obtain ⟨f, h1, h2, h3, -⟩ := ho.fit (by simp [gpPixels, toyGPObs, tPower])
  have hf : f = 6 := by
    simp [gpPixels, toyGPObs, tPower, tCorr] at h2
    linarith
  subst hf
  refine ⟨r, hr, h1, ?_, ?_⟩
  · simp [gpPixels, toyGPObs, tChi2]
    norm_num
  · rw [h3]
    have hd : tDof (gpPixels [toyGPObs (3 / 2)] [[1 / 4, 1 / 4]]) = 1 := by
      simp [gpPixels, toyGPObs, tDof, nPositive]
      norm_num
    have hc : tChi2 (gpPixels [toyGPObs (3 / 2)] [[1 / 2, 1 / 2]]) 6 = 9 / 2 := by
      simp [gpPixels, toyGPObs, tChi2]
      norm_num
    rw [hd, hc, div_one]

end

end Ngmix.Props
