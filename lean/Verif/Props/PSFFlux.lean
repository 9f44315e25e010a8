import Verif.Proof.PSFFlux

/-!
# C46: template and psf fluxes

`Spec/PSFFlux.lean` holds chi-squared, its power and correlation sums and the meaning of the reported
numbers (`Outcome`).
-/

namespace Ngmix.Props

open Ngmix Ngmix.Spec Ngmix.Proof.PSFFlux

noncomputable section

/-- The unit-flux template made from a template image: normalised by its sum, or as it is when a psf is
not to be normalised. -/
def unitTemplate (doPsf normalizePsf : Bool) (t : List ℝ) : List ℝ :=
  if doPsf && !normalizePsf then t else t.map fun x => x / t.sum

theorem each_ok (f : PFObs → Except PyErr PFModel) : ∀ (obs : List PFObs) (mds : List PFModel),
    List.Forall₂ (fun o md => f o = .ok md) obs mds → pfEach f obs = .ok mds := by
  intro obs mds h
  induction h with
  | nil => rfl
  | cons h _ ih => simp [pfEach, h, ih, Except.bind, Except.map]

theorem zip_fst {α β : Type} : ∀ (a : List α) (b : List β), a.length = b.length → (a.zip b).map Prod.fst = a :=
  fun _ _ h => List.map_fst_zip (le_of_eq h)

/-- C46: with template images of nonzero sum, one per observation and as large as its image, the fit
succeeds and reports the outcome for the templates of unit flux. -/
theorem C46_templates (obs : List PFObs) (ts : List (List ℝ)) (doPsf nz : Bool) (hne : obs ≠ [])
    (hfirst : ∀ o ∈ obs.head?, ∀ s, pfSource doPsf o = .ok s → s.gmix = none)
    (h : List.Forall₂ (fun o (t : List ℝ) => (∃ s, pfSource doPsf o = .ok s ∧ s.template = some t) ∧ t.sum ≠ 0 ∧
      t.length = o.image.length ∧ o.weight.length = o.image.length) obs ts) :
    ∃ r, psfFlux obs doPsf nz = .ok r ∧
      Outcome (pixelsOf obs (ts.map (unitTemplate doPsf nz))) (obs.map PFObs.npixels).sum r := by
  have hbuild : List.Forall₂ (fun o (t : List ℝ) => pfTemplate doPsf nz o =
      .ok (.tmpl ((unitTemplate doPsf nz t).map Fl.fin) (.fin (unitTemplate doPsf nz t).sum)) ∧
      (unitTemplate doPsf nz t).sum ≠ 0 ∧ (unitTemplate doPsf nz t).length = o.image.length ∧
      o.weight.length = o.image.length) obs ts := by
    refine h.imp ?_
    rintro o t ⟨⟨s, hs, ht⟩, h0, hl, hw⟩
    have hsum : ((t.map fun x => x / t.sum).sum : ℝ) = 1 := by
      have : (t.map fun x => x / t.sum) = t.map fun x => x * (1 / t.sum) :=
        List.map_congr_left fun x _ => by ring
      rw [this, List.sum_map_mul_right, List.map_id']
      field_simp
    unfold unitTemplate
    by_cases hc : (doPsf && !nz) = true
    · rw [if_pos hc]
      exact ⟨by simp only [pfTemplate, hs, ht, Except.bind, hc, if_true, flSum_fin], h0, hl, hw⟩
    · rw [if_neg hc]
      refine ⟨?_, by rw [hsum]; exact one_ne_zero, by simpa using hl, hw⟩
      simp only [pfTemplate, hs, ht, Except.bind]
      rw [if_neg hc, flSum_fin, Fl.fin_div _ _ h0, hsum, List.map_map, List.map_map]
      congr 2
      refine List.map_congr_left fun x _ => ?_
      simp only [Function.comp_apply, Fl.fin_mul]
      congr 1
      ring
  have hlen := h.length_eq
  set mds := ts.map fun t => PFModel.tmpl ((unitTemplate doPsf nz t).map Fl.fin)
    (.fin (unitTemplate doPsf nz t).sum) with hmds
  have heach : pfEach (pfTemplate doPsf nz) obs = .ok mds := by
    refine each_ok _ _ _ ?_
    rw [hmds, List.forall₂_map_right_iff]
    exact hbuild.imp fun o t h => h.1
  have hnew : newPFFit obs doPsf nz = .ok ⟨obs.zip mds, (obs.map PFObs.npixels).sum⟩ := by
    cases obs with
    | nil => exact absurd rfl hne
    | cons o os =>
      cases h with
      | cons ho _ =>
        obtain ⟨⟨s, hs, ht⟩, -⟩ := ho
        have hg := hfirst o (by simp) s hs
        simp only [newPFFit, hs, Except.bind, hg, Option.isSome_none, Bool.false_eq_true, if_false, Option.isNone_none,
          ht, Option.isNone_some, Bool.and_false, heach, Except.map]
  have hzip : (obs.zip mds).map Prod.fst = obs := zip_fst _ _ (by rw [hmds]; simpa using hlen)
  have := go_outcome ⟨obs.zip mds, (obs.map PFObs.npixels).sum⟩ (ts.map (unitTemplate doPsf nz)) ?_ ?_
  · obtain ⟨r, hr, ho⟩ := this
    refine ⟨r, by simp [psfFlux, hnew, Except.bind, hr], ?_⟩
    simp only [hzip] at ho
    exact ho
  · rw [hmds]
    clear heach hnew hzip hfirst hne h
    induction hbuild with
    | nil => exact .nil
    | cons hh _ ih =>
      refine .cons ⟨linear_tmpl _ _ _ rfl hh.2.1, hh.2.2.1⟩ (ih (by simpa using hlen) rfl)
  · intro om hom
    have hm := (List.of_mem_zip hom).1
    obtain ⟨i, hi, e⟩ := List.getElem_of_mem hm
    rw [← e]
    exact ((List.forall₂_iff_get.mp hbuild).2 i hi (by omega)).2.2.2

/-- A mixture that rendering accepts: a settled full mixture, or one of a model class as left by any
history of construction, `fill` and `set_cen`; its flux is not zero. -/
def Renderable (g : GMixObj) : Prop :=
  (g.kind = .full ∧ Settled g.data ∨ ModelReach g) ∧ Flux g.data ≠ 0 ∧ ∀ a ∈ g.data, Usable a

/-- The unit-flux image of a mixture: fluxes divided by the total flux unless a psf is not to be
normalised. -/
def unitImage (doPsf normalizePsf : Bool) (g : GMixObj) (coords : List Coord) : List ℝ :=
  if doPsf && !normalizePsf then imageOf g.data coords
  else (imageOf g.data coords).map fun x => x / Flux g.data

/-- C46: with mixtures, the fit succeeds and reports the outcome for the mixtures rendered (with the
exact exponential) at unit flux. -/
theorem C46_mixtures (obs : List PFObs) (gs : List GMixObj) (doPsf nz : Bool) (hne : obs ≠ [])
    (h : List.Forall₂ (fun o g => (∃ s, pfSource doPsf o = .ok s ∧ s.gmix = some g) ∧ Renderable g ∧
      o.coords.length = o.image.length ∧ o.weight.length = o.image.length) obs gs) :
    ∃ r, psfFlux obs doPsf nz = .ok r ∧
      Outcome (pixelsOf obs ((obs.zip gs).map fun og => unitImage doPsf nz og.2 og.1.coords))
        (obs.map PFObs.npixels).sum r := by
  have hone : ∀ o g, ((∃ s, pfSource doPsf o = .ok s ∧ s.gmix = some g) ∧ Renderable g ∧
      o.coords.length = o.image.length ∧ o.weight.length = o.image.length) →
      ∃ md, pfGmix doPsf nz o = .ok md ∧ Linear md o.coords (unitImage doPsf nz g o.coords) ∧
        (unitImage doPsf nz g o.coords).length = o.image.length := by
    rintro o g ⟨⟨s, hs, hg⟩, ⟨hkind, hflux, hu⟩, hl, hw⟩
    have hsrc : (if doPsf then o.psf else some o.self).bind PFTmplSrc.gmix = some g := by
      unfold pfSource at hs
      cases doPsf with
      | true =>
        simp only [if_true] at hs ⊢
        cases hp : o.psf with
        | none => rw [hp] at hs; simp at hs
        | some q =>
          rw [hp] at hs
          simp only [Except.ok.injEq] at hs
          subst hs
          exact hg
      | false =>
        simp only [Bool.false_eq_true, if_false, Except.ok.injEq] at hs ⊢
        subst hs
        exact hg
    obtain ⟨c, hc, hdata, hcop⟩ : ∃ c, copyGMix g = .ok c ∧ c.data = g.data ∧ Copies c := by
      rcases hkind with ⟨hk, hset⟩ | hm
      · exact copies_full g hk hset
      · exact ⟨g, (copies_model g hm).1, rfl, (copies_model g hm).2⟩
    have hlen : ∀ d, (imageOf d o.coords).length = o.image.length := by
      intro d; rw [imageOf, List.length_map, hl]
    have hpsum : psum c.data ≠ 0 := by rw [hdata]; exact hflux
    have huc : ∀ a ∈ c.data, Usable a := by rw [hdata]; exact hu
    unfold unitImage
    by_cases hcond : (doPsf && !nz) = true
    · rw [if_pos hcond]
      refine ⟨.gm c (.fin (psum c.data)), ?_, ?_, hlen _⟩
      · simp only [pfGmix, hsrc, hc, Except.map, hcond, if_true]
      · rw [← hdata]
        exact linear_gm c c hcop _ hpsum _ (.inl rfl) rfl huc
    · rw [if_neg hcond]
      have hsf : setFluxObj c 1 = some { c with data := c.data.map fun g =>
          { g with p := g.p * (1 / psum c.data), normSet := false } } := by
        simp [setFluxObj, setFlux, hpsum]
      have hprop : List.Forall₂ (Propor (1 / psum c.data)) c.data (c.data.map fun g =>
          { g with p := g.p * (1 / psum c.data), normSet := false }) := by
        rw [List.forall₂_map_right_iff]
        exact List.forall₂_same.mpr fun g _ => ⟨by simp only; ring, rfl, rfl, rfl, rfl, rfl⟩
      refine ⟨.gm { c with data := c.data.map fun g =>
          { g with p := g.p * (1 / psum c.data), normSet := false } } (.fin (psum (c.data.map fun g =>
          { g with p := g.p * (1 / psum c.data), normSet := false }))), ?_, ?_, by rw [List.length_map, hlen]⟩
      · simp only [pfGmix, hsrc, hc, Except.map]
        rw [if_neg hcond, hsf]
      · have hl2 := linear_gm c _ hcop (psum (c.data.map fun g =>
          { g with p := g.p * (1 / psum c.data), normSet := false })) (by
            rw [prop_psum hprop, one_div, inv_mul_cancel₀ hpsum]; exact one_ne_zero) o.coords (.inr hsf) rfl huc
        rw [prop_image hprop] at hl2
        rw [← hdata]
        convert hl2 using 3
        rw [show Flux c.data = psum c.data from rfl]
        ring
  have hlen := h.length_eq
  obtain ⟨mds, hmds⟩ : ∃ mds, List.Forall₂ (fun (og : PFObs × GMixObj) md => pfGmix doPsf nz og.1 = .ok md ∧
      Linear md og.1.coords (unitImage doPsf nz og.2 og.1.coords) ∧
      (unitImage doPsf nz og.2 og.1.coords).length = og.1.image.length) (obs.zip gs) mds := by
    clear hne
    induction h with
    | nil => exact ⟨[], .nil⟩
    | @cons o g _ _ hh _ ih =>
      obtain ⟨mds, hm⟩ := ih (by simpa using hlen)
      obtain ⟨md, h1⟩ := hone o g hh
      exact ⟨md :: mds, .cons h1 hm⟩
  have heach : pfEach (pfGmix doPsf nz) obs = .ok mds := by
    refine each_ok _ _ _ ?_
    have := hmds.imp fun og md h => h.1
    rw [← List.forall₂_map_left_iff (f := Prod.fst) (R := fun o md => pfGmix doPsf nz o = .ok md),
      zip_fst _ _ hlen] at this
    exact this
  have hl2 : obs.length = mds.length := by
    have := hmds.length_eq
    rw [List.length_zip] at this
    omega
  have hnew : newPFFit obs doPsf nz = .ok ⟨obs.zip mds, (obs.map PFObs.npixels).sum⟩ := by
    cases obs with
    | nil => exact absurd rfl hne
    | cons o os =>
      cases h with
      | cons ho _ =>
        obtain ⟨⟨s, hs, ht⟩, -⟩ := ho
        simp only [newPFFit, hs, Except.bind, ht, Option.isSome_some, if_true, Option.isNone_some,
          Bool.false_and, heach, Except.map, Bool.false_eq_true, if_false]
  have hzip : (obs.zip mds).map Prod.fst = obs := zip_fst _ _ hl2
  have := go_outcome ⟨obs.zip mds, (obs.map PFObs.npixels).sum⟩
    ((obs.zip gs).map fun og => unitImage doPsf nz og.2 og.1.coords) ?_ ?_
  · obtain ⟨r, hr, ho⟩ := this
    refine ⟨r, by simp [psfFlux, hnew, Except.bind, hr], ?_⟩
    simp only [hzip] at ho
    exact ho
  · rw [List.forall₂_map_right_iff]
    refine List.forall₂_iff_get.mpr ⟨by simp only [List.length_zip]; omega, fun i h1 h2 => ?_⟩
    obtain ⟨-, k2, k3⟩ := (List.forall₂_iff_get.mp hmds).2 i h2 (by
      simp only [List.length_zip] at h1; omega)
    simp only [List.get_eq_getElem, List.getElem_zip] at k2 k3 ⊢
    exact ⟨k2, k3⟩
  · intro om hom
    have hm := (List.of_mem_zip hom).1
    obtain ⟨i, hi, e⟩ := List.getElem_of_mem hm
    rw [← e]
    exact ((List.forall₂_iff_get.mp h).2 i hi (by omega)).2.2.2

theorem chi2_expand (px : List (ℝ × ℝ × ℝ)) (f g : ℝ) :
    tChi2 px g = tChi2 px f + 2 * (g - f) * (f * tPower px - tCorr px) + (g - f) ^ 2 * tPower px := by
  unfold tChi2 tPower tCorr
  induction px with
  | nil => simp
  | cons p px ih =>
    simp only [List.map_cons, List.sum_cons, ih]
    ring

theorem nonneg_sums (px : List (ℝ × ℝ × ℝ)) (hw : ∀ p ∈ px, 0 ≤ p.2.2) :
    0 ≤ tPower px ∧ (∀ f, 0 ≤ tChi2 px f) ∧ (tPower px ≠ 0 → 0 < nPositive px) := by
  classical
  induction px with
  | nil => simp [tPower, tChi2]
  | cons p px ih =>
    obtain ⟨h1, h2, h3⟩ := ih fun q hq => hw q (List.mem_cons_of_mem _ hq)
    have hp := hw p List.mem_cons_self
    simp only [tPower, tChi2, nPositive] at h1 h2 h3 ⊢
    simp only [List.map_cons, List.sum_cons]
    refine ⟨by positivity, fun f => add_nonneg (by positivity) (h2 f), fun hne => ?_⟩
    by_cases h0 : 0 < p.2.2
    · rw [List.filter_cons, if_pos (by simpa using h0)]; simp
    · have : p.2.2 = 0 := le_antisymm (not_lt.mp h0) hp
      rw [this, zero_mul, zero_add] at hne
      rw [List.filter_cons]
      have := h3 hne
      rw [if_neg (by simpa using h0)]
      exact this

/-- C46: with weights that are not negative the reported flux is the unique minimum of chi-squared,
the reported chi-squared is that minimum, and the fit is flagged exactly when the template has no power
or there is a single pixel; the flux error is otherwise the usual one. (`nPositive px ≤ totpix`: the
pixels of positive weight are stored.) -/
theorem C46_optimum (px : List (ℝ × ℝ × ℝ)) (totpix : ℕ) (r : PFResult) (h : Outcome px totpix r)
    (hw : ∀ p ∈ px, 0 ≤ p.2.2) (ht : nPositive px ≤ totpix) :
    (tPower px ≠ 0 → ∃ f, r.flux = .fin f ∧ (∀ g, tChi2 px f ≤ tChi2 px g) ∧
      (∀ g, tChi2 px g = tChi2 px f → g = f) ∧ r.chi2per = .fin (tChi2 px f / tDof px) ∧
      (totpix ≠ 1 → r.fluxErr = .fin (Real.sqrt (tChi2 px f / tPower px / ((totpix : ℝ) - 1))))) ∧
    (r.flags = 0 ↔ tPower px ≠ 0 ∧ totpix ≠ 1) := by
  obtain ⟨hp, hc, hpos⟩ := nonneg_sums px hw
  have harg : ∀ f, tPower px ≠ 0 → totpix ≠ 1 → 0 ≤ tChi2 px f / tPower px / ((totpix : ℝ) - 1) := by
    intro f h0 h1
    have : 1 ≤ totpix := le_trans (hpos h0) ht
    have : (1 : ℝ) ≤ totpix := by exact_mod_cast this
    exact div_nonneg (div_nonneg (hc f) hp) (by linarith)
  constructor
  · intro h0
    obtain ⟨f, h1, h2, h3, h4, h5, -⟩ := h.fit h0
    have hpp : 0 < tPower px := lt_of_le_of_ne hp (Ne.symm h0)
    refine ⟨f, h1, fun g => ?_, fun g hg => ?_, h3, fun hne => (h5 hne (harg f h0 hne)).2⟩
    · rw [chi2_expand px f g, h2]
      nlinarith [mul_nonneg (sq_nonneg (g - f)) hp]
    · rw [chi2_expand px f g, h2] at hg
      have : (g - f) ^ 2 * tPower px = 0 := by linarith
      rcases mul_eq_zero.mp this with h | h
      · have := pow_eq_zero_iff (two_ne_zero) |>.mp h
        linarith
      · exact absurd h h0
  · by_cases h0 : tPower px = 0
    · obtain ⟨-, -, hf, -⟩ := h.noPower h0
      simp [hf, h0, Flags.DIV_ZERO]
    · obtain ⟨f, h1, h2, h3, h4, h5, -⟩ := h.fit h0
      by_cases hne : totpix = 1
      · simp [(h4 hne).1, hne, Flags.DIV_ZERO]
      · simp [(h5 hne (harg f h0 hne)).1, hne, h0]

/-- C46: multiplying all images by `c` multiplies the flux by `c` and
chi-squared by `c^2`; the pixels of the scaled observations are the scaled pixels. -/
theorem C46_scaling (obs : List PFObs) (ms : List (List ℝ)) (totpix : ℕ) (c : ℝ) (r r' : PFResult)
    (h : Outcome (pixelsOf obs ms) totpix r) (h' : Outcome (pixelsOf (scaleImages c obs) ms) totpix r')
    (h0 : tPower (pixelsOf obs ms) ≠ 0) :
    ∃ f x : ℝ, r.flux = .fin f ∧ r'.flux = .fin (c * f) ∧ r.chi2per = .fin x ∧ r'.chi2per = .fin (c ^ 2 * x) ∧
      r'.dof = r.dof := by
  have hpix : pixelsOf (scaleImages c obs) ms = (pixelsOf obs ms).map fun p => (p.1, c * p.2.1, p.2.2) := by
    have hz : ∀ (m y w : List ℝ), m.zip ((y.map fun y => c * y).zip w) =
        (m.zip (y.zip w)).map fun p => (p.1, c * p.2.1, p.2.2) := by
      intro m
      induction m with
      | nil => simp
      | cons a m ih => intro y w; cases y <;> cases w <;> simp [ih]
    unfold pixelsOf scaleImages
    clear h h' h0
    induction obs generalizing ms with
    | nil => simp
    | cons o obs ih => cases ms <;> simp_all
  have hpow : tPower (pixelsOf (scaleImages c obs) ms) = tPower (pixelsOf obs ms) := by
    rw [hpix]; simp [tPower, List.map_map, Function.comp_def]
  have hcor : tCorr (pixelsOf (scaleImages c obs) ms) = c * tCorr (pixelsOf obs ms) := by
    rw [hpix]
    simp only [tCorr, List.map_map, Function.comp_def]
    rw [← List.sum_map_mul_left]
    congr 1
    refine List.map_congr_left fun p _ => by ring
  have hchi : ∀ f, tChi2 (pixelsOf (scaleImages c obs) ms) (c * f) = c ^ 2 * tChi2 (pixelsOf obs ms) f := by
    intro f
    rw [hpix]
    simp only [tChi2, List.map_map, Function.comp_def]
    rw [← List.sum_map_mul_left]
    congr 1
    refine List.map_congr_left fun p _ => by ring
  have hdof : tDof (pixelsOf (scaleImages c obs) ms) = tDof (pixelsOf obs ms) := by
    classical
    have : nPositive (pixelsOf (scaleImages c obs) ms) = nPositive (pixelsOf obs ms) := by
      rw [hpix]
      simp only [nPositive, List.filter_map, List.length_map, Function.comp_def]
    simp only [tDof, this]
  obtain ⟨f, e1, e2, e3, -⟩ := h.fit h0
  obtain ⟨f', e1', e2', e3', -⟩ := h'.fit (by rw [hpow]; exact h0)
  rw [hpow, hcor, ← e2] at e2'
  have hf : f' = c * f := by
    apply mul_right_cancel₀ h0
    rw [e2']; ring
  subst hf
  refine ⟨f, _, e1, e1', e3, ?_, by rw [h.dof, h'.dof, hdof]⟩
  rw [e3', hchi, hdof, mul_div_assoc]

/-- C46: the fit in another unit of brightness, with weights normalised otherwise: flux and error change with the unit, and
neither depends on the normalisation of the weights. -/
theorem C46_units (obs : List PFObs) (ms : List (List ℝ)) (totpix : ℕ) (c j : ℝ) (hc : c ≠ 0) (hj : 0 < j) (r r' : PFResult)
    (h : Outcome (pixelsOf obs ms) totpix r) (h' : Outcome (pixelsOf (inUnit c j obs) ms) totpix r') : InUnit c j r r' := by
  have hpix : pixelsOf (inUnit c j obs) ms = (pixelsOf obs ms).map fun p => (p.1, c * p.2.1, j * p.2.2) := by
    have hz : ∀ (m y w : List ℝ), m.zip ((y.map fun y => c * y).zip (w.map fun w => j * w)) =
        (m.zip (y.zip w)).map fun p => (p.1, c * p.2.1, j * p.2.2) := by
      intro m
      induction m with
      | nil => simp
      | cons a m ih => intro y w; cases y <;> cases w <;> simp [ih]
    unfold pixelsOf inUnit
    clear h h'
    induction obs generalizing ms with
    | nil => simp
    | cons o obs ih => cases ms <;> simp_all
  have hpow : tPower (pixelsOf (inUnit c j obs) ms) = j * tPower (pixelsOf obs ms) := by
    rw [hpix]
    simp only [tPower, List.map_map, Function.comp_def]
    rw [← List.sum_map_mul_left]
    congr 1
    refine List.map_congr_left fun p _ => by ring
  have hcor : tCorr (pixelsOf (inUnit c j obs) ms) = c * j * tCorr (pixelsOf obs ms) := by
    rw [hpix]
    simp only [tCorr, List.map_map, Function.comp_def]
    rw [← List.sum_map_mul_left]
    congr 1
    refine List.map_congr_left fun p _ => by ring
  have hchi : ∀ f, tChi2 (pixelsOf (inUnit c j obs) ms) (c * f) = c ^ 2 * j * tChi2 (pixelsOf obs ms) f := by
    intro f
    rw [hpix]
    simp only [tChi2, List.map_map, Function.comp_def]
    rw [← List.sum_map_mul_left]
    congr 1
    refine List.map_congr_left fun p _ => by ring
  have hdof : tDof (pixelsOf (inUnit c j obs) ms) = tDof (pixelsOf obs ms) := by
    classical
    have : nPositive (pixelsOf (inUnit c j obs) ms) = nPositive (pixelsOf obs ms) := by
      rw [hpix]
      simp only [nPositive, List.filter_map, List.length_map, Function.comp_def]
      congr 1
      refine List.filter_congr fun p _ => ?_
      simp [hj]
    simp only [tDof, this]
  have hd : r'.dof = r.dof := by rw [h.dof, h'.dof, hdof]
  by_cases h0 : tPower (pixelsOf obs ms) = 0
  · obtain ⟨a1, a2, a3, a4⟩ := h.noPower h0
    obtain ⟨b1, b2, b3, b4⟩ := h'.noPower (by rw [hpow, h0, mul_zero])
    refine ⟨by rw [a3, b3], hd, .inl ⟨a1, a2, a3, a4, ?_⟩⟩
    cases r; cases r'
    simp_all
  · have h0' : tPower (pixelsOf (inUnit c j obs) ms) ≠ 0 := by rw [hpow]; exact mul_ne_zero hj.ne' h0
    obtain ⟨f, e1, e2, e3, e4, e5, e6⟩ := h.fit h0
    obtain ⟨f', e1', e2', e3', e4', e5', e6'⟩ := h'.fit h0'
    rw [hpow, hcor, ← e2] at e2'
    have hf : f' = c * f := by
      apply mul_right_cancel₀ (mul_ne_zero hj.ne' h0)
      rw [e2']; ring
    subst hf
    have harg : tChi2 (pixelsOf (inUnit c j obs) ms) (c * f) / tPower (pixelsOf (inUnit c j obs) ms) / ((totpix : ℝ) - 1) =
        c ^ 2 * (tChi2 (pixelsOf obs ms) f / tPower (pixelsOf obs ms) / ((totpix : ℝ) - 1)) := by
      rw [hchi, hpow]
      have := hj.ne'
      field_simp
    rw [harg] at e5' e6'
    have hc2 : 0 < c ^ 2 := by positivity
    have hx : r'.chi2per = .fin (c ^ 2 * j * (tChi2 (pixelsOf obs ms) f / tDof (pixelsOf obs ms))) := by
      rw [e3', hchi, hdof, mul_div_assoc]
    generalize tChi2 (pixelsOf obs ms) f / tPower (pixelsOf obs ms) / ((totpix : ℝ) - 1) = A at e5 e6 e5' e6'
    by_cases ht : totpix = 1
    · refine ⟨by rw [(e4 ht).1, (e4' ht).1], hd, .inr ⟨f, _, e1, e1', e3, hx, .inl ⟨?_, (e4 ht).2, (e4' ht).2⟩⟩⟩
      rw [(e4 ht).1]; decide
    · rcases le_or_gt 0 A with hA | hA
      · have hA' : 0 ≤ c ^ 2 * A := by positivity
        refine ⟨by rw [(e5 ht hA).1, (e5' ht hA').1], hd, .inr ⟨f, _, e1, e1', e3, hx, .inr ⟨_, (e5 ht hA).1, (e5 ht hA).2, ?_⟩⟩⟩
        rw [(e5' ht hA').2, Real.sqrt_mul hc2.le, Real.sqrt_sq_eq_abs]
      · have hA' : c ^ 2 * A < 0 := mul_neg_of_pos_of_neg hc2 hA
        refine ⟨by rw [(e6 ht hA).1, (e6' ht hA').1], hd, .inr ⟨f, _, e1, e1', e3, hx, .inl ⟨?_, (e6 ht hA).2, (e6' ht hA').2⟩⟩⟩
        rw [(e6 ht hA).1]; decide

/-- C46: the fit of template images in another unit of brightness. -/
theorem C46_units_templates (obs : List PFObs) (ts : List (List ℝ)) (doPsf nz : Bool) (hne : obs ≠ [])
    (hfirst : ∀ o ∈ obs.head?, ∀ s, pfSource doPsf o = .ok s → s.gmix = none)
    (h : List.Forall₂ (fun o (t : List ℝ) => (∃ s, pfSource doPsf o = .ok s ∧ s.template = some t) ∧ t.sum ≠ 0 ∧
      t.length = o.image.length ∧ o.weight.length = o.image.length) obs ts) (c j : ℝ) (hc : c ≠ 0) (hj : 0 < j) :
    ∃ r r', psfFlux obs doPsf nz = .ok r ∧ psfFlux (inUnit c j obs) doPsf nz = .ok r' ∧ InUnit c j r r' := by
  obtain ⟨r, h1, h2⟩ := C46_templates obs ts doPsf nz hne hfirst h
  obtain ⟨r', h1', h2'⟩ := C46_templates (inUnit c j obs) ts doPsf nz (by simpa [inUnit] using hne)
    (by
      cases obs with
      | nil => exact absurd rfl hne
      | cons a l => simpa [inUnit, pfSource] using hfirst)
    (by
      unfold inUnit
      rw [List.forall₂_map_left_iff]
      refine h.imp fun o t ht => ?_
      simpa [pfSource] using ht)
  refine ⟨r, r', h1, h1', C46_units obs _ _ c j hc hj r r' h2 ?_⟩
  have : (inUnit c j obs).map PFObs.npixels = obs.map PFObs.npixels := by simp [inUnit, Function.comp_def]
  rwa [this] at h2'

/-- C46: the fit of the psf mixtures in another unit of brightness. -/
theorem C46_units_mixtures (obs : List PFObs) (gs : List GMixObj) (doPsf nz : Bool) (hne : obs ≠ [])
    (h : List.Forall₂ (fun o g => (∃ s, pfSource doPsf o = .ok s ∧ s.gmix = some g) ∧ Renderable g ∧
      o.coords.length = o.image.length ∧ o.weight.length = o.image.length) obs gs) (c j : ℝ) (hc : c ≠ 0) (hj : 0 < j) :
    ∃ r r', psfFlux obs doPsf nz = .ok r ∧ psfFlux (inUnit c j obs) doPsf nz = .ok r' ∧ InUnit c j r r' := by
  obtain ⟨r, h1, h2⟩ := C46_mixtures obs gs doPsf nz hne h
  obtain ⟨r', h1', h2'⟩ := C46_mixtures (inUnit c j obs) gs doPsf nz (by simpa [inUnit] using hne)
    (by
      unfold inUnit
      rw [List.forall₂_map_left_iff]
      refine h.imp fun o t ht => ?_
      simpa [pfSource] using ht)
  refine ⟨r, r', h1, h1', C46_units obs _ _ c j hc hj r r' h2 ?_⟩
  have : (inUnit c j obs).map PFObs.npixels = obs.map PFObs.npixels := by simp [inUnit, Function.comp_def]
  rw [this] at h2'
  have e : ((inUnit c j obs).zip gs).map (fun og => unitImage doPsf nz og.2 og.1.coords) =
      (obs.zip gs).map fun og => unitImage doPsf nz og.2 og.1.coords := by
    unfold inUnit
    rw [List.zip_map_left, List.map_map]
    rfl
  rwa [e] at h2'

/-- C46: a normalised template may be given in any units. -/
theorem C46_template_units (obs : List PFObs) (doPsf nz : Bool) (k : ℝ) (hk : k ≠ 0)
    (hn : (doPsf && !nz) = false)
    (hs : ∀ o ∈ obs, ∀ s, pfSource doPsf o = .ok s → ∀ t, s.template = some t → t.sum ≠ 0) :
    ∀ r, psfFlux (scaleTemplates k obs) doPsf nz = .ok r ↔ psfFlux obs doPsf nz = .ok r := by
  set s := fun t : PFTmplSrc => { t with template := t.template.map fun (l : List ℝ) => l.map fun x => k * x } with hsdef
  set sc := fun o : PFObs => { o with self := s o.self, psf := o.psf.map s } with hscdef
  have hsc : scaleTemplates k obs = obs.map sc := rfl
  have hsrc : ∀ o, pfSource doPsf (sc o) = (pfSource doPsf o).map s := by
    intro o
    unfold pfSource
    cases doPsf
    · rfl
    · simp only [hscdef, if_true]
      cases o.psf <;> rfl
  have hG : ∀ o, pfGmix doPsf nz (sc o) = pfGmix doPsf nz o := by
    intro o
    have : (if doPsf then (sc o).psf else some (sc o).self).bind PFTmplSrc.gmix =
        (if doPsf then o.psf else some o.self).bind PFTmplSrc.gmix := by
      cases doPsf
      · rfl
      · simp only [hscdef, if_true]
        cases o.psf <;> rfl
    unfold pfGmix
    rw [this]
  have hT : ∀ o ∈ obs, pfTemplate doPsf nz (sc o) = pfTemplate doPsf nz o := by
    intro o ho
    unfold pfTemplate
    rw [hsrc]
    rcases h1 : pfSource doPsf o with e | q
    · rfl
    · simp only [Except.map, Except.bind, hsdef]
      cases h2 : q.template with
      | none => rfl
      | some t =>
        have h0 := hs o ho q h1 t h2
        have hsum : (t.map fun x => k * x).sum = k * t.sum := by simpa using List.sum_map_mul_left t id k
        simp only [Option.map_some, hn, Bool.false_eq_true, if_false]
        rw [flSum_fin, flSum_fin, hsum, Fl.fin_div _ _ h0, Fl.fin_div _ _ (mul_ne_zero hk h0)]
        simp only [List.map_map]
        congr 2
        refine List.map_congr_left fun x _ => ?_
        simp only [Function.comp_apply, Fl.fin_mul]
        congr 1
        field_simp
  have hE : ∀ f, (∀ o ∈ obs, f (sc o) = f o) → pfEach f (obs.map sc) = pfEach f obs := by
    intro f hf
    clear hsc hT hs
    induction obs with
    | nil => rfl
    | cons o os ih =>
      simp only [List.map_cons, pfEach, hf o List.mem_cons_self, ih fun o ho => hf o (List.mem_cons_of_mem _ ho)]
  -- the passes do not look at the templates of the observations
  have h1 : ∀ l : List (PFObs × PFModel), ∀ x m, pfPass1 (l.map fun om => (sc om.1, om.2)) x m =
      (pfPass1 l x m).map fun q => (q.1.map fun om => (sc om.1, om.2), q.2) := by
    intro l
    induction l with
    | nil => intro x m; rfl
    | cons om l ih =>
      intro x m
      obtain ⟨o, md⟩ := om
      simp only [List.map_cons, pfPass1]
      rcases h1 : pfModel1 md o.coords with e | q
      · simp [hscdef, h1, Except.bind, Except.map]
      · simp only [hscdef, h1, Except.bind]
        split_ifs
        · rfl
        · have := ih (x + flSum (flProd (flProd q.2 (o.image.map Fl.fin)) (o.weight.map Fl.fin)))
            (m + flSum (flProd (flProd q.2 q.2) (o.weight.map Fl.fin)))
          simp only [hscdef] at this
          rw [this]
          cases pfPass1 l _ _ <;> rfl
  have h2 : ∀ fl, ∀ l : List (PFObs × PFModel), ∀ c, pfPass2 fl (l.map fun om => (sc om.1, om.2)) c =
      pfPass2 fl l c := by
    intro fl l
    induction l with
    | nil => intro c; rfl
    | cons om l ih =>
      intro c
      obtain ⟨o, md⟩ := om
      simp only [List.map_cons, pfPass2]
      have : ∀ c, pfPass2 fl (l.map fun om => (sc om.1, om.2)) c = pfPass2 fl l c := ih
      simp only [this]
      rfl
  have hnp : ∀ l : List PFObs, pfNpix (l.map sc) = pfNpix l := by
    intro l
    simp only [pfNpix, List.map_map]
    rfl
  have hgo : ∀ (l : List (PFObs × PFModel)) t, pfGo ⟨l.map fun om => (sc om.1, om.2), t⟩ = pfGo ⟨l, t⟩ := by
    intro l t
    have hfst : (l.map fun om => (sc om.1, om.2)).map Prod.fst = (l.map Prod.fst).map sc := by
      simp [List.map_map, Function.comp_def]
    have hfin : ∀ fl c m, pfFinish ((l.map Prod.fst).map sc) t fl c m = pfFinish (l.map Prod.fst) t fl c m := by
      intro fl c m
      have hd : pfDof ((l.map Prod.fst).map sc) = pfDof (l.map Prod.fst) := by simp only [pfDof, hnp]
      simp only [pfFinish, hd]
    simp only [pfGo, h1, hfst, hfin]
    cases pfPass1 l (.fin 0) (.fin 0) with
    | error e => rfl
    | ok q => simp only [Except.map, Except.bind, h2]
  have hnew : newPFFit (obs.map sc) doPsf nz = (newPFFit obs doPsf nz).map fun f =>
      ⟨f.obs.map fun om => (sc om.1, om.2), f.totpix⟩ := by
    cases hobs : obs with
    | nil => rfl
    | cons o os =>
      have hEG := hE (pfGmix doPsf nz) fun o _ => hG o
      have hET := hE (pfTemplate doPsf nz) hT
      have hpix : ((obs.map sc).map PFObs.npixels).sum = (obs.map PFObs.npixels).sum := by
        rw [List.map_map]; rfl
      have hz : ∀ ms : List PFModel, (obs.map sc).zip ms = (obs.zip ms).map fun om => (sc om.1, om.2) := by
        intro ms
        rw [List.zip_map_left]
        rfl
      rw [hobs] at hEG hET hpix hz
      simp only [List.map_cons] at hEG hET hpix hz
      simp only [newPFFit, List.map_cons, hsrc]
      rcases h1 : pfSource doPsf o with e | q
      · rfl
      · have e1 : (s q).gmix = q.gmix := rfl
        have e2 : (s q).template.isNone = q.template.isNone := by
          simp only [hsdef]; cases q.template <;> rfl
        simp only [Except.map, Except.bind, e1, e2]
        by_cases c1 : (q.gmix.isNone && q.template.isNone) = true
        · rw [if_pos c1, if_pos c1]
        · rw [if_neg c1, if_neg c1]
          by_cases c2 : q.gmix.isSome = true
          · simp only [c2, if_true, hEG]
            cases pfEach (pfGmix doPsf nz) (o :: os) with
            | error e => rfl
            | ok ms => simp only [hpix, hz]
          · simp only [c2, Bool.false_eq_true, if_false, hET]
            cases pfEach (pfTemplate doPsf nz) (o :: os) with
            | error e => rfl
            | ok ms => simp only [hpix, hz]
  intro r
  rw [hsc, psfFlux, psfFlux, hnew]
  cases newPFFit obs doPsf nz with
  | error e => exact Iff.rfl
  | ok f => simp only [Except.map, Except.bind]; rw [hgo]

/-- C46: a template that is to be normalised but sums to zero, or a mixture of zero flux, is always
flagged: the fit, if it returns, reports NaN and `BAD_VAR` (or `DIV_ZERO` for a single pixel). -/
theorem C46_zero_norm (obs : List PFObs) (doPsf nz : Bool) (r : PFResult) (hn : (doPsf && !nz) = false)
    (o : PFObs) (ho : o ∈ obs) (him : o.image ≠ []) (hw : o.weight.length = o.image.length)
    (s : PFTmplSrc) (hs : pfSource doPsf o = .ok s)
    (hz : (∀ t, s.template = some t → t.sum = 0) ∧
      ∀ g, s.gmix = some g → ∀ c, copyGMix g = .ok c → Flux c.data = 0)
    (hr : psfFlux obs doPsf nz = .ok r) :
    r.flux = .nan ∧ r.chi2per = .nan ∧ (r.flags = Flags.BAD_VAR ∨ r.flags = Flags.DIV_ZERO) ∧
      r.fluxErr = .fin pfCDEF := by
  obtain ⟨f, hf, hgo⟩ := exBind_ok hr
  refine go_bad f ?_ r hgo
  have hT : ∀ md, pfTemplate doPsf nz o = .ok md → Bad (o, md) := by
    intro md hmd
    simp only [pfTemplate, hs, Except.bind] at hmd
    cases ht : s.template with
    | none => rw [ht] at hmd; simp at hmd
    | some t =>
      rw [ht] at hmd
      simp only [hn, Bool.false_eq_true, if_false, Except.ok.injEq] at hmd
      subst hmd
      refine ⟨him, hw, .inr ⟨_, _, rfl, ?_⟩⟩
      intro x hx
      simp only [List.map_map, List.mem_map, Function.comp_apply] at hx
      obtain ⟨y, -, rfl⟩ := hx
      rw [flSum_fin, hz.1 t ht, Fl.fin_div_zero]
      have : Fl.infOf 1 = .pinf := by simp [Fl.infOf]
      rw [this]
      exact infOf_nonFin y
  have hG : ∀ md, pfGmix doPsf nz o = .ok md → Bad (o, md) := by
    intro md hmd
    have hsrc : (if doPsf then o.psf else some o.self).bind PFTmplSrc.gmix = s.gmix := by
      unfold pfSource at hs
      cases doPsf with
      | true =>
        simp only [if_true] at hs ⊢
        cases hp : o.psf with
        | none => rw [hp] at hs; simp at hs
        | some q =>
          rw [hp] at hs
          simp only [Except.ok.injEq] at hs
          subst hs
          rfl
      | false =>
        simp only [Bool.false_eq_true, if_false, Except.ok.injEq] at hs ⊢
        subst hs
        rfl
    unfold pfGmix at hmd
    rw [hsrc] at hmd
    cases hg : s.gmix with
    | none => rw [hg] at hmd; simp at hmd
    | some g =>
      rw [hg] at hmd
      obtain ⟨c, hc, rfl⟩ := exMap_ok hmd
      have h0 : psum c.data = 0 := hz.2 g hg c hc
      have : setFluxObj c 1 = none := by simp [setFluxObj, setFlux, h0]
      simp only [hn, Bool.false_eq_true, if_false, this]
      exact ⟨him, hw, .inl ⟨_, rfl⟩⟩
  have hzip : ∀ (F : PFObs → Except PyErr PFModel), (∀ md, F o = .ok md → Bad (o, md)) →
      ∀ (l : List PFObs) ms, o ∈ l → pfEach F l = .ok ms → ∃ om ∈ l.zip ms, Bad om := by
    intro F hF l
    induction l with
    | nil => intro ms h; simp at h
    | cons a l ih =>
      intro ms hmem he
      obtain ⟨m, hm, he⟩ := exBind_ok he
      obtain ⟨ms', hms, rfl⟩ := exMap_ok he
      rcases List.mem_cons.mp hmem with rfl | hmem
      · exact ⟨(o, m), by simp, hF m hm⟩
      · obtain ⟨om, h1, h2⟩ := ih ms' hmem hms
        exact ⟨om, by simp [h1], h2⟩
  cases hobs : obs with
  | nil => rw [hobs] at ho; simp at ho
  | cons a l =>
    rw [hobs] at hf ho
    obtain ⟨q, -, hf⟩ := exBind_ok hf
    simp only at hf
    split_ifs at hf
    · obtain ⟨ms, hms, rfl⟩ := exMap_ok hf
      exact hzip _ hG _ _ ho hms
    · obtain ⟨ms, hms, rfl⟩ := exMap_ok hf
      exact hzip _ hT _ _ ho hms

/-- C46: what cannot be fitted is refused: no observation, no psf, or neither a mixture nor a template. -/
theorem C46_refused (o : PFObs) (os : List PFObs) (doPsf nz : Bool) :
    psfFlux [] doPsf nz = .error .index ∧
    (doPsf = true → o.psf = none → psfFlux (o :: os) doPsf nz = .error .attribute) ∧
    (∀ s, pfSource doPsf o = .ok s → s.gmix = none → s.template = none →
      psfFlux (o :: os) doPsf nz = .error .value) := by
  refine ⟨rfl, ?_, ?_⟩
  · rintro rfl h
    simp [psfFlux, newPFFit, pfSource, h, Except.bind]
  · intro s hs h1 h2
    simp [psfFlux, newPFFit, hs, h1, h2, Except.bind]

/-- Two observations with template images: the hypotheses are met, and the flux is 2. -/
example : ∃ r, psfFlux
    [⟨[2, 4], [1, 1], 2, [], ⟨none, none⟩, some ⟨none, some [1, 2]⟩⟩,
     ⟨[2, 0], [1, 0], 1, [], ⟨none, none⟩, some ⟨none, some [3, 3]⟩⟩] true false = .ok r ∧
    r.flux = .fin (16 / 14) ∧ r.flags = 0 := by
  obtain ⟨r, hr, ho⟩ := C46_templates
    [⟨[2, 4], [1, 1], 2, [], ⟨none, none⟩, some ⟨none, some [1, 2]⟩⟩,
     ⟨[2, 0], [1, 0], 1, [], ⟨none, none⟩, some ⟨none, some [3, 3]⟩⟩] [[1, 2], [3, 3]] true false (by simp)
    (by intro o ho s hs
        simp only [List.head?_cons, Option.mem_def, Option.some.injEq] at ho
        subst ho
        simp only [pfSource, if_true, Except.ok.injEq] at hs
        rw [← hs])
    (.cons ⟨⟨_, rfl, rfl⟩, by norm_num, rfl, rfl⟩ (.cons ⟨⟨_, rfl, rfl⟩, by norm_num, rfl, rfl⟩ .nil))
  set px := pixelsOf _ _ with hpx
  have e : px = [(1, 2, 1), (2, 4, 1), (3, 2, 1), (3, 0, 0)] := by
    simp [hpx, pixelsOf, unitTemplate]
  rw [e] at ho
  obtain ⟨h1, h2⟩ := C46_optimum _ _ _ ho (by simp) (by simp [nPositive, List.filter_cons])
  have hp : tPower [((1 : ℝ), (2 : ℝ), (1 : ℝ)), (2, 4, 1), (3, 2, 1), (3, 0, 0)] = 14 := by norm_num [tPower]
  obtain ⟨f, k1, k2, -⟩ := ho.fit (by rw [hp]; norm_num)
  refine ⟨r, hr, ?_, h2.mpr ⟨by rw [hp]; norm_num, by norm_num⟩⟩
  rw [k1]
  rw [hp] at k2
  congr 1
  have : tCorr [((1 : ℝ), (2 : ℝ), (1 : ℝ)), (2, 4, 1), (3, 2, 1), (3, 0, 0)] = 16 := by norm_num [tCorr]
  rw [this] at k2
  linarith

/-- A psf mixture of two gaussians meets the hypotheses of `C46_mixtures`. -/
example : ∃ g : GMixObj, newGMix none (some [2, 0, 0, 1, 0, 1, 3, 1, 0, 2, 0.5, 2]) = .ok g ∧ Renderable g := by
  refine ⟨⟨.full, 12, 2, [2, 0, 0, 1, 0, 1, 3, 1, 0, 2, 0.5, 2], fillFull [2, 0, 0, 1, 0, 1, 3, 1, 0, 2, 0.5, 2]⟩,
    rfl, .inl ⟨rfl, ?_, .inl ?_⟩, ?_, ?_⟩
  · exact fun g hg => (fillFull_fresh _ _ (le_refl _) g hg).1
  · exact fun g hg => (fillFull_fresh _ _ (le_refl _) g hg).2
  · norm_num [Flux, fillFull, gauss2dSet]
  · intro a ha
    simp only [fillFull, List.mem_cons, List.not_mem_nil, or_false] at ha
    rcases ha with rfl | rfl <;> norm_num [Usable, gauss2dSet, gmixLowDetval]

/-- A template summing to zero is flagged. -/
example (r : PFResult) (h : psfFlux [⟨[2, 4], [1, 1], 2, [], ⟨none, none⟩, some ⟨none, some [1, -1]⟩⟩] true true = .ok r) :
    r.flux = .nan ∧ r.flags ≠ 0 := by
  obtain ⟨h1, -, h2, -⟩ := C46_zero_norm _ true true r rfl _ List.mem_cons_self (by simp) rfl _ rfl
    ⟨by simp, by simp⟩ h
  refine ⟨h1, ?_⟩
  rcases h2 with h | h <;> rw [h] <;> decide

end

end Ngmix.Props
