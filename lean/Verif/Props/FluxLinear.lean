import Verif.Spec.FluxLinear
import Verif.Props.FitUnit
import Verif.Props.FastExp

/-!
# Models are linear in the fluxes (C118)
-/

namespace Ngmix.Props

open Ngmix Ngmix.Spec

noncomputable section

theorem ready_lit (c : ℝ) (d : List Gauss) : ready (d.map (lit c)) = (ready d).map fun l => l.map (lit c) := by
  unfold ready
  rw [lit_ready]
  rcases setNormsIfNeeded d with ⟨d', _ | _⟩ <;> rfl

theorem modelFor_lit (kind : FMKind) (hk : CanFit kind) (dopsf : Bool) (c : ℝ) (bp : List ℝ) (hl : bp.length = bandN kind) (i : Img)
    (d : List Gauss) (h : modelFor kind dopsf bp i = .ok d) :
    modelFor kind dopsf (bandUnits (notFluxes kind) c bp) i = .ok (d.map (lit c)) := by
  obtain ⟨ng, hF, -⟩ := kindOf_fresh kind hk
  unfold modelFor at h ⊢
  rw [hF _ ((bandUnits_length _ _ _).trans hl), unit_fill kind hk c bp hl]
  rw [hF bp hl] at h
  cases hd : fillFunc (kindOf kind) bp with
  | error e =>
    rw [hd] at h
    cases dopsf
    · simp [Except.map, Except.bind] at h
    · cases hq : i.psf <;> simp [Except.map, Except.bind, hq] at h
  | ok d0 =>
    rw [hd] at h
    simp only [Except.map, Except.bind] at h ⊢
    cases dopsf with
    | false =>
      simp only [Bool.false_eq_true, if_false] at h ⊢
      rw [ready_lit, h]
      rfl
    | true =>
      simp only [if_true] at h ⊢
      cases hq : i.psf with
      | error e => rw [hq] at h; simp at h
      | ok q =>
        rw [hq] at h
        simp only at h ⊢
        rw [unit_convolve c one_ne_zero d0 (q := q.data) (q' := q.data)
          (List.forall₂_same.mpr fun g _ => ⟨(one_mul _).symm, rfl, rfl, rfl, rfl, rfl⟩)]
        cases hc : gmixConvolve d0 q.data with
        | error e => rw [hc] at h; simp at h
        | ok d1 =>
          rw [hc] at h
          simp only [Except.map] at h ⊢
          rw [ready_lit, h]
          rfl

theorem litAll_length (k : ℕ → ℝ) : ∀ (D : List (List (List Gauss))) (b : ℕ), (litAll k b D).length = D.length
  | [], _ => rfl
  | _ :: D, b => by rw [litAll, List.length_cons, List.length_cons, litAll_length k D (b + 1)]

theorem litAll_get (k : ℕ → ℝ) : ∀ (D : List (List (List Gauss))) (b j : ℕ), (litAll k b D)[j]? =
    D[j]?.map fun ds => ds.map fun l => l.map (lit (k (b + j)))
  | [], _, _ => by simp [litAll]
  | _ :: D, b, 0 => by simp [litAll]
  | _ :: D, b, j + 1 => by
    rw [litAll, List.getElem?_cons_succ, List.getElem?_cons_succ, litAll_get k D (b + 1) j]
    rw [show b + 1 + j = b + (j + 1) by omega]

/-- The mixtures at parameters with the flux of each band multiplied. -/
theorem isModel_lit {kind : FMKind} (hk : CanFit kind) {prior : Option JointPrior} {obs : List (List Img)} {guess : List ℝ}
    {fm : FitModel} {st : FMState} (h : newFitModel kind prior obs guess = .ok (fm, st)) {pars : List ℝ}
    (hpars : pars.length = guess.length) {D : List (List (List Gauss))} (hD : IsModel fm pars D) (k : ℕ → ℝ) :
    IsModel fm (inUnits kind k pars) (litAll k 0 D) := by
  obtain ⟨e1, e2, e3, ⟨i, is, r, e4, e5⟩, ⟨npp, e6⟩, e7, -, -⟩ := new_shape h
  obtain ⟨d1, d2⟩ := hD
  have h0 : 0 < obs.length := by rw [e4]; simp
  rw [npars_guessLength kind hk _ h0, Except.ok.injEq] at e7
  refine ⟨(litAll_length k D 0).trans d1, fun b is ds hb hds => ?_⟩
  rw [litAll_get, Option.map_eq_some_iff] at hds
  obtain ⟨ds0, hds0, rfl⟩ := hds
  obtain ⟨bp, hbp, hf⟩ := d2 b is ds0 hb hds0
  have hlt : b < obs.length := by rw [← e3]; exact (List.getElem?_eq_some_iff.mp hb).1
  obtain ⟨bp', hbp', hbl, -⟩ := band_outcome kind hk _ pars (hpars.trans e7.symm) b hlt
  rw [e1] at hbp hf ⊢
  rw [hbp] at hbp'
  cases hbp'
  refine ⟨bandUnits (notFluxes kind) (k b) bp, ?_, ?_⟩
  · rw [unit_bandPars kind hk k pars b (by
      rintro m rfl
      simp only [FMKind.nPriorPars] at e6
      split_ifs at e6 with h1
      simp only [ne_eq, not_not] at h1
      omega), hbp]
    rfl
  · rw [List.forall₂_map_right_iff]
    refine hf.imp fun i d hm => ?_
    rw [zero_add]
    exact modelFor_lit kind hk fm.dopsf (k b) bp hbl i d hm

theorem zip_lit {α : Type*} (k : ℕ → ℝ) (f : Img × List Gauss → α) : ∀ (obs : List (List Img)) (D : List (List (List Gauss))) (b : ℕ),
    List.Forall₂ (fun is ds => is.length = ds.length) obs D →
    (obs.flatten.zip (litAll k b D).flatten).map f =
      ((obs.zip D).mapIdx fun j x => (x.1.zip x.2).map fun y => f (y.1, y.2.map (lit (k (b + j))))).flatten
  | [], [], _, _ => rfl
  | is :: obs, ds :: D, b, h => by
    cases h with
    | cons h1 h2 =>
      rw [litAll, List.flatten_cons, List.flatten_cons, List.zip_append (by simpa using h1), List.map_append,
        zip_lit k f obs D (b + 1) h2, List.zip_cons_cons, List.mapIdx_cons, List.flatten_cons]
      congr 1
      · rw [List.zip_map_right, List.map_map]
        rfl
      · congr 2
        funext j x
        rw [show b + 1 + j = b + (j + 1) by omega]

theorem isModel_lengths {fm : FitModel} {pars : List ℝ} {D : List (List (List Gauss))} (hD : IsModel fm pars D) :
    List.Forall₂ (fun is ds => List.length is = List.length ds) fm.obs D := by
  obtain ⟨d1, d2⟩ := hD
  rw [List.forall₂_iff_get]
  refine ⟨d1.symm, fun i h1 h2 => ?_⟩
  obtain ⟨bp, -, hf⟩ := d2 i _ _ (List.getElem?_eq_getElem h1) (List.getElem?_eq_getElem h2)
  exact hf.length_eq

theorem map_of_mapIdx {α β γ : Type*} (g : β → γ) : ∀ (l : List α) (f : ℕ → α → β), (l.mapIdx f).map g = l.mapIdx fun b x => g (f b x)
  | [], _ => rfl
  | a :: l, f => by rw [List.mapIdx_cons, List.mapIdx_cons, List.map_cons, map_of_mapIdx g l]

theorem sum_mapIdx_flatten {α : Type*} (f : ℕ → α → List ℝ) (l : List α) :
    (l.mapIdx f).flatten.sum = (l.mapIdx fun b x => (f b x).sum).sum := by
  rw [List.sum_flatten, map_of_mapIdx]

theorem band_square (c : ℝ) (x : FluxBand) :
    ((x.1.zip x.2).map fun y => -(1 / 2) * (y.1.pixels.map fun px =>
      ((gmixEvalFast (y.2.map (lit c)) px.v px.u px.area - px.val) * px.ierr) ^ 2).sum).sum =
    -(1 / 2) * (c ^ 2 * x.power - 2 * c * x.overlap + x.dataPower) := by
  have key : ∀ y : Img × List Gauss, (y.1.pixels.map fun px =>
      ((gmixEvalFast (y.2.map (lit c)) px.v px.u px.area - px.val) * px.ierr) ^ 2).sum =
      c ^ 2 * (y.1.pixels.map fun px => gmixEvalFast y.2 px.v px.u px.area ^ 2 * (px.ierr * px.ierr)).sum -
      2 * c * (y.1.pixels.map fun px => px.val * gmixEvalFast y.2 px.v px.u px.area * (px.ierr * px.ierr)).sum +
      (y.1.pixels.map fun px => px.val ^ 2 * (px.ierr * px.ierr)).sum := by
    intro y
    simp only [lit_evals]
    induction y.1.pixels with
    | nil => simp
    | cons px l ih =>
      simp only [List.map_cons, List.sum_cons, ih]
      ring
  simp only [key]
  unfold FluxBand.power FluxBand.overlap FluxBand.dataPower FluxBand.sum
  induction x.1.zip x.2 with
  | nil => simp
  | cons y l ih =>
    simp only [List.map_cons, List.sum_cons, ih]
    ring

theorem band_overlap (c : ℝ) (x : FluxBand) :
    ((x.1.zip x.2).map fun y => (y.1.pixels.map fun px =>
      px.val * gmixEvalFast (y.2.map (lit c)) px.v px.u px.area * (px.ierr * px.ierr)).sum).sum = c * x.overlap := by
  unfold FluxBand.overlap FluxBand.sum
  simp only [lit_evals, ← List.sum_map_mul_left]
  congr 2
  funext y
  congr 2
  funext px
  ring

theorem band_power (c : ℝ) (x : FluxBand) :
    ((x.1.zip x.2).map fun y => (y.1.pixels.map fun px =>
      gmixEvalFast (y.2.map (lit c)) px.v px.u px.area ^ 2 * (px.ierr * px.ierr)).sum).sum = c ^ 2 * x.power := by
  unfold FluxBand.power FluxBand.sum
  simp only [lit_evals, ← List.sum_map_mul_left]
  congr 2
  funext y
  congr 2
  funext px
  ring

/-- C118.  The residuals of a fit without prior when the flux of each band `b` is multiplied by any `k b`: the model of the band
is multiplied by `k b`.  Whatever was evaluated before. -/
theorem C118_residuals (kind : FMKind) (hk : CanFit kind) (obs : List (List Img)) (guess : List ℝ)
    (fm : FitModel) (st : FMState) (h : newFitModel kind none obs guess = .ok (fm, st)) (calls : List Call)
    (pars : List ℝ) (hpars : pars.length = guess.length) (D : List (List (List Gauss))) (hD : IsModel fm pars D) (k : ℕ → ℝ) :
    (calcFdiff fm (runCalls fm st calls) (inUnits kind k pars)).2 =
      .ok ((((obs.zip D).mapIdx fun b x => FluxBand.residuals (k b) x).flatten).map Fl.fin) := by
  obtain ⟨-, -, e3, -⟩ := new_shape h
  rw [(C41_no_prior kind obs guess fm st h calls _ ((inUnits_length _ _ _).trans hpars) _ (isModel_lit hk h hpars hD k)).2]
  unfold residuals pairs
  rw [List.flatMap_def, zip_lit k _ fm.obs D 0 (isModel_lengths hD), e3]
  congr 2
  simp only [lit_evals, zero_add]
  unfold FluxBand.residuals
  rw [List.flatten_flatten, map_of_mapIdx]
  simp only [List.flatMap_def]

/-- C118.  The log probability of the fit is that of the prior plus a sum over bands, each a quadratic function of the flux of
the band alone; the signal to noise sums are linear and quadratic. -/
theorem C118_lnprob (kind : FMKind) (hk : CanFit kind) (prior : Option JointPrior) (obs : List (List Img)) (guess : List ℝ)
    (fm : FitModel) (st : FMState) (h : newFitModel kind prior obs guess = .ok (fm, st)) (calls : List Call)
    (pars : List ℝ) (hpars : pars.length = guess.length) (D : List (List (List Gauss))) (hD : IsModel fm pars D) (k : ℕ → ℝ)
    (lnp : Fl) (hp : getPriors prior (inUnits kind k pars) = .ok lnp) :
    (calcLnprob fm (runCalls fm st calls) (inUnits kind k pars)).2 = .ok
      ⟨.fin ((obs.zip D).mapIdx fun b x =>
          -(1 / 2) * ((k b) ^ 2 * FluxBand.power x - 2 * k b * FluxBand.overlap x + FluxBand.dataPower x)).sum + lnp,
       ((obs.zip D).mapIdx fun b x => k b * FluxBand.overlap x).sum,
       ((obs.zip D).mapIdx fun b x => (k b) ^ 2 * FluxBand.power x).sum, fm.totpix⟩ := by
  obtain ⟨-, -, e3, -⟩ := new_shape h
  rw [C47_lnprob kind prior obs guess fm st h calls _ ((inUnits_length _ _ _).trans hpars) _ (isModel_lit hk h hpars hD k) lnp hp]
  have hz := fun f : Img × List Gauss → ℝ => zip_lit k f fm.obs D 0 (isModel_lengths hD)
  rw [e3] at hz
  unfold pairs
  simp only [e3, hz, sum_mapIdx_flatten, zero_add, band_square, band_overlap, band_power]

theorem sum_mapIdx_add {α : Type*} : ∀ (l : List α) (f g : ℕ → α → ℝ), (l.mapIdx fun b x => f b x + g b x).sum =
    (l.mapIdx f).sum + (l.mapIdx g).sum
  | [], _, _ => by simp
  | a :: l, f, g => by
    simp only [List.mapIdx_cons, List.sum_cons]
    rw [sum_mapIdx_add l (fun b x => f (b + 1) x) (fun b x => g (b + 1) x)]
    ring

theorem sum_mapIdx_congr {α : Type*} (l : List α) (f g : ℕ → α → ℝ) (h : ∀ b x, l[b]? = some x → f b x = g b x) :
    (l.mapIdx f).sum = (l.mapIdx g).sum := by
  congr 1
  rw [List.mapIdx_eq_mapIdx_iff]
  intro b hb
  exact h b _ (List.getElem?_eq_getElem hb)

theorem sum_mapIdx_nonneg {α : Type*} : ∀ (l : List α) (f : ℕ → α → ℝ) (_ : ∀ b x, l[b]? = some x → 0 ≤ f b x),
    0 ≤ (l.mapIdx f).sum ∧ ((l.mapIdx f).sum = 0 → ∀ b x, l[b]? = some x → f b x = 0)
  | [], _, _ => by simp
  | a :: l, f, h => by
    obtain ⟨h1, h2⟩ := sum_mapIdx_nonneg l (fun b x => f (b + 1) x) (fun b x hx => h (b + 1) x (by simpa using hx))
    have h0 := h 0 a rfl
    rw [List.mapIdx_cons, List.sum_cons]
    refine ⟨by linarith, fun hs b x hx => ?_⟩
    cases b with
    | zero =>
      simp only [List.getElem?_cons_zero, Option.some.injEq] at hx
      subst hx
      linarith
    | succ b => exact h2 (by linarith) b x (by simpa using hx)

/-- C118.  Without prior: let the flux of each band be multiplied by `best b`, with `best b` times the power of the model the
overlap of model and data.  Then the two signal to noise sums are equal and are what the model explains of the data; at any
other multiples of the fluxes the log probability is lower by half the sum over bands of the power times the squared distance,
so that these are the only best fluxes. -/
theorem C118_best (kind : FMKind) (hk : CanFit kind) (obs : List (List Img)) (guess : List ℝ)
    (fm : FitModel) (st : FMState) (h : newFitModel kind none obs guess = .ok (fm, st)) (calls : List Call)
    (pars : List ℝ) (hpars : pars.length = guess.length) (D : List (List (List Gauss))) (hD : IsModel fm pars D)
    (best : ℕ → ℝ) (hbest : ∀ b x, (obs.zip D)[b]? = some x → 0 < FluxBand.power x ∧ best b * FluxBand.power x = FluxBand.overlap x) :
    ∃ L S n, (calcLnprob fm (runCalls fm st calls) (inUnits kind best pars)).2 = .ok ⟨.fin L, S, S, n⟩ ∧
      L = -(1 / 2) * (((obs.zip D).map FluxBand.dataPower).sum - S) ∧
      ∀ k : ℕ → ℝ, ∃ L' r, (calcLnprob fm (runCalls fm st calls) (inUnits kind k pars)).2 = .ok r ∧ r.lnprob = .fin L' ∧
        L' = L - 1 / 2 * ((obs.zip D).mapIdx fun b x => FluxBand.power x * (k b - best b) ^ 2).sum ∧ L' ≤ L ∧
        (L' = L → ∀ b, b < obs.length → k b = best b) := by
  have hl := fun k => C118_lnprob kind hk none obs guess fm st h calls pars hpars D hD k (.fin 0) rfl
  have hfin : ∀ x : ℝ, Fl.fin x + Fl.fin 0 = Fl.fin x := fun x => by
    change Fl.fin (x + 0) = _
    rw [add_zero]
  simp only [hfin] at hl
  have hS : ((obs.zip D).mapIdx fun b x => best b * FluxBand.overlap x).sum =
      ((obs.zip D).mapIdx fun b x => (best b) ^ 2 * FluxBand.power x).sum := by
    refine sum_mapIdx_congr _ _ _ fun b x hx => ?_
    rw [← (hbest b x hx).2]
    ring
  have hl0 := hl best
  rw [hS] at hl0
  obtain ⟨e1, e2, e3, -⟩ := new_shape h
  have hlen : (obs.zip D).length = obs.length := by
    rw [List.length_zip, hD.1, e3, min_self]
  refine ⟨_, _, _, hl0, ?_, fun k => ?_⟩
  · have hd : ((obs.zip D).map FluxBand.dataPower).sum = ((obs.zip D).mapIdx fun _ x => FluxBand.dataPower x).sum := by
      rw [List.mapIdx_eq_zipIdx_map, ← List.zipIdx_map_fst 0 (obs.zip D), List.map_map]
      simp [Function.comp_def]
    have key : ((obs.zip D).mapIdx fun _ x => FluxBand.dataPower x).sum =
        ((obs.zip D).mapIdx fun b x => ((best b) ^ 2 * FluxBand.power x - 2 * best b * FluxBand.overlap x + FluxBand.dataPower x) +
          (best b) ^ 2 * FluxBand.power x).sum := by
      refine sum_mapIdx_congr _ _ _ fun b x hx => ?_
      rw [← (hbest b x hx).2]
      ring
    have hm : ((obs.zip D).mapIdx fun b x =>
        -(1 / 2) * ((best b) ^ 2 * FluxBand.power x - 2 * best b * FluxBand.overlap x + FluxBand.dataPower x)).sum =
        -(1 / 2) * ((obs.zip D).mapIdx fun b x =>
          ((best b) ^ 2 * FluxBand.power x - 2 * best b * FluxBand.overlap x + FluxBand.dataPower x)).sum := by
      rw [← map_of_mapIdx (fun y => -(1 / 2) * y), List.sum_map_mul_left]
      simp
    rw [hd, key, sum_mapIdx_add, hm]
    ring
  · have hnn := sum_mapIdx_nonneg (obs.zip D) (fun b x => FluxBand.power x * (k b - best b) ^ 2)
      (fun b x hx => mul_nonneg (hbest b x hx).1.le (sq_nonneg _))
    have hdiff : ((obs.zip D).mapIdx fun b x =>
        -(1 / 2) * ((k b) ^ 2 * FluxBand.power x - 2 * k b * FluxBand.overlap x + FluxBand.dataPower x)).sum =
        ((obs.zip D).mapIdx fun b x =>
          -(1 / 2) * ((best b) ^ 2 * FluxBand.power x - 2 * best b * FluxBand.overlap x + FluxBand.dataPower x)).sum -
        1 / 2 * ((obs.zip D).mapIdx fun b x => FluxBand.power x * (k b - best b) ^ 2).sum := by
      have hm : ((obs.zip D).mapIdx fun b x => -(1 / 2) * (FluxBand.power x * (k b - best b) ^ 2)).sum =
          -(1 / 2) * ((obs.zip D).mapIdx fun b x => FluxBand.power x * (k b - best b) ^ 2).sum := by
        rw [← map_of_mapIdx (fun y => -(1 / 2) * y), List.sum_map_mul_left]
        simp
      have hk' : ((obs.zip D).mapIdx fun b x =>
          -(1 / 2) * ((k b) ^ 2 * FluxBand.power x - 2 * k b * FluxBand.overlap x + FluxBand.dataPower x)).sum =
          ((obs.zip D).mapIdx fun b x =>
            -(1 / 2) * ((best b) ^ 2 * FluxBand.power x - 2 * best b * FluxBand.overlap x + FluxBand.dataPower x) +
            -(1 / 2) * (FluxBand.power x * (k b - best b) ^ 2)).sum := by
        refine sum_mapIdx_congr _ _ _ fun b x hx => ?_
        rw [← (hbest b x hx).2]
        ring
      rw [hk', sum_mapIdx_add, hm]
      ring
    refine ⟨_, _, hl k, rfl, hdiff, by rw [hdiff]; linarith [hnn.1], fun he b hb => ?_⟩
    rw [hdiff] at he
    have hx := List.getElem?_eq_getElem (hlen.symm ▸ hb : b < (obs.zip D).length)
    have hz := hnn.2 (by linarith) b _ hx
    rcases mul_eq_zero.1 hz with hz | hz
    · exact absurd hz (hbest b _ hx).1.ne'
    · linarith [pow_eq_zero_iff (two_ne_zero) |>.1 hz]

/-! ### Cases -/

theorem fexp_zero_pos : 0 < fexp 0 := by
  obtain ⟨y, -, h1, h2⟩ := C26_exp5 0 (by norm_num) le_rfl
  rw [h1]
  rw [Real.exp_zero] at h2
  have := (abs_le.1 h2).1
  norm_num at this
  linarith

theorem ex_centre (F : ℝ) (hF : 0 < F) (D : List Gauss) (h : ready [gauss2dSet F 0 0 (0.5 * 1 + 1) 0 (0.5 * 1 + 1)] = .ok D) :
    0 < gmixEvalFast D 0 0 1 := by
  have hn : gauss2dSetNorm (gauss2dSet F 0 0 (0.5 * 1 + 1) 0 (0.5 * 1 + 1)) =
      ({ gauss2dSet F 0 0 (0.5 * 1 + 1) 0 (0.5 * 1 + 1) with
        d := some ⟨1.5 * (1 / 2.25), 0 * (1 / 2.25), 1.5 * (1 / 2.25), 1 / (2 * Real.pi * Real.sqrt 2.25),
          F * (1 / (2 * Real.pi * Real.sqrt 2.25))⟩, normSet := true }, .ok ()) := by
    have e : ((0.5 * 1 + 1) * (0.5 * 1 + 1) - 0 * 0 : ℝ) = 2.25 := by norm_num
    have e2 : (0.5 * 1 + 1 : ℝ) = 1.5 := by norm_num
    unfold gauss2dSetNorm
    simp only [gauss2dSet, e]
    rw [if_neg (by norm_num [gmixLowDetval]), if_neg (by norm_num [gmixLowDetval])]
    simp only [e2]
  have hD : D = [{ gauss2dSet F 0 0 (0.5 * 1 + 1) 0 (0.5 * 1 + 1) with
        d := some ⟨1.5 * (1 / 2.25), 0 * (1 / 2.25), 1.5 * (1 / 2.25), 1 / (2 * Real.pi * Real.sqrt 2.25),
          F * (1 / (2 * Real.pi * Real.sqrt 2.25))⟩, normSet := true }] := by
    have hset : setNormsIfNeeded [gauss2dSet F 0 0 (0.5 * 1 + 1) 0 (0.5 * 1 + 1)] =
        gmixSetNorms [gauss2dSet F 0 0 (0.5 * 1 + 1) 0 (0.5 * 1 + 1)] := rfl
    unfold ready at h
    rw [hset] at h
    simp only [gmixSetNorms, hn, Except.ok.injEq] at h
    exact h.symm
  rw [hD]
  have := Real.pi_pos
  have hs : 0 < Real.sqrt 2.25 := Real.sqrt_pos.2 (by norm_num)
  have hx := fexp_zero_pos
  generalize Real.sqrt 2.25 = S at hs
  have hc : gaussEvalFast { gauss2dSet F 0 0 (0.5 * 1 + 1) 0 (0.5 * 1 + 1) with
        d := some ⟨1.5 * (1 / 2.25), 0 * (1 / 2.25), 1.5 * (1 / 2.25), 1 / (2 * Real.pi * S),
          F * (1 / (2 * Real.pi * S))⟩, normSet := true } 0 0 1 = F * (1 / (2 * Real.pi * S)) * fexp 0 := by
    simp [gaussEvalFast, gaussChi2, gauss2dSet, fastexpMaxChi2]
  simp only [gmixEvalFast, List.foldl_cons, List.foldl_nil, hc]
  positivity

theorem ex_modelFor (F : ℝ) (x : List Pixel) : modelFor (.std "gauss") true [0, 0, 0, 0, 1, F] ⟨x, .ok exPsf⟩ =
    ready [gauss2dSet F 0 0 (0.5 * 1 + 1) 0 (0.5 * 1 + 1)] := by
  unfold modelFor
  simp only [FMKind.arg, ex_make, Except.bind, if_true, ex_convolve]

/-- Two bands with one usable pixel each (and one image of no pixels): the best fluxes exist. -/
example (v1 v2 : ℝ) : ∃ fm st D, ∃ best : ℕ → ℝ,
    newFitModel (.std "gauss") none [[⟨[⟨0, 0, 1, v1, 1⟩], .ok exPsf⟩, ⟨[], .ok exPsf⟩], [⟨[⟨0, 0, 1, v2, 2⟩], .ok exPsf⟩]]
      [0, 0, 0, 0, 4, 1, 1] = .ok (fm, st) ∧ IsModel fm [0, 0, 0, 0, 1, 2, 3] D ∧
    ∀ b x, (fm.obs.zip D)[b]? = some x → 0 < FluxBand.power x ∧ best b * FluxBand.power x = FluxBand.overlap x := by
  obtain ⟨st, D, h, hD⟩ := ex_fit none [⟨0, 0, 1, v1, 1⟩] [] [⟨0, 0, 1, v2, 2⟩]
  refine ⟨_, st, D, fun b => match (([[⟨[⟨0, 0, 1, v1, 1⟩], .ok exPsf⟩, ⟨[], .ok exPsf⟩], [⟨[⟨0, 0, 1, v2, 2⟩], .ok exPsf⟩]] :
    List (List Img)).zip D)[b]? with
    | some x => FluxBand.overlap x / FluxBand.power x
    | none => 0, h, hD, fun b x hx => ?_⟩
  have hb : getBandPars "gauss" [0, 0, 0, 0, 1, 2, 3] 0 = .ok [0, 0, 0, 0, 1, 2] ∧
      getBandPars "gauss" [0, 0, 0, 0, 1, 2, 3] 1 = .ok [0, 0, 0, 0, 1, 3] := by
    have h6 := fun k => C47_band_pars "gauss" 6 rfl (by simp) [0, 0, 0, 0, 1] [2, 3] rfl k
    exact ⟨((h6 0).1 (by simp)).1, ((h6 1).1 (by simp)).1⟩
  have hpos : 0 < FluxBand.power x := by
    obtain ⟨d1, d2⟩ := hD
    rw [List.getElem?_zip_eq_some] at hx
    obtain ⟨hx1, hx2⟩ := hx
    obtain ⟨bp, hbp, hf⟩ := d2 b x.1 x.2 hx1 hx2
    simp only [FMKind.bandPars] at hbp hf
    match b, hx1 with
    | 0, hx1 =>
      simp only [List.getElem?_cons_zero, Option.some.injEq] at hx1
      rw [hb.1, Except.ok.injEq] at hbp
      rw [← hx1, ← hbp] at hf
      obtain ⟨d, ds, hd, hds, hc⟩ := List.forall₂_cons_left_iff.1 hf
      obtain ⟨d', ds', hd', hds', hc'⟩ := List.forall₂_cons_left_iff.1 hds
      have hp := ex_centre 2 two_pos d (by rw [← ex_modelFor]; exact hd)
      unfold FluxBand.power FluxBand.sum
      rw [← hx1, hc, hc']
      simp only [List.zip_cons_cons, List.map_cons, List.map_nil, List.sum_cons, List.sum_nil, List.zip_nil_left]
      positivity
    | 1, hx1 =>
      simp only [List.getElem?_cons_succ, List.getElem?_cons_zero, Option.some.injEq] at hx1
      rw [hb.2, Except.ok.injEq] at hbp
      rw [← hx1, ← hbp] at hf
      obtain ⟨d, ds, hd, hds, hc⟩ := List.forall₂_cons_left_iff.1 hf
      have hp := ex_centre 3 three_pos d (by rw [← ex_modelFor]; exact hd)
      unfold FluxBand.power FluxBand.sum
      rw [← hx1, hc]
      simp only [List.zip_cons_cons, List.map_cons, List.map_nil, List.sum_cons, List.sum_nil, List.zip_nil_left]
      positivity
    | b + 2, hx1 => simp at hx1
  refine ⟨hpos, ?_⟩
  simp only at hx ⊢
  rw [hx]
  exact div_mul_cancel₀ _ hpos.ne'

end

end Ngmix.Props
