import Verif.Spec.GMix
import Mathlib.Algebra.BigOperators.Ring.List
import Mathlib.Algebra.BigOperators.Group.List.Lemmas
import Mathlib.Tactic.FieldSimp
import Mathlib.Tactic.Linarith
import Mathlib.Tactic.LinearCombination

/-!
# Gaussian mixtures: parameters, flux, centre (C18), convolution (C19)
-/

namespace Ngmix.Props

open Ngmix Ngmix.Spec

/-! ## C18 -/

theorem psum_eq_flux (gm : List Gauss) : psum gm = Flux gm := rfl

theorem centroid_iff (gm : List Gauss) (r c : ℝ) : Centroid gm r c ↔
    Flux gm ≠ 0 ∧ (gm.map fun g => g.row * g.p).sum = r * Flux gm ∧
      (gm.map fun g => g.col * g.p).sum = c * Flux gm := by
  have gen : ∀ (f : Gauss → ℝ) (x : ℝ), (gm.map fun g => g.p * (f g - x)).sum =
      (gm.map fun g => f g * g.p).sum - x * Flux gm := by
    intro f x
    unfold Flux
    induction gm with
    | nil => simp
    | cons g gm ih => simp only [List.map_cons, List.sum_cons, ih]; ring
  unfold Centroid
  rw [gen, gen, sub_eq_zero, sub_eq_zero]

theorem getCen_iff (gm : List Gauss) (r c : ℝ) : getCen gm = some (r, c) ↔ Centroid gm r c := by
  rw [centroid_iff, getCen, psum_eq_flux]
  by_cases h : Flux gm = 0
  · simp [h]
  · simp only [h, if_false, Option.some.injEq, Prod.mk.injEq, ne_eq, not_false_eq_true, true_and]
    rw [div_eq_iff h, div_eq_iff h]

/-- C18: the reported centre is the centroid, and there is one exactly when the flux is not zero. -/
theorem C18_centroid (gm : List Gauss) :
    (∀ r c, getCen gm = some (r, c) ↔ Centroid gm r c) ∧ (getCen gm = none ↔ Flux gm = 0) := by
  refine ⟨getCen_iff gm, ?_⟩
  rw [getCen, psum_eq_flux]
  by_cases h : Flux gm = 0 <;> simp [h]

theorem getMoms_iff (gm : List Gauss) (a b c : ℝ) :
    getMoms gm = some (a, b, c) ↔ SecondMoments gm a b c := by
  unfold getMoms SecondMoments
  have key : ∀ (f : Gauss → ℝ), Flux gm ≠ 0 → ∀ x : ℝ,
      (gm.map fun g => f g * g.p).sum * (1 / Flux gm) = x ↔
      (gm.map fun g => g.p * f g).sum = Flux gm * x := by
    intro f hf x
    have : (gm.map fun g => g.p * f g) = gm.map fun g => f g * g.p :=
      List.map_congr_left fun g _ => by ring
    rw [this, mul_one_div, div_eq_iff hf, mul_comm x]
  constructor
  · intro h
    rcases hc : getCen gm with _ | ⟨r, k⟩
    · rw [hc] at h; simp at h
    · have hcen := (getCen_iff gm r k).mp hc
      rw [hc] at h
      simp only [Option.map_some, Option.some.injEq, Prod.mk.injEq, psum_eq_flux] at h
      obtain ⟨h1, h2, h3⟩ := h
      refine ⟨r, k, hcen, ?_, ?_, ?_⟩
      · rw [← (key (fun g => g.irr + (g.row - r) * (g.row - r)) hcen.1 a), ← h1]
        simp only [pow_two]
      · rw [← (key (fun g => g.irc + (g.row - r) * (g.col - k)) hcen.1 b), ← h2]
      · rw [← (key (fun g => g.icc + (g.col - k) * (g.col - k)) hcen.1 c), ← h3]
        simp only [pow_two]
  · rintro ⟨r, k, hcen, h1, h2, h3⟩
    rw [(getCen_iff gm r k).mpr hcen]
    simp only [Option.map_some, Option.some.injEq, Prod.mk.injEq, psum_eq_flux]
    refine ⟨?_, ?_, ?_⟩
    · rw [← (key (fun g => g.irr + (g.row - r) * (g.row - r)) hcen.1 a)] at h1
      rw [← h1]; simp only [pow_two]
    · rw [← (key (fun g => g.irc + (g.row - r) * (g.col - k)) hcen.1 b)] at h2
      rw [← h2]
    · rw [← (key (fun g => g.icc + (g.col - k) * (g.col - k)) hcen.1 c)] at h3
      rw [← h3]; simp only [pow_two]

/-- C18: `get_T` is the trace of the second moments about the centroid, and `get_e1e2T` the usual
ellipticity of them. -/
theorem C18_size_and_shape (gm : List Gauss) (a b c : ℝ) (h : SecondMoments gm a b c) :
    gmGetT gm = some (a + c) ∧
    (a + c ≠ 0 → gmGetE1e2T gm = some ((c - a) / (a + c), 2 * b / (a + c), a + c)) := by
  rw [← getMoms_iff] at h
  refine ⟨by rw [gmGetT, h]; rfl, fun h0 => ?_⟩
  simp [gmGetE1e2T, h, h0]

/-- C18: setting the flux gives that flux, multiplies all fluxes by one factor, leaves everything else
alone, and asks for the norms to be recomputed; it cannot be done when the flux is zero. -/
theorem C18_set_flux (gm : List Gauss) (f : ℝ) :
    (setFlux gm f = none ↔ Flux gm = 0) ∧
    ∀ gm', setFlux gm f = some gm' → Flux gm' = f ∧ gm'.length = gm.length ∧
      (∃ k : ℝ, List.Forall₂ (fun g g' => g'.p = g.p * k ∧ g'.row = g.row ∧ g'.col = g.col ∧
        g'.irr = g.irr ∧ g'.irc = g.irc ∧ g'.icc = g.icc ∧ g'.det = g.det ∧ g'.normSet = false) gm gm') ∧
      (f ≠ 0 → ∀ r c, Centroid gm r c → Centroid gm' r c) ∧
      (f ≠ 0 → ∀ a b c, SecondMoments gm a b c → SecondMoments gm' a b c) := by
  rw [setFlux, psum_eq_flux]
  by_cases h : Flux gm = 0
  · simp [h]
  · simp only [h, if_false, Option.some.injEq, reduceCtorEq, iff_self, true_and]
    intro gm' hg
    subst hg
    have hflux : Flux (gm.map fun g => { g with p := g.p * (f / Flux gm), normSet := false }) = f := by
      unfold Flux
      rw [List.map_map]
      simp only [Function.comp_def]
      rw [List.sum_map_mul_right]
      exact mul_div_cancel₀ f h
    have scal : ∀ F : Gauss → ℝ,
        (∀ g : Gauss, ∀ k : ℝ, F { g with p := g.p * k, normSet := false } = F g * k) →
        ((gm.map fun g => { g with p := g.p * (f / Flux gm), normSet := false }).map F).sum =
          (gm.map F).sum * (f / Flux gm) := by
      intro F hF
      rw [List.map_map, ← List.sum_map_mul_right]
      congr 1
      exact List.map_congr_left fun g _ => hF g _
    have hcen : f ≠ 0 → ∀ r c, Centroid gm r c →
        Centroid (gm.map fun g => { g with p := g.p * (f / Flux gm), normSet := false }) r c := by
      intro hf r c hc
      refine ⟨by rw [hflux]; exact hf, ?_, ?_⟩
      · rw [scal _ (fun g k => by ring), hc.2.1, zero_mul]
      · rw [scal _ (fun g k => by ring), hc.2.2, zero_mul]
    refine ⟨hflux, by simp, ⟨f / Flux gm, ?_⟩, hcen, ?_⟩
    · rw [List.forall₂_map_right_iff, List.forall₂_same]
      simp
    · rintro hf a b c ⟨r, k, hc, h1, h2, h3⟩
      have e : ∀ x : ℝ, Flux gm * x * (f / Flux gm) = f * x := by
        intro x; field_simp
      refine ⟨r, k, hcen hf r k hc, ?_, ?_, ?_⟩
      · rw [scal _ (fun g k => by ring), h1, hflux, e]
      · rw [scal _ (fun g k => by ring), h2, hflux, e]
      · rw [scal _ (fun g k => by ring), h3, hflux, e]

/-- C18: `set_cen` moves the centroid to the requested place by the same displacement for every
gaussian and keeps flux, size, shape and norms. -/
theorem C18_set_cen (gm : List Gauss) (row col : ℝ) :
    (setCen gm row col = none ↔ Flux gm = 0) ∧
    ∀ gm', setCen gm row col = some gm' → Centroid gm' row col ∧ Flux gm' = Flux gm ∧
      (∃ dr dc : ℝ, List.Forall₂ (fun g g' => g' = { g with row := g.row + dr, col := g.col + dc })
        gm gm') ∧
      (∀ a b c, SecondMoments gm a b c → SecondMoments gm' a b c) := by
  constructor
  · rw [setCen, Option.map_eq_none_iff]; exact (C18_centroid gm).2
  · intro gm' hg
    rcases hc : getCen gm with _ | ⟨r, k⟩
    · simp [setCen, hc] at hg
    · have hcen := (getCen_iff gm r k).mp hc
      simp only [setCen, hc, Option.map_some, Option.some.injEq] at hg
      subst hg
      have hfl : Flux (gm.map fun g => { g with row := g.row + (row - r), col := g.col + (col - k) })
          = Flux gm := by simp [Flux, Function.comp_def]
      have hcen' : Centroid (gm.map fun g =>
          { g with row := g.row + (row - r), col := g.col + (col - k) }) row col := by
        refine ⟨by rw [hfl]; exact hcen.1, ?_, ?_⟩
        · rw [List.map_map, ← hcen.2.1]
          congr 1
          exact List.map_congr_left fun g _ => by simp only [Function.comp_def]; ring
        · rw [List.map_map, ← hcen.2.2]
          congr 1
          exact List.map_congr_left fun g _ => by simp only [Function.comp_def]; ring
      refine ⟨hcen', hfl, ⟨row - r, col - k, ?_⟩, ?_⟩
      · rw [List.forall₂_map_right_iff, List.forall₂_same]
        simp
      · rintro a b c ⟨r', k', hc', h1, h2, h3⟩
        have e := (getCen_iff gm r' k').mpr hc'
        rw [hc] at e
        simp only [Option.some.injEq, Prod.mk.injEq] at e
        obtain ⟨rfl, rfl⟩ := e
        refine ⟨row, col, hcen', ?_, ?_, ?_⟩
        · rw [hfl, ← h1, List.map_map]
          congr 1
          exact List.map_congr_left fun g _ => by simp only [Function.comp_def]; ring
        · rw [hfl, ← h2, List.map_map]
          congr 1
          exact List.map_congr_left fun g _ => by simp only [Function.comp_def]; ring
        · rw [hfl, ← h3, List.map_map]
          congr 1
          exact List.map_congr_left fun g _ => by simp only [Function.comp_def]; ring

theorem fillFull_getFullPars (gm : List Gauss) :
    List.Forall₂ (fun g g' => SameGauss g g' ∧ DetCurrent g' ∧ g'.normSet = false) gm
      (fillFull (getFullPars gm)) := by
  induction gm with
  | nil => exact .nil
  | cons g gm ih =>
    refine .cons ⟨⟨rfl, rfl, rfl, rfl, rfl, rfl⟩, rfl, rfl⟩ ?_
    exact ih

theorem getFullPars_length (gm : List Gauss) : (getFullPars gm).length = 6 * gm.length := by
  induction gm with
  | nil => rfl
  | cons g gm ih =>
    simp only [getFullPars, List.flatMap_cons, List.length_append, List.length_cons, List.length_nil] at ih ⊢
    omega

theorem fillFull_spec : ∀ (n : ℕ) (pars : List ℝ), pars.length = 6 * n →
    (fillFull pars).length = n ∧ getFullPars (fillFull pars) = pars := by
  intro n
  induction n with
  | zero =>
    intro pars h
    rw [Nat.mul_zero, List.length_eq_zero_iff] at h
    subst h
    exact ⟨rfl, rfl⟩
  | succ n ih =>
    intro pars h
    match pars, h with
    | p :: row :: col :: irr :: irc :: icc :: rest, h =>
      have : rest.length = 6 * n := by simp only [List.length_cons] at h; omega
      obtain ⟨h1, h2⟩ := ih rest this
      simp only [fillFull]
      refine ⟨by simp [h1], ?_⟩
      simp only [getFullPars, List.flatMap_cons] at h2 ⊢
      rw [h2]
      rfl

/-- C18: a mixture can be built from parameters exactly when their number is a multiple of six
(ValueError otherwise, and when nothing is sent); its parameters are then the given ones. -/
theorem C18_construct (pars : List ℝ) (n : Option ℕ) :
    (¬ 6 ∣ pars.length → newGMix n (some pars) = .error .value) ∧
    newGMix none none = .error .value ∧
    (6 ∣ pars.length → ∃ o, newGMix n (some pars) = .ok o ∧ getFullPars o.data = pars ∧
      o.data.length = pars.length / 6 ∧ o.ngauss = pars.length / 6) := by
  refine ⟨fun h => ?_, rfl, fun h => ?_⟩
  · simp only [newGMix]
    rw [if_pos (by omega)]
  · obtain ⟨k, hk⟩ := h
    obtain ⟨h1, h2⟩ := fillFull_spec k pars hk
    refine ⟨⟨.full, pars.length, pars.length / 6, pars, fillFull pars⟩, ?_, h2, ?_, rfl⟩
    · simp only [newGMix]
      rw [if_neg (by omega)]
      rfl
    · show (fillFull pars).length = _
      rw [h1]; omega

/-- C18: rebuilding a mixture from its full parameters gives the same gaussians in the same order. -/
theorem C18_full_pars_roundtrip (gm : List Gauss) : ∃ o, newGMix none (some (getFullPars gm)) = .ok o ∧
    List.Forall₂ SameGauss gm o.data ∧
    ((∀ g ∈ gm, DetCurrent g) → gmEq gm o.data = .ok true) := by
  obtain ⟨o, ho, -⟩ := (C18_construct (getFullPars gm) none).2.2
    (by rw [getFullPars_length]; exact Dvd.intro _ rfl)
  have ho' : newGMix none (some (getFullPars gm)) = .ok ⟨.full, (getFullPars gm).length,
      (getFullPars gm).length / 6, getFullPars gm, fillFull (getFullPars gm)⟩ := by
    simp only [newGMix]
    rw [if_neg (by rw [getFullPars_length]; omega)]
    rfl
  have h1 := fillFull_getFullPars gm
  refine ⟨_, ho', h1.imp fun a b h => h.1, fun hd => ?_⟩
  have hmap : ∀ f : Gauss → ℝ, (∀ a ∈ gm, ∀ b, SameGauss a b → DetCurrent b → f a = f b) →
      gm.map f = (fillFull (getFullPars gm)).map f := by
    intro f hf
    have : ∀ (l l' : List Gauss), (∀ x ∈ l, x ∈ gm) →
        List.Forall₂ (fun g g' => SameGauss g g' ∧ DetCurrent g' ∧ g'.normSet = false) l l' →
        l.map f = l'.map f := by
      intro l l' hl h
      induction h with
      | nil => rfl
      | cons h _ ih =>
        rw [List.map_cons, List.map_cons, hf _ (hl _ List.mem_cons_self) _ h.1 h.2.1,
          ih fun x hx => hl x (List.mem_cons_of_mem _ hx)]
    exact this _ _ (fun _ h => h) h1
  have e1 := hmap Gauss.p fun a _ b h _ => h.1
  have e2 := hmap Gauss.row fun a _ b h _ => h.2.1
  have e3 := hmap Gauss.col fun a _ b h _ => h.2.2.1
  have e4 := hmap Gauss.irr fun a _ b h _ => h.2.2.2.1
  have e5 := hmap Gauss.irc fun a _ b h _ => h.2.2.2.2.1
  have e6 := hmap Gauss.icc fun a _ b h _ => h.2.2.2.2.2
  have e7 := hmap Gauss.det fun a ha b h hb => by
    rw [hd a ha, hb, h.2.2.2.1, h.2.2.2.2.1, h.2.2.2.2.2]
  simp only [gmEq, List.foldl_cons, List.foldl_nil, fieldEq, e1, e2, e3, e4, e5, e6, e7, if_true,
    decide_true]

/-- C18: copying a general mixture gives one with identical gaussians, and it compares equal. -/
theorem C18_copy (o : GMixObj) (hk : o.kind = .full) :
    ∃ o', copyGMix o = .ok o' ∧ o'.data = o.data ∧ o'.ngauss = o.ngauss ∧ gmEq o.data o'.data = .ok true := by
  refine ⟨{ resetObj .full (6 * o.ngauss) o.ngauss with data := o.data }, by simp only [copyGMix, hk],
    rfl, rfl, ?_⟩
  simp [gmEq, fieldEq]

/-- C18 (violation): comparing mixtures of different lengths broadcasts, so a one-gaussian mixture
equals any mixture of copies of that gaussian. -/
theorem C18_eq_broadcasts (g : Gauss) : gmEq [g] [g, g] = .ok true ∧
    (g.p ≠ 0 → Flux [g] ≠ Flux [g, g]) := by
  refine ⟨by simp [gmEq, fieldEq], fun h => ?_⟩
  simp only [Flux, List.map_cons, List.map_nil, List.sum_cons, List.sum_nil]
  intro h2
  apply h
  linarith

example : Centroid [gauss2dSet 1 0 0 1 0 1, gauss2dSet 3 4 8 1 0 1] 3 6 := by
  refine ⟨?_, ?_, ?_⟩ <;> norm_num [Flux, gauss2dSet]

/-! ## C19 -/

theorem gmixGetCen_eq (gm : List Gauss) : gmixGetCen gm =
    if Flux gm = 0 then .error .zeroDiv else
      .ok ((gm.map fun g => g.row * g.p).sum / Flux gm, (gm.map fun g => g.col * g.p).sum / Flux gm,
        Flux gm) := by
  have : ∀ (l : List Gauss) (a b c : ℝ), l.foldl (fun (acc : ℝ × ℝ × ℝ) g =>
      (acc.1 + g.p * g.row, acc.2.1 + g.p * g.col, acc.2.2 + g.p)) (a, b, c) =
      (a + (l.map fun g => g.row * g.p).sum, b + (l.map fun g => g.col * g.p).sum, c + Flux l) := by
    intro l
    induction l with
    | nil => simp [Flux]
    | cons g l ih =>
      intro a b c
      rw [List.foldl_cons, ih]
      simp only [Flux, List.map_cons, List.sum_cons, Prod.mk.injEq]
      refine ⟨?_, ?_, ?_⟩ <;> ring
  unfold gmixGetCen
  rw [this]
  simp only [zero_add]

theorem gmixGetCen_ok (gm : List Gauss) (r c f : ℝ) :
    gmixGetCen gm = .ok (r, c, f) ↔ Centroid gm r c ∧ f = Flux gm := by
  rw [gmixGetCen_eq, centroid_iff]
  by_cases h : Flux gm = 0
  · simp [h]
  · simp only [h, if_false, Except.ok.injEq, Prod.mk.injEq, ne_eq, not_false_eq_true, true_and]
    rw [div_eq_iff h, div_eq_iff h]
    constructor
    · rintro ⟨a, b, c⟩; exact ⟨⟨a, b⟩, c.symm⟩
    · rintro ⟨⟨a, b⟩, c⟩; exact ⟨a, b, c.symm⟩

/-- The double sum over a convolution. -/
theorem conv_sum (gm psf : List Gauss) (h : Gauss → Gauss → Gauss) (F : Gauss → ℝ) :
    ((gm.flatMap fun o => psf.map fun q => h o q).map F).sum =
      (gm.map fun o => (psf.map fun q => F (h o q)).sum).sum := by
  induction gm with
  | nil => rfl
  | cons o gm ih =>
    rw [List.flatMap_cons, List.map_append, List.sum_append, ih]
    simp [Function.comp_def]

theorem sep_sum (gm psf : List Gauss) (a b : Gauss → ℝ) :
    (gm.map fun o => (psf.map fun q => a o * b q).sum).sum = (gm.map a).sum * (psf.map b).sum := by
  simp only [List.sum_map_mul_left, List.sum_map_mul_right]

theorem dadd_sum (gm psf : List Gauss) (a b : Gauss → Gauss → ℝ) :
    (gm.map fun o => (psf.map fun q => a o q + b o q).sum).sum =
      (gm.map fun o => (psf.map fun q => a o q).sum).sum +
      (gm.map fun o => (psf.map fun q => b o q).sum).sum := by
  simp only [List.sum_map_add]

/-- The flux, centroid and second moments of a convolution. -/
theorem conv_moments (gm psf : List Gauss) (rq cq : ℝ) (hq : Centroid psf rq cq) (cv : List Gauss)
    (h : cv = gm.flatMap fun o => psf.map fun q =>
      gauss2dSet (o.p * q.p * (1 / Flux psf)) (o.row + (q.row - rq)) (o.col + (q.col - cq))
        (o.irr + q.irr) (o.irc + q.irc) (o.icc + q.icc)) :
    Flux cv = Flux gm ∧
    (∀ r c, Centroid gm r c → Centroid cv r c) ∧
    (∀ a b c a' b' c', SecondMoments gm a b c → SecondMoments psf a' b' c' →
      SecondMoments cv (a + a') (b + b') (c + c')) := by
  obtain ⟨hQ, hqr, hqc⟩ := hq
  have hflux : Flux cv = Flux gm := by
    rw [h]
    unfold Flux
    rw [conv_sum]
    have : (gm.map fun o => (psf.map fun q => (gauss2dSet (o.p * q.p * (1 / Flux psf))
        (o.row + (q.row - rq)) (o.col + (q.col - cq)) (o.irr + q.irr) (o.irc + q.irc)
        (o.icc + q.icc)).p).sum).sum = (gm.map fun o => (psf.map fun q => o.p * (q.p * (1 / Flux psf))).sum).sum := by
      simp only [gauss2dSet, mul_assoc]
    unfold Flux at this
    rw [this, sep_sum, List.sum_map_mul_right]
    show Flux gm * (Flux psf * (1 / Flux psf)) = Flux gm
    rw [mul_one_div, div_self hQ, mul_one]
  have cen : ∀ r c, Centroid gm r c → Centroid cv r c := by
    rintro r c ⟨h0, h1, h2⟩
    refine ⟨by rw [hflux]; exact h0, ?_, ?_⟩
    · rw [h, conv_sum]
      have : (fun o : Gauss => (psf.map fun q => (gauss2dSet (o.p * q.p * (1 / Flux psf))
          (o.row + (q.row - rq)) (o.col + (q.col - cq)) (o.irr + q.irr) (o.irc + q.irc)
          (o.icc + q.icc)).p * ((gauss2dSet (o.p * q.p * (1 / Flux psf))
          (o.row + (q.row - rq)) (o.col + (q.col - cq)) (o.irr + q.irr) (o.irc + q.irc)
          (o.icc + q.icc)).row - r)).sum) = fun o => (psf.map fun q =>
            (o.p * (o.row - r)) * (q.p * (1 / Flux psf)) +
            (o.p * (1 / Flux psf)) * (q.p * (q.row - rq))).sum := by
        funext o
        congr 1
        exact List.map_congr_left fun q _ => by simp only [gauss2dSet]; ring
      rw [this, dadd_sum, sep_sum, sep_sum, h1, hqr]
      ring
    · rw [h, conv_sum]
      have : (fun o : Gauss => (psf.map fun q => (gauss2dSet (o.p * q.p * (1 / Flux psf))
          (o.row + (q.row - rq)) (o.col + (q.col - cq)) (o.irr + q.irr) (o.irc + q.irc)
          (o.icc + q.icc)).p * ((gauss2dSet (o.p * q.p * (1 / Flux psf))
          (o.row + (q.row - rq)) (o.col + (q.col - cq)) (o.irr + q.irr) (o.irc + q.irc)
          (o.icc + q.icc)).col - c)).sum) = fun o => (psf.map fun q =>
            (o.p * (o.col - c)) * (q.p * (1 / Flux psf)) +
            (o.p * (1 / Flux psf)) * (q.p * (q.col - cq))).sum := by
        funext o
        congr 1
        exact List.map_congr_left fun q _ => by simp only [gauss2dSet]; ring
      rw [this, dadd_sum, sep_sum, sep_sum, h2, hqc]
      ring
  refine ⟨hflux, cen, ?_⟩
  rintro a b c a' b' c' ⟨r, k, hc, m1, m2, m3⟩ ⟨r', k', hc', m1', m2', m3'⟩
  have e := (getCen_iff psf r' k').mpr hc'
  rw [(getCen_iff psf rq cq).mpr ⟨hQ, hqr, hqc⟩] at e
  simp only [Option.some.injEq, Prod.mk.injEq] at e
  obtain ⟨rfl, rfl⟩ := e
  obtain ⟨h0, h1, h2⟩ := hc
  have pq : (psf.map fun q => q.p * (1 / Flux psf)).sum = 1 := by
    rw [List.sum_map_mul_right]
    show Flux psf * (1 / Flux psf) = 1
    rw [mul_one_div, div_self hQ]
  have po : (gm.map fun o => o.p * (1 / Flux psf)).sum = Flux gm / Flux psf := by
    rw [List.sum_map_mul_right]
    show Flux gm * (1 / Flux psf) = _
    rw [mul_one_div]
  -- a separable expansion of the second moment sums
  have gen : ∀ (I : Gauss → ℝ) (x y : Gauss → ℝ) (x' y' : Gauss → ℝ) (A A' : ℝ),
      (gm.map fun o => o.p * x o).sum = 0 → (gm.map fun o => o.p * y o).sum = 0 →
      (psf.map fun q => q.p * x' q).sum = 0 → (psf.map fun q => q.p * y' q).sum = 0 →
      (gm.map fun o => o.p * (I o + x o * y o)).sum = Flux gm * A →
      (psf.map fun q => q.p * (I q + x' q * y' q)).sum = Flux psf * A' →
      (gm.map fun o => (psf.map fun q => (o.p * q.p * (1 / Flux psf)) *
        ((I o + I q) + (x o + x' q) * (y o + y' q))).sum).sum = Flux gm * (A + A') := by
    intro I x y x' y' A A' hx hy hx' hy' hA hA'
    have : (fun o : Gauss => (psf.map fun q => (o.p * q.p * (1 / Flux psf)) *
        ((I o + I q) + (x o + x' q) * (y o + y' q))).sum) = fun o => (psf.map fun q =>
          (o.p * (I o + x o * y o)) * (q.p * (1 / Flux psf)) +
          ((o.p * (1 / Flux psf)) * (q.p * (I q + x' q * y' q)) +
          ((o.p * x o) * ((q.p * y' q) * (1 / Flux psf)) +
            (o.p * y o) * ((q.p * x' q) * (1 / Flux psf))))).sum := by
      funext o
      congr 1
      exact List.map_congr_left fun q _ => by ring
    rw [this, dadd_sum, dadd_sum, dadd_sum, sep_sum, sep_sum, sep_sum, sep_sum, pq, po, hx, hy, hA, hA']
    field_simp
    ring
  refine ⟨r, k, cen r k ⟨h0, h1, h2⟩, ?_, ?_, ?_⟩
  · rw [hflux, h, conv_sum, ← gen Gauss.irr (fun o => o.row - r) (fun o => o.row - r)
      (fun q => q.row - rq) (fun q => q.row - rq) a a' h1 h1 hqr hqr m1 m1']
    congr 1
    refine List.map_congr_left fun o _ => ?_
    congr 1
    exact List.map_congr_left fun q _ => by simp only [gauss2dSet]; ring
  · rw [hflux, h, conv_sum, ← gen Gauss.irc (fun o => o.row - r) (fun o => o.col - k)
      (fun q => q.row - rq) (fun q => q.col - cq) b b' h1 h2 hqr hqc m2 m2']
    congr 1
    refine List.map_congr_left fun o _ => ?_
    congr 1
    exact List.map_congr_left fun q _ => by simp only [gauss2dSet]; ring
  · rw [hflux, h, conv_sum, ← gen Gauss.icc (fun o => o.col - k) (fun o => o.col - k)
      (fun q => q.col - cq) (fun q => q.col - cq) c c' h2 h2 hqc hqc m3 m3']
    congr 1
    refine List.map_congr_left fun o _ => ?_
    congr 1
    exact List.map_congr_left fun q _ => by simp only [gauss2dSet]; ring

/-- C19: convolution fails exactly when the psf has zero total flux, with ZeroDivisionError. -/
theorem C19_fails (gm psf : List Gauss) :
    (Flux psf = 0 → gmixConvolve gm psf = .error .zeroDiv) ∧
    (Flux psf ≠ 0 → ∃ cv, gmixConvolve gm psf = .ok cv) := by
  rw [gmixConvolve, gmixGetCen_eq]
  constructor <;> intro h
  · rw [if_pos h]; rfl
  · rw [if_neg h]; exact ⟨_, rfl⟩

/-- C19: the convolution has one gaussian per pair, its flux and centroid are the object's whatever
the psf's normalisation and position, and its second moments are the sum of both. -/
theorem C19_convolution (gm psf cv : List Gauss) (h : gmixConvolve gm psf = .ok cv) :
    cv.length = gm.length * psf.length ∧ Flux cv = Flux gm ∧
    (∀ r c, Centroid gm r c → Centroid cv r c) ∧
    (∀ a b c a' b' c', SecondMoments gm a b c → SecondMoments psf a' b' c' →
      SecondMoments cv (a + a') (b + b') (c + c')) ∧
    (∀ T T', gmGetT gm = some T → gmGetT psf = some T' → gmGetT cv = some (T + T')) := by
  rw [gmixConvolve] at h
  rcases hc : gmixGetCen psf with e | ⟨r, c, f⟩
  · rw [hc] at h; simp [Except.map] at h
  · obtain ⟨h1, h2⟩ := (gmixGetCen_ok psf r c f).mp hc
    rw [hc] at h
    simp only [Except.map, Except.ok.injEq] at h
    rw [h2] at h
    obtain ⟨k1, k2, k3⟩ := conv_moments gm psf r c h1 cv h.symm
    refine ⟨?_, k1, k2, k3, ?_⟩
    · rw [← h, List.length_flatMap]
      simp
    · intro T T' hT hT'
      rw [gmGetT, Option.map_eq_some_iff] at hT hT'
      obtain ⟨⟨a, b, k⟩, e1, rfl⟩ := hT
      obtain ⟨⟨a', b', k'⟩, e2, rfl⟩ := hT'
      have := (C18_size_and_shape cv _ _ _ (k3 _ _ _ _ _ _ ((getMoms_iff gm a b k).mp e1)
        ((getMoms_iff psf a' b' k').mp e2))).1
      rw [this]
      congr 1
      ring

/-- C19: gaussian number `i * m + j` of the convolution combines gaussian `i` of the object with
gaussian `j` of the psf: the covariances add, the psf's offset from its own centre is added to the
object's position, and the flux is shared in proportion. -/
theorem C19_pairs (gm psf cv : List Gauss) (h : gmixConvolve gm psf = .ok cv) (rq cq : ℝ)
    (hq : Centroid psf rq cq) :
    List.Forall₂ (fun (x : Gauss × Gauss) g => g.irr = x.1.irr + x.2.irr ∧ g.irc = x.1.irc + x.2.irc ∧
        g.icc = x.1.icc + x.2.icc ∧ g.row = x.1.row + (x.2.row - rq) ∧ g.col = x.1.col + (x.2.col - cq) ∧
        g.p * Flux psf = x.1.p * x.2.p ∧ DetCurrent g ∧ g.normSet = false)
      (gm.flatMap fun o => psf.map fun q => (o, q)) cv := by
  rw [gmixConvolve, (gmixGetCen_ok psf rq cq (Flux psf)).mpr ⟨hq, rfl⟩] at h
  simp only [Except.map, Except.ok.injEq] at h
  rw [← h]
  clear h
  induction gm with
  | nil => exact .nil
  | cons o gm ih =>
    rw [List.flatMap_cons, List.flatMap_cons]
    refine List.rel_append ?_ ih
    rw [List.forall₂_map_right_iff, List.forall₂_map_left_iff, List.forall₂_same]
    intro q _
    refine ⟨rfl, rfl, rfl, rfl, rfl, ?_, rfl, rfl⟩
    simp only [gauss2dSet]
    rw [mul_assoc, one_div, inv_mul_cancel₀ hq.1, mul_one]

example : ∃ cv, gmixConvolve [gauss2dSet 1 0 0 1 0 1, gauss2dSet 3 4 8 1 0 1]
    [gauss2dSet 2 0 1 1 0 1] = .ok cv ∧ cv.length = 2 := by
  obtain ⟨cv, h⟩ := (C19_fails [gauss2dSet 1 0 0 1 0 1, gauss2dSet 3 4 8 1 0 1]
    [gauss2dSet 2 0 1 1 0 1]).2 (by norm_num [Flux, gauss2dSet])
  exact ⟨cv, h, (C19_convolution _ _ _ h).1⟩

theorem e1e2TSums_eq (row col : ℝ) (gm : List Gauss) : e1e2TSums row col gm =
    ((gm.map fun g => g.p * (g.irr + (g.row - row) * (g.row - row))).sum,
      (gm.map fun g => g.p * (g.irc + (g.row - row) * (g.col - col))).sum,
      (gm.map fun g => g.p * (g.icc + (g.col - col) * (g.col - col))).sum, Flux gm) := by
  have : ∀ (l : List Gauss) (a b c d : ℝ), l.foldl (fun (acc : ℝ × ℝ × ℝ × ℝ) g =>
      let rowdiff := g.row - row
      let coldiff := g.col - col
      (acc.1 + g.p * (g.irr + rowdiff * rowdiff), acc.2.1 + g.p * (g.irc + rowdiff * coldiff),
        acc.2.2.1 + g.p * (g.icc + coldiff * coldiff), acc.2.2.2 + g.p)) (a, b, c, d) =
      (a + (l.map fun g => g.p * (g.irr + (g.row - row) * (g.row - row))).sum,
        b + (l.map fun g => g.p * (g.irc + (g.row - row) * (g.col - col))).sum,
        c + (l.map fun g => g.p * (g.icc + (g.col - col) * (g.col - col))).sum, d + Flux l) := by
    intro l
    induction l with
    | nil => simp [Flux]
    | cons g l ih =>
      intro a b c d
      rw [List.foldl_cons, ih]
      simp only [Flux, List.map_cons, List.sum_cons, Prod.mk.injEq]
      refine ⟨?_, ?_, ?_, ?_⟩ <;> ring
  unfold e1e2TSums
  rw [this]
  simp only [zero_add]

/-- C18: the compiled `gmix_get_e1e2T` gives the ellipticity and size of the second moments, like the method `get_e1e2T`,
but refuses with GMixRangeError every mixture whose size times flux is not positive, and divides by zero when the flux is. -/
theorem C18_compiled_shape (gm : List Gauss) :
    (Flux gm = 0 → gmixGetE1e2T gm = .error .zeroDiv) ∧
    ∀ a b c, SecondMoments gm a b c →
      (0 < (a + c) * Flux gm → gmixGetE1e2T gm = .ok ((c - a) / (a + c), 2 * b / (a + c), a + c) ∧
        gmGetE1e2T gm = some ((c - a) / (a + c), 2 * b / (a + c), a + c)) ∧
      ((a + c) * Flux gm ≤ 0 → gmixGetE1e2T gm = .error .gmixRange) := by
  constructor
  · intro h
    unfold gmixGetE1e2T
    rw [gmixGetCen_eq, if_pos h]
    rfl
  · intro a b c hm
    have hm0 := hm
    obtain ⟨r, k, hc, h1, h2, h3⟩ := hm
    have hF : Flux gm ≠ 0 := hc.1
    have hcen := (gmixGetCen_ok gm r k (Flux gm)).mpr ⟨hc, rfl⟩
    have e : gmixGetE1e2T gm = if Flux gm = 0 then .error .gmixRange else
        if Flux gm = 0 then .error .zeroDiv else
        if a * Flux gm + c * Flux gm ≤ 0 then .error .gmixRange else
        .ok ((c * Flux gm - a * Flux gm) / (a * Flux gm + c * Flux gm), 2 * (b * Flux gm) / (a * Flux gm + c * Flux gm),
          (a * Flux gm + c * Flux gm) / Flux gm) := by
      unfold gmixGetE1e2T
      rw [hcen]
      simp only [Except.bind, e1e2TSums_eq]
      have k1 : (gm.map fun g => g.p * (g.irr + (g.row - r) * (g.row - r))).sum = a * Flux gm := by rw [h1]; ring
      have k2 : (gm.map fun g => g.p * (g.irc + (g.row - r) * (g.col - k))).sum = b * Flux gm := by rw [h2]; ring
      have k3 : (gm.map fun g => g.p * (g.icc + (g.col - k) * (g.col - k))).sum = c * Flux gm := by rw [h3]; ring
      rw [k1, k2, k3]
    rw [e, if_neg hF, if_neg hF, ← add_mul]
    constructor
    · intro hpos
      have hne : a + c ≠ 0 := by rintro h0; rw [h0, zero_mul] at hpos; exact lt_irrefl _ hpos
      rw [if_neg (not_le.mpr hpos)]
      refine ⟨?_, (C18_size_and_shape gm a b c hm0).2 hne⟩
      congr 1
      simp only [Prod.mk.injEq]
      refine ⟨?_, ?_, ?_⟩ <;> field_simp
    · intro hle
      rw [if_pos hle]

example : gmixGetE1e2T [gauss2dSet 1 0 0 1 0 3] = .ok (1 / 2, 0, 4) := by
  have hm : SecondMoments [gauss2dSet 1 0 0 1 0 3] 1 0 3 := by
    refine ⟨0, 0, ⟨?_, ?_, ?_⟩, ?_, ?_, ?_⟩ <;> norm_num [Flux, gauss2dSet]
  have := (((C18_compiled_shape [gauss2dSet 1 0 0 1 0 3]).2 1 0 3 hm).1 (by norm_num [Flux, gauss2dSet])).1
  rw [this]
  norm_num

end Ngmix.Props
