import Verif.Props.FastExp

/-!
# Likelihood and residuals (C27)
-/

namespace Ngmix.Props

open Ngmix Ngmix.Spec

/-- The weighted residual of one pixel. -/
noncomputable def residual (gm : List Gauss) (px : Pixel) : ℝ :=
  (gmixEvalFast gm px.v px.u px.area - px.val) * px.ierr

/-- C27: a mixture is the sum of its components. -/
theorem C27_sum_of_components (gm : List Gauss) (v u area : ℝ) :
    gmixEvalFast gm v u area = (gm.map fun g => gaussEvalFast g v u area).sum := by
  have : ∀ (l : List Gauss) (a : ℝ), l.foldl (fun acc g => acc + gaussEvalFast g v u area) a =
      a + (l.map fun g => gaussEvalFast g v u area).sum := by
    intro l
    induction l with
    | nil => intro a; simp
    | cons x l ih =>
      intro a
      rw [List.foldl_cons, ih, List.map_cons, List.sum_cons]
      ring
  rw [gmixEvalFast, this, zero_add]

theorem loglike_sums (gm : List Gauss) (pixels : List Pixel) :
    (loglikeLoop gm pixels).loglike = (pixels.map fun px => residual gm px ^ 2).sum ∧
    (loglikeLoop gm pixels).numer =
      (pixels.map fun px => px.val * gmixEvalFast gm px.v px.u px.area * (px.ierr * px.ierr)).sum ∧
    (loglikeLoop gm pixels).denom =
      (pixels.map fun px => gmixEvalFast gm px.v px.u px.area ^ 2 * (px.ierr * px.ierr)).sum ∧
    (loglikeLoop gm pixels).npix = pixels.length := by
  have : ∀ (l : List Pixel) (a : LogLike), l.foldl (fun (a : LogLike) px =>
      ⟨a.loglike + (gmixEvalFast gm px.v px.u px.area - px.val) *
          (gmixEvalFast gm px.v px.u px.area - px.val) * (px.ierr * px.ierr),
        a.numer + px.val * gmixEvalFast gm px.v px.u px.area * (px.ierr * px.ierr),
        a.denom + gmixEvalFast gm px.v px.u px.area * gmixEvalFast gm px.v px.u px.area *
          (px.ierr * px.ierr), a.npix + 1⟩) a =
      ⟨a.loglike + (l.map fun px => residual gm px ^ 2).sum,
        a.numer + (l.map fun px => px.val * gmixEvalFast gm px.v px.u px.area * (px.ierr * px.ierr)).sum,
        a.denom + (l.map fun px => gmixEvalFast gm px.v px.u px.area ^ 2 * (px.ierr * px.ierr)).sum,
        a.npix + l.length⟩ := by
    intro l
    induction l with
    | nil => intro a; simp
    | cons x l ih =>
      intro a
      rw [List.foldl_cons, ih]
      simp only [List.map_cons, List.sum_cons, List.length_cons, residual]
      congr 1
      · ring
      · ring
      · ring
      · omega
  have h := this pixels ⟨0, 0, 0, 0⟩
  unfold loglikeLoop
  simp only
  rw [h]
  simp

theorem fdiffLoop_get (gm : List Gauss) (start : ℕ) : ∀ (pixels : List Pixel) (k : ℕ) (l : List ℝ),
    let r := (pixels.foldl (fun (st : ℕ × List ℝ) px =>
      (st.1 + 1, st.2.set (start + st.1) (residual gm px))) (k, l)).2
    r.length = l.length ∧
    (∀ i (hi : i < pixels.length), start + k + i < l.length →
      r[start + k + i]? = some (residual gm pixels[i])) ∧
    (∀ j, j < start + k ∨ start + k + pixels.length ≤ j → r[j]? = l[j]?) := by
  intro pixels
  induction pixels with
  | nil => intro k l; simp
  | cons px pixels ih =>
    intro k l
    simp only [List.foldl_cons]
    obtain ⟨h1, h2, h3⟩ := ih (k + 1) (l.set (start + k) (residual gm px))
    refine ⟨by simpa using h1, ?_, ?_⟩
    · intro i hi hlt
      cases i with
      | zero =>
        rw [h3 (start + k + 0) (by omega)]
        simp only [add_zero, List.getElem_cons_zero]
        rw [List.getElem?_set_self (by omega)]
      | succ i =>
        have := h2 i (by simpa using hi) (by simp only [List.length_set]; omega)
        rw [show start + k + (i + 1) = start + (k + 1) + i by omega]
        simpa using this
    · intro j hj
      simp only [List.length_cons] at hj
      rw [h3 j (by omega), List.getElem?_set_ne (by omega)]

/-- C27: `fill_fdiff` writes the weighted residuals of the pixels, in order, in the slots
`start .. start + npix - 1`, and nothing else. -/
theorem C27_fdiff_slots (gm gm' : List Gauss) (pixels : List Pixel) (start : ℕ) (fdiff out : List ℝ)
    (h : fillFdiffNb gm pixels start fdiff = (gm', .ok out)) :
    out.length = fdiff.length ∧
    (∀ i (hi : i < pixels.length), start + i < fdiff.length →
      out[start + i]? = some ((gmixEvalFast gm' pixels[i].v pixels[i].u pixels[i].area - pixels[i].val) *
        pixels[i].ierr)) ∧
    (∀ j, j < start ∨ start + pixels.length ≤ j → out[j]? = fdiff[j]?) := by
  unfold fillFdiffNb at h
  rcases hs : setNormsIfNeeded gm with ⟨g1, r⟩
  rw [hs] at h
  cases r with
  | error e => simp at h
  | ok _ =>
    simp only [Prod.mk.injEq, Except.ok.injEq] at h
    obtain ⟨rfl, rfl⟩ := h
    exact fdiffLoop_get g1 start pixels 0 fdiff

/-- C27: the log likelihood is minus half the sum of the squares of the residual vector; it is never
positive; both calls succeed or fail together and leave the same mixture. -/
theorem C27_loglike (gm : List Gauss) (pixels : List Pixel) (start : ℕ) (fdiff : List ℝ)
    (hroom : start + pixels.length ≤ fdiff.length) :
    (∀ gm' e, getLoglike gm pixels = (gm', .error e) ↔ fillFdiffNb gm pixels start fdiff = (gm', .error e)) ∧
    (∀ gm' L, getLoglike gm pixels = (gm', .ok L) → ∃ out,
      fillFdiffNb gm pixels start fdiff = (gm', .ok out) ∧
      L.loglike = -(1 / 2) * (((out.drop start).take pixels.length).map fun x => x ^ 2).sum ∧
      L.loglike ≤ 0 ∧ L.npix = pixels.length) := by
  unfold getLoglike fillFdiffNb
  rcases hs : setNormsIfNeeded gm with ⟨g1, r⟩
  cases r with
  | error e => simp
  | ok _ =>
    refine ⟨by simp, ?_⟩
    intro gm' L hL
    simp only [Prod.mk.injEq, Except.ok.injEq] at hL
    obtain ⟨rfl, rfl⟩ := hL
    obtain ⟨h1, -, -, h4⟩ := loglike_sums g1 pixels
    refine ⟨_, rfl, ?_, ?_, h4⟩
    · obtain ⟨k1, k2, k3⟩ := C27_fdiff_slots gm g1 pixels start fdiff (fdiffLoop g1 pixels start fdiff)
        (by unfold fillFdiffNb; rw [hs])
      have hlist : ((fdiffLoop g1 pixels start fdiff).drop start).take pixels.length =
          pixels.map (residual g1) := by
        apply List.ext_getElem?
        intro i
        by_cases hi : i < pixels.length
        · rw [List.getElem?_take_of_lt hi, List.getElem?_drop, k2 i hi (by omega), List.getElem?_map,
            List.getElem?_eq_getElem hi]
          rfl
        · rw [List.getElem?_eq_none (by simp; omega), List.getElem?_eq_none (by simp; omega)]
      simp only
      rw [hlist, h1, List.map_map]
      norm_num [Function.comp_def]
      ring
    · simp only
      rw [h1]
      have : 0 ≤ (pixels.map fun px => residual g1 px ^ 2).sum :=
        List.sum_nonneg (by
          intro x hx
          rw [List.mem_map] at hx
          obtain ⟨a, -, rfl⟩ := hx
          positivity)
      norm_num
      linarith

/-- C27: the other two sums, and the S/N of the model. -/
theorem C27_s2n_sums (gm gm' : List Gauss) (pixels : List Pixel) (L : LogLike)
    (h : getLoglike gm pixels = (gm', .ok L)) :
    L.numer = (pixels.map fun px => px.val * gmixEvalFast gm' px.v px.u px.area * (px.ierr * px.ierr)).sum ∧
    L.denom = (pixels.map fun px => gmixEvalFast gm' px.v px.u px.area ^ 2 * (px.ierr * px.ierr)).sum ∧
    modelS2nSum gm pixels = (gm', .ok L.denom) ∧ 0 ≤ L.denom := by
  unfold getLoglike at h
  rcases hs : setNormsIfNeeded gm with ⟨g1, r⟩
  rw [hs] at h
  cases r with
  | error e => simp at h
  | ok _ =>
    simp only [Prod.mk.injEq, Except.ok.injEq] at h
    obtain ⟨rfl, rfl⟩ := h
    obtain ⟨-, h2, h3, -⟩ := loglike_sums g1 pixels
    refine ⟨h2, h3, ?_, ?_⟩
    · unfold modelS2nSum
      rw [hs]
      simp only
      rw [h3]
      congr 2
      have : ∀ (l : List Pixel) (a : ℝ), l.foldl (fun s px =>
          s + gmixEvalFast g1 px.v px.u px.area * gmixEvalFast g1 px.v px.u px.area * (px.ierr * px.ierr)) a =
          a + (l.map fun px => gmixEvalFast g1 px.v px.u px.area ^ 2 * (px.ierr * px.ierr)).sum := by
        intro l
        induction l with
        | nil => intro a; simp
        | cons x l ih =>
          intro a
          rw [List.foldl_cons, ih, List.map_cons, List.sum_cons]
          ring
      rw [this, zero_add]
    · simp only
      rw [h3]
      refine List.sum_nonneg ?_
      intro x hx
      rw [List.mem_map] at hx
      obtain ⟨a, -, rfl⟩ := hx
      exact mul_nonneg (sq_nonneg _) (mul_self_nonneg _)

/-- C27: at the API. The request is refused with ValueError exactly when the array has less room after
`start` than the image has pixels; an accepted request never writes out of range, as the pixels are at
most as many as the image has. -/
theorem C27_fill_fdiff_check (gm : List Gauss) (n : ℕ) (pixels : List Pixel) (fdiff : List ℝ) (start : ℕ) :
    ((fdiff.length : ℤ) - start < n → fillFdiffObj gm n pixels fdiff start = (gm, .error .value)) ∧
    (start + n ≤ fdiff.length → pixels.length ≤ n →
      fillFdiffObj gm n pixels fdiff start = fillFdiffNb gm pixels start fdiff ∧
      start + pixels.length ≤ fdiff.length) := by
  unfold fillFdiffObj
  constructor
  · intro h
    rw [if_pos h]
  · intro h hp
    rw [if_neg (by omega)]
    exact ⟨rfl, by omega⟩

/-- C27 (limitation of the unchanged code): with zero-weight pixels left out the array that has exactly
enough room for the pixels is refused. -/
theorem C27_exact_room_refused (gm : List Gauss) (n : ℕ) (pixels : List Pixel) (fdiff : List ℝ)
    (hp : pixels.length < n) (hf : fdiff.length = pixels.length) :
    fillFdiffObj gm n pixels fdiff 0 = (gm, .error .value) :=
  (C27_fill_fdiff_check gm n pixels fdiff 0).1 (by push_cast; omega)

/-- The hypotheses are met: a unit gaussian and any pixels. -/
example (pixels : List Pixel) : ∃ gm' L, getLoglike [gauss2dSet 1 0 0 1 0 1] pixels = (gm', .ok L) := by
  have hu : Usable (gauss2dSet 1 0 0 1 0 1) := by
    constructor <;> norm_num [gauss2dSet, gmixLowDetval]
  obtain ⟨h1, -⟩ := (C20_set_norms [gauss2dSet 1 0 0 1 0 1] (by intro g hg; simp at hg; subst hg; rfl)).1
    (by simpa using hu)
  have hs : setNormsIfNeeded [gauss2dSet 1 0 0 1 0 1] = ((gmixSetNorms [gauss2dSet 1 0 0 1 0 1]).1, .ok ()) := by
    rw [← h1]; rfl
  unfold getLoglike
  rw [hs]
  exact ⟨_, _, rfl⟩

end Ngmix.Props
