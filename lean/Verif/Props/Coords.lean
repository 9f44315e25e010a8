import Verif.Spec.Coords
import Verif.Props.FitSetup
import Verif.Props.Pixels
import Verif.Props.Likelihood
import Verif.Props.GMixMore

/-!
# Images, likelihoods and fits do not depend on the coordinates of the sky (C93)
-/

namespace Ngmix.Props

open Ngmix Ngmix.Spec

noncomputable section

/-! ### Evaluation -/

theorem moved_det {M : SkyMap} {g g' : Gauss} (h : Moved M g g') :
    g'.irr * g'.icc - g'.irc * g'.irc = M.det ^ 2 * (g.irr * g.icc - g.irc * g.irc) := by
  obtain ⟨-, -, h1, h2, h3⟩ := h
  rw [h1, h2, h3, SkyMap.det]
  ring

/-- Norms set in both coordinate systems give the same numbers in corresponding points. -/
theorem moved_eval {M : SkyMap} (hM : M.det ≠ 0) {g g' n n' : Gauss} (h : Moved M g g')
    (hn : SameGauss g n ∧ NormsCurrent n) (hn' : SameGauss g' n' ∧ NormsCurrent n') (x : ℝ × ℝ) (area : ℝ) :
    gaussEvalFast n' (M.point x).1 (M.point x).2 (|M.det| * area) = gaussEvalFast n x.1 x.2 area ∧
    gaussEval n' (M.point x).1 (M.point x).2 (|M.det| * area) = gaussEval n x.1 x.2 area := by
  obtain ⟨⟨a1, a2, a3, a4, a5, a6⟩, e, he, hD, b1, b2, b3, -, b5⟩ := hn
  obtain ⟨⟨a1', a2', a3', a4', a5', a6'⟩, e', he', hD', b1', b2', b3', -, b5'⟩ := hn'
  have hdet := moved_det h
  obtain ⟨hp, hx, h1, h2, h3⟩ := h
  simp only [SkyMap.point, Prod.mk.injEq] at hx
  rw [← a4, ← a5, ← a6] at hD b1 b2 b3 b5
  rw [← a4', ← a5', ← a6'] at hD' b1' b2' b3' b5'
  rw [hdet] at b1' b2' b3' b5'
  have hM2 : M.det ^ 2 ≠ 0 := pow_ne_zero 2 hM
  have hchi : gaussChi2 n' e' (M.point x).1 (M.point x).2 = gaussChi2 n e x.1 x.2 := by
    simp only [gaussChi2, SkyMap.point]
    rw [← a2', ← a3', hx.1, hx.2, b1', b2', b3', ← a2, ← a3, b1, b2, b3, h1, h2, h3]
    generalize hDD : g.irr * g.icc - g.irc * g.irc = D at *
    have hD0 : D ≠ 0 := hD.ne'
    have hd2 : M.det ^ 2 = (M.a * M.d - M.b * M.c) ^ 2 := rfl
    field_simp
    rw [hd2]
    ring
  have hpn : e'.pnorm * |M.det| = e.pnorm := by
    rw [b5', b5, ← a1', ← a1, hp, Real.sqrt_mul (sq_nonneg _), Real.sqrt_sq_eq_abs]
    have := abs_pos.2 hM
    have hs := Real.sqrt_pos.2 hD
    have := Real.pi_pos
    field_simp
  constructor
  · simp only [gaussEvalFast, he, he', hchi]
    split_ifs
    · rw [← hpn]; ring
    · rfl
  · simp only [gaussEval, he, he', hchi, Option.map_some]
    rw [← hpn]
    congr 1
    ring

/-- Norms set in both coordinate systems. -/
def BothReady (M : SkyMap) (n n' : Gauss) : Prop :=
  ∀ (x : ℝ × ℝ) (area : ℝ),
    gaussEvalFast n' (M.point x).1 (M.point x).2 (|M.det| * area) = gaussEvalFast n x.1 x.2 area ∧
    gaussEval n' (M.point x).1 (M.point x).2 (|M.det| * area) = gaussEval n x.1 x.2 area

theorem both_fast {M : SkyMap} {gm gm' : List Gauss} (h : List.Forall₂ (BothReady M) gm gm') (x : ℝ × ℝ) (area : ℝ) :
    gmixEvalFast gm' (M.point x).1 (M.point x).2 (|M.det| * area) = gmixEvalFast gm x.1 x.2 area := by
  rw [C27_sum_of_components, C27_sum_of_components]
  congr 1
  induction h with
  | nil => rfl
  | cons h1 _ ih => simp only [List.map_cons, ih, (h1 x area).1]

theorem both_exact {M : SkyMap} {gm gm' : List Gauss} (h : List.Forall₂ (BothReady M) gm gm') (x : ℝ × ℝ) (area : ℝ) :
    gmixEval gm' (M.point x).1 (M.point x).2 (|M.det| * area) = gmixEval gm x.1 x.2 area := by
  unfold gmixEval
  generalize (some 0 : Option ℝ) = s
  induction h generalizing s with
  | nil => rfl
  | cons h1 _ ih => simp only [List.foldl_cons, (h1 x area).2, ih]

/-- A mixture as made, convolved or moved: its determinants are those of its covariances, its norms are not set and
can be. -/
def Fresh (gm : List Gauss) : Prop := ∀ g ∈ gm, DetCurrent g ∧ g.normSet = false ∧ Usable g

theorem fresh_ready {gm : List Gauss} (h : Fresh gm) : ∃ d, setNormsIfNeeded gm = (d, .ok ()) ∧
    List.Forall₂ (fun g n => SameGauss g n ∧ NormsCurrent n) gm d := by
  obtain ⟨h1, h2⟩ := (C20_set_norms gm fun g hg => (h g hg).1).1 fun g hg => (h g hg).2.2
  refine ⟨(gmixSetNorms gm).1, ?_, h2.imp fun _ _ h => ⟨h.1, h.2.2.1⟩⟩
  match gm, h, h1 with
  | [], _, _ => rfl
  | g :: gs, h, h1 =>
    simp only [setNormsIfNeeded, (h g List.mem_cons_self).2.1, Bool.false_eq_true, if_false]
    rw [← h1]

theorem both_ready {M : SkyMap} (hM : M.det ≠ 0) {gm gm' : List Gauss} (hmv : List.Forall₂ (Moved M) gm gm')
    (h : Fresh gm) (h' : Fresh gm') : ∃ d d', setNormsIfNeeded gm = (d, .ok ()) ∧ setNormsIfNeeded gm' = (d', .ok ()) ∧
      List.Forall₂ (BothReady M) d d' := by
  obtain ⟨d, h1, h2⟩ := fresh_ready h
  obtain ⟨d', h1', h2'⟩ := fresh_ready h'
  refine ⟨d, d', h1, h1', ?_⟩
  clear h1 h1' h h'
  induction hmv generalizing d d' with
  | nil => cases h2; cases h2'; exact .nil
  | cons hm _ ih =>
    cases h2 with
    | cons a1 a2 =>
      cases h2' with
      | cons b1 b2 => exact .cons (fun x area => moved_eval hM hm a1 b1 x area) (ih _ a2 _ b2)

/-! ### Pixels -/

theorem sameSky_area {M : SkyMap} {j j' : Jacobian} (hj : JacWF j) (hj' : JacWF j') (h : SameSky M j j') :
    j'.area = |M.det| * j.area := by
  have a1 := h j.row0 j.col0
  have a2 := h (j.row0 + 1) j.col0
  have a3 := h j.row0 (j.col0 + 1)
  simp only [Jacobian.getVU, SkyMap.point, Prod.mk.injEq] at a1 a2 a3
  have e1 : j'.dvdrow = M.a * j.dvdrow + M.b * j.dudrow := by linarith [a1.1, a2.1]
  have e2 : j'.dvdcol = M.a * j.dvdcol + M.b * j.dudcol := by linarith [a1.1, a3.1]
  have e3 : j'.dudrow = M.c * j.dvdrow + M.d * j.dudrow := by linarith [a1.2, a2.2]
  have e4 : j'.dudcol = M.c * j.dvdcol + M.d * j.dudcol := by linarith [a1.2, a3.2]
  have hdet : j'.det = M.det * j.det := by
    rw [jacWF_det hj', jacWF_det hj, e1, e2, e3, e4, SkyMap.det]
    ring
  unfold Jacobian.area
  rw [hj.2, hj'.2, Real.sq_sqrt (abs_nonneg _), Real.sq_sqrt (abs_nonneg _), hdet, abs_mul]

/-- C93: the pixels of the same image and weight map with the Jacobians of two coordinate systems are the same pixels,
moved. -/
theorem C93_pixels {M : SkyMap} {j j' : Jacobian} (hj : JacWF j) (hj' : JacWF j') (h : SameSky M j j')
    (image weight : Image) (hshape : weight.nrow = image.nrow ∧ weight.ncol = image.ncol) (ignore : Bool) :
    (∀ e, makePixels image weight j ignore = .error e ↔ makePixels image weight j' ignore = .error e) ∧
    (∀ px, makePixels image weight j ignore = .ok px → ∃ px', makePixels image weight j' ignore = .ok px' ∧
      List.Forall₂ (MovedPixel M) px px') := by
  have harea := sameSky_area hj hj' h
  have key : ∀ (l : List (ℕ × ℕ)) (px px' : List Pixel), List.Forall₂ (PixelOf image weight j) l px →
      List.Forall₂ (PixelOf image weight j') l px' → List.Forall₂ (MovedPixel M) px px' := by
    intro l px px' h1
    induction h1 generalizing px' with
    | nil => intro h2; cases h2; exact .nil
    | cons a _ ih =>
      intro h2
      cases h2 with
      | cons b hb =>
        refine .cons ?_ (ih _ hb)
        obtain ⟨a1, a2, a3, a4⟩ := a
        obtain ⟨b1, b2, b3, b4⟩ := b
        refine ⟨?_, by rw [b2, a2, harea], by rw [b3, a3], ?_⟩
        · rw [b1, a1, h]
        · exact (sq_eq_sq₀ b4.1 a4.1).1 (by rw [a4.2, b4.2])
  cases ignore with
  | false =>
    obtain ⟨p, h1, -, h2⟩ := C17_make_pixels_all image weight j
    obtain ⟨p', h1', -, h2'⟩ := C17_make_pixels_all image weight j'
    rw [h1, h1']
    refine ⟨by simp, fun px hpx => ⟨p', rfl, ?_⟩⟩
    simp only [Except.ok.injEq] at hpx
    exact hpx ▸ key _ _ _ h2 h2'
  | true =>
    obtain ⟨e1, o1⟩ := C17_make_pixels_ignore image weight j hshape
    obtain ⟨e2, o2⟩ := C17_make_pixels_ignore image weight j' hshape
    by_cases hg : positiveWeight image.nrow image.ncol weight.get = []
    · rw [e1 hg, e2 hg]
      simp
    · obtain ⟨p, h1, h2⟩ := o1 hg
      obtain ⟨p', h1', h2'⟩ := o2 hg
      rw [h1, h1']
      refine ⟨by simp, fun px hpx => ⟨p', rfl, ?_⟩⟩
      simp only [Except.ok.injEq] at hpx
      exact hpx ▸ key _ _ _ h2 h2'

theorem foldl_pair {α β β' : Type} {R : β → β' → Prop} {f : α → β → α} {f' : α → β' → α}
    (h : ∀ s x x', R x x' → f' s x' = f s x) {l : List β} {l' : List β'} (hl : List.Forall₂ R l l') (s : α) :
    l'.foldl f' s = l.foldl f s := by
  induction hl generalizing s with
  | nil => rfl
  | cons h1 _ ih => rw [List.foldl_cons, List.foldl_cons, h _ _ _ h1, ih]

/-- C93: log likelihood, signal to noise sums and residuals do not depend on the coordinates. -/
theorem C93_likelihood {M : SkyMap} (hM : M.det ≠ 0) {gm gm' : List Gauss} (hmv : List.Forall₂ (Moved M) gm gm')
    (h : Fresh gm) (h' : Fresh gm') {px px' : List Pixel} (hpx : List.Forall₂ (MovedPixel M) px px') :
    (getLoglike gm' px').2 = (getLoglike gm px).2 ∧ (modelS2nSum gm' px').2 = (modelS2nSum gm px).2 ∧
    (∀ start fdiff, (fillFdiffNb gm' px' start fdiff).2 = (fillFdiffNb gm px start fdiff).2) ∧
    (∃ L, (getLoglike gm px).2 = .ok L) := by
  obtain ⟨d, d', h1, h1', hb⟩ := both_ready hM hmv h h'
  have hval : ∀ x x', MovedPixel M x x' → gmixEvalFast d' x'.v x'.u x'.area = gmixEvalFast d x.v x.u x.area := by
    rintro x x' ⟨a1, a2, -, -⟩
    have := both_fast hb (x.v, x.u) x.area
    rw [← a2] at this
    rw [show x'.v = (M.point (x.v, x.u)).1 from congrArg Prod.fst a1,
      show x'.u = (M.point (x.v, x.u)).2 from congrArg Prod.snd a1, this]
  refine ⟨?_, ?_, ?_, ?_⟩
  · unfold getLoglike
    rw [h1, h1']
    simp only [loglikeLoop]
    rw [foldl_pair (R := MovedPixel M) ?_ hpx]
    intro s x x' hx
    rw [hval x x' hx, hx.2.2.1, hx.2.2.2]
  · unfold modelS2nSum
    rw [h1, h1']
    simp only
    rw [foldl_pair (R := MovedPixel M) ?_ hpx]
    intro s x x' hx
    rw [hval x x' hx, hx.2.2.2]
  · intro start fdiff
    unfold fillFdiffNb
    rw [h1, h1']
    simp only [fdiffLoop]
    rw [foldl_pair (R := MovedPixel M) ?_ hpx]
    intro s x x' hx
    rw [hval x x' hx, hx.2.2.1, hx.2.2.2]
  · unfold getLoglike
    rw [h1]
    exact ⟨_, rfl⟩

/-- C93: the image of a mixture does not depend on the coordinates, neither with the exact nor with the fast
exponential. -/
theorem C93_image {M : SkyMap} (hM : M.det ≠ 0) {gm gm' : List Gauss} (hmv : List.Forall₂ (Moved M) gm gm')
    (h : Fresh gm) (h' : Fresh gm') {j j' : Jacobian} (hj : JacWF j) (hj' : JacWF j') (hs : SameSky M j j')
    (nrow ncol : ℕ) (fast : Bool) :
    (gmixMakeImage gm' [(nrow : ℤ), (ncol : ℤ)] (some j') fast).2 =
      (gmixMakeImage gm [(nrow : ℤ), (ncol : ℤ)] (some j) fast).2 ∧
    ∃ im, (gmixMakeImage gm [(nrow : ℤ), (ncol : ℤ)] (some j) fast).2 = .ok im := by
  obtain ⟨d, d', h1, h1', hb⟩ := both_ready hM hmv h h'
  have harea := sameSky_area hj hj' hs
  have hc : List.Forall₂ (fun c c' : Coord => (c'.v, c'.u) = M.point (c.v, c.u) ∧ c'.area = |M.det| * c.area)
      (makeCoords nrow ncol j) (makeCoords nrow ncol j') := by
    have a := C17_make_coords nrow ncol j
    have b := C17_make_coords nrow ncol j'
    generalize makeCoords nrow ncol j = l at a
    generalize makeCoords nrow ncol j' = l' at b
    generalize rowMajor nrow ncol = r at a b
    induction a generalizing l' with
    | nil => cases b; exact .nil
    | cons x _ ih =>
      cases b with
      | cons y hy =>
        refine .cons ⟨?_, ?_⟩ (ih _ hy)
        · rw [y.1, x.1, hs]
        · rw [y.2, x.2, harea]
  have hlen := hc.length_eq
  have hmap : (makeCoords nrow ncol j').map (fun _ => (some 0 : Option ℝ)) =
      (makeCoords nrow ncol j).map fun _ => some 0 := by
    rw [List.map_const', List.map_const', hlen]
  have hneg : ¬ ((nrow : ℤ) < 0 ∨ (ncol : ℤ) < 0) := by omega
  simp only [gmixMakeImage, if_neg hneg, imageJacobian, Int.toNat_natCast]
  unfold render
  rw [h1, h1', hmap]
  refine ⟨?_, _, rfl⟩
  simp only
  rw [foldl_pair (R := fun c c' : Coord => (c'.v, c'.u) = M.point (c.v, c.u) ∧ c'.area = |M.det| * c.area) ?_ hc]
  rintro s c c' ⟨a1, a2⟩
  have f := both_fast hb (c.v, c.u) c.area
  have e := both_exact hb (c.v, c.u) c.area
  rw [← a2] at f e
  rw [show c'.v = (M.point (c.v, c.u)).1 from congrArg Prod.fst a1,
    show c'.u = (M.point (c.v, c.u)).2 from congrArg Prod.snd a1, f, e]

/-! ### Convolution -/

theorem gcen_moved {M : SkyMap} {q q' : List Gauss} (h : List.Forall₂ (Moved M) q q') :
    Flux q' = Flux q ∧ ∀ r c, Centroid q r c → Centroid q' (M.point (r, c)).1 (M.point (r, c)).2 := by
  have hf : Flux q' = Flux q := by
    unfold Flux
    induction h with
    | nil => rfl
    | cons a _ ih => rw [List.map_cons, List.map_cons, List.sum_cons, List.sum_cons, a.1, ih]
  refine ⟨hf, fun r c hc => ?_⟩
  obtain ⟨h0, h1, h2⟩ := hc
  refine ⟨by rw [hf]; exact h0, ?_, ?_⟩
  · have : (q'.map fun g => g.p * (g.row - (M.point (r, c)).1)).sum =
        M.a * (q.map fun g => g.p * (g.row - r)).sum + M.b * (q.map fun g => g.p * (g.col - c)).sum := by
      clear h0 h1 h2 hf
      induction h with
      | nil => simp
      | cons a _ ih =>
        obtain ⟨a1, a2, -⟩ := a
        simp only [SkyMap.point, Prod.mk.injEq] at a2 ih ⊢
        simp only [List.map_cons, List.sum_cons, ih, a1, a2.1]
        ring
    rw [this, h1, h2]
    ring
  · have : (q'.map fun g => g.p * (g.col - (M.point (r, c)).2)).sum =
        M.c * (q.map fun g => g.p * (g.row - r)).sum + M.d * (q.map fun g => g.p * (g.col - c)).sum := by
      clear h0 h1 h2 hf
      induction h with
      | nil => simp
      | cons a _ ih =>
        obtain ⟨a1, a2, -⟩ := a
        simp only [SkyMap.point, Prod.mk.injEq] at a2 ih ⊢
        simp only [List.map_cons, List.sum_cons, ih, a1, a2.2]
        ring
    rw [this, h1, h2]
    ring

/-- C93: convolution commutes with the change of coordinates; the psf may have an origin of its own. -/
theorem C93_convolve {M N : SkyMap} (hN : M.a = N.a ∧ M.b = N.b ∧ M.c = N.c ∧ M.d = N.d) {gm gm' q q' : List Gauss}
    (hmv : List.Forall₂ (Moved M) gm gm') (hq : List.Forall₂ (Moved N) q q') :
    (∀ e, gmixConvolve gm q = .error e ↔ gmixConvolve gm' q' = .error e) ∧
    (∀ cv, gmixConvolve gm q = .ok cv → ∃ cv', gmixConvolve gm' q' = .ok cv' ∧ List.Forall₂ (Moved M) cv cv') := by
  obtain ⟨hf, hc⟩ := gcen_moved hq
  obtain ⟨n1, n2, n3, n4⟩ := hN
  by_cases h0 : Flux q = 0
  · rw [(C19_fails gm q).1 h0, (C19_fails gm' q').1 (hf.trans h0)]
    simp
  · obtain ⟨cv, hcv⟩ := (C19_fails gm q).2 h0
    obtain ⟨cv', hcv'⟩ := (C19_fails gm' q').2 (by rw [hf]; exact h0)
    rw [hcv, hcv']
    refine ⟨by simp, fun x hx => ⟨cv', rfl, ?_⟩⟩
    simp only [Except.ok.injEq] at hx
    subst hx
    obtain ⟨r, c, hrc⟩ : ∃ r c, gmixGetCen q = .ok (r, c, Flux q) := by
      rw [gmixGetCen_eq, if_neg h0]
      exact ⟨_, _, rfl⟩
    have hrc' := (gmixGetCen_ok q' _ _ _).2 ⟨hc r c ((gmixGetCen_ok q r c _).1 hrc).1, rfl⟩
    rw [gmixConvolve, hrc] at hcv
    rw [gmixConvolve, hrc'] at hcv'
    simp only [Except.map, Except.ok.injEq] at hcv hcv'
    subst hcv
    subst hcv'
    rw [hf]
    clear hrc hrc' hc hf h0
    induction hmv with
    | nil => exact .nil
    | cons a _ ih =>
      rw [List.flatMap_cons, List.flatMap_cons]
      refine List.rel_append ?_ ih
      obtain ⟨a1, a2, a3, a4, a5⟩ := a
      simp only [SkyMap.point, Prod.mk.injEq] at a2
      generalize hF : Flux q = F
      clear hF ih
      induction hq with
      | nil => exact .nil
      | cons b _ ih2 =>
        obtain ⟨b1, b2, b3, b4, b5⟩ := b
        simp only [SkyMap.point, Prod.mk.injEq] at b2
        refine .cons ⟨?_, ?_, ?_, ?_, ?_⟩ ih2
        · simp only [gauss2dSet, a1, b1]
        · simp only [gauss2dSet, SkyMap.point, Prod.mk.injEq, a2.1, a2.2, b2.1, b2.2, n1, n2, n3, n4]
          constructor <;> ring
        · simp only [gauss2dSet, a3, b3, n1, n2]; ring
        · simp only [gauss2dSet, a4, b4, n1, n2, n3, n4]; ring
        · simp only [gauss2dSet, a5, b5, n3, n4]; ring

/-! ### Models -/

theorem simShape_eq (theta eps g1 g2 : ℝ) : simShape theta eps g1 g2 =
    (g1 * Real.cos (2 * theta) + g2 * Real.sin (2 * theta),
      eps * (-g1 * Real.sin (2 * theta) + g2 * Real.cos (2 * theta))) := by
  have h : Complex.exp (-(2 * (theta : ℂ)) * Complex.I) = ⟨Real.cos (2 * theta), -Real.sin (2 * theta)⟩ := by
    rw [show -(2 * (theta : ℂ)) * Complex.I = ((-(2 * theta) : ℝ) : ℂ) * Complex.I by push_cast; ring]
    apply Complex.ext
    · rw [Complex.exp_ofReal_mul_I_re]; simp
    · rw [Complex.exp_ofReal_mul_I_im]; simp
  unfold simShape spin2 toC
  rw [h]
  simp only [Complex.mul_re, Complex.mul_im]
  ext
  · simp only; ring
  · simp only; ring

/-- C93: the shape of the new coordinates is the one `get_rotated` computes. -/
theorem C93_rotated (theta g1 g2 : ℝ) : simShape theta 1 g1 g2 = rotateShape g1 g2 theta := by
  rw [simShape_eq, rotateShape, one_mul]

theorem simShape_norm (theta eps g1 g2 : ℝ) (he : eps ^ 2 = 1) :
    (simShape theta eps g1 g2).1 ^ 2 + (simShape theta eps g1 g2).2 ^ 2 = g1 ^ 2 + g2 ^ 2 := by
  rw [simShape_eq]
  simp only
  have := Real.sin_sq_add_cos_sq (2 * theta)
  have e : (g1 * Real.cos (2 * theta) + g2 * Real.sin (2 * theta)) ^ 2 +
      (eps * (-g1 * Real.sin (2 * theta) + g2 * Real.cos (2 * theta))) ^ 2 =
      (g1 * Real.cos (2 * theta) + g2 * Real.sin (2 * theta)) ^ 2 +
      eps ^ 2 * (-g1 * Real.sin (2 * theta) + g2 * Real.cos (2 * theta)) ^ 2 := by ring
  rw [e, he]
  linear_combination (g1 ^ 2 + g2 ^ 2) * this

theorem simShape_smul (theta eps g1 g2 f : ℝ) : simShape theta eps (f * g1) (f * g2) =
    (f * (simShape theta eps g1 g2).1, f * (simShape theta eps g1 g2).2) := by
  rw [simShape_eq, simShape_eq]
  ext <;> simp only <;> ring

/-- One gaussian of a model, moved. -/
theorem coGauss_moved (k theta eps s t : ℝ) (he : eps ^ 2 = 1) (p row col h e1 e2 : ℝ) :
    Moved (simMap k theta eps s t) (coGauss p row col h e1 e2)
      (coGauss p ((simMap k theta eps s t).point (row, col)).1 ((simMap k theta eps s t).point (row, col)).2
        (k ^ 2 * h) (simShape theta eps e1 e2).1 (simShape theta eps e1 e2).2) := by
  rw [simShape_eq]
  have hc := Real.cos_sq' theta
  have h1 := Real.cos_two_mul theta
  have h2 := Real.sin_two_mul theta
  have e3 : eps * eps = 1 := by rw [← he]; ring
  refine ⟨rfl, rfl, ?_, ?_, ?_⟩
  · simp only [coGauss, gauss2dSet, simMap, h1, h2]
    linear_combination (-(k ^ 2 * h * (1 + e1))) * hc
  · simp only [coGauss, gauss2dSet, simMap, h1, h2]
    linear_combination (k ^ 2 * eps * h * e2) * hc
  · simp only [coGauss, gauss2dSet, simMap, h1, h2]
    linear_combination (-(k ^ 2 * h * (1 + e1 * (2 * Real.cos theta ^ 2 - 1) +
      2 * Real.sin theta * Real.cos theta * e2))) * he + (-(k ^ 2 * eps ^ 2 * h * (1 - e1))) * hc

theorem ellip_moved (theta eps g1 g2 : ℝ) (he : eps ^ 2 = 1) :
    let g := simShape theta eps g1 g2
    (2 * g.1 / (1 + (g.1 ^ 2 + g.2 ^ 2)), 2 * g.2 / (1 + (g.1 ^ 2 + g.2 ^ 2))) =
      simShape theta eps (2 * g1 / (1 + (g1 ^ 2 + g2 ^ 2))) (2 * g2 / (1 + (g1 ^ 2 + g2 ^ 2))) := by
  intro g
  rw [simShape_norm theta eps g1 g2 he,
    show 2 * g1 / (1 + (g1 ^ 2 + g2 ^ 2)) = (2 / (1 + (g1 ^ 2 + g2 ^ 2))) * g1 by ring,
    show 2 * g2 / (1 + (g1 ^ 2 + g2 ^ 2)) = (2 / (1 + (g1 ^ 2 + g2 ^ 2))) * g2 by ring, simShape_smul]
  ext
  · simp only [g]; ring
  · simp only [g]; ring

theorem map_moved {β : Type} {M : SkyMap} {f f' : β → Gauss} (l : List β) (h : ∀ x, Moved M (f x) (f' x)) :
    List.Forall₂ (Moved M) (l.map f) (l.map f') := by
  rw [List.forall₂_map_left_iff, List.forall₂_map_right_iff, List.forall₂_same]
  exact fun x _ => h x

theorem fillSimple_moved (k theta eps s t : ℝ) (he : eps ^ 2 = 1) (fv pv : List ℝ) (row col g1 g2 T F : ℝ) :
    SimOut (simMap k theta eps s t) (fillSimple fv pv row col g1 g2 T F)
      (fillSimple fv pv ((simMap k theta eps s t).point (row, col)).1 ((simMap k theta eps s t).point (row, col)).2
        (simShape theta eps g1 g2).1 (simShape theta eps g1 g2).2 (k ^ 2 * T) F) := by
  have hn := simShape_norm theta eps g1 g2 he
  by_cases hg : InDisk g1 g2
  · have hg' : InDisk (simShape theta eps g1 g2).1 (simShape theta eps g1 g2).2 := by
      unfold InDisk at hg ⊢; rw [hn]; exact hg
    unfold fillSimple
    rw [g1g2ToE1E2nb_closed hg, g1g2ToE1E2nb_closed hg', ellip_moved theta eps g1 g2 he]
    simp only [Except.map, SimOut]
    refine map_moved _ fun fp => ?_
    have := coGauss_moved k theta eps s t he (F * fp.2) row col (0.5 * T * fp.1)
      (2 * g1 / (1 + (g1 ^ 2 + g2 ^ 2))) (2 * g2 / (1 + (g1 ^ 2 + g2 ^ 2)))
    rwa [show k ^ 2 * (0.5 * T * fp.1) = 0.5 * (k ^ 2 * T) * fp.1 by ring] at this
  · have hg' : ¬ InDisk (simShape theta eps g1 g2).1 (simShape theta eps g1 g2).2 := by
      unfold InDisk at hg ⊢; rw [hn]; exact hg
    unfold fillSimple
    rw [g1g2ToE1E2nb_err hg, g1g2ToE1E2nb_err hg']
    simp [Except.map, SimOut]

theorem fillComposite_moved (k theta eps s t : ℝ) (he : eps ^ 2 = 1) (row col e1 e2 T F fd Td : ℝ) :
    List.Forall₂ (Moved (simMap k theta eps s t)) (fillComposite row col e1 e2 T F fd Td)
      (fillComposite ((simMap k theta eps s t).point (row, col)).1 ((simMap k theta eps s t).point (row, col)).2
        (simShape theta eps e1 e2).1 (simShape theta eps e1 e2).2 (k ^ 2 * T) F fd Td) := by
  unfold fillComposite
  refine map_moved _ fun i => ?_
  have := coGauss_moved k theta eps s t he
    (F * if i < 6 then pvalsExp.getD i 0 * (1 - fd) else pvalsDev.getD (i - 6) 0 * fd) row col
    (0.5 * T * if i < 6 then fvalsExp.getD i 0 else fvalsDev.getD (i - 6) 0 * Td) e1 e2
  rwa [show k ^ 2 * (0.5 * T * if i < 6 then fvalsExp.getD i 0 else fvalsDev.getD (i - 6) 0 * Td) =
    0.5 * (k ^ 2 * T) * if i < 6 then fvalsExp.getD i 0 else fvalsDev.getD (i - 6) 0 * Td by ring] at this

theorem fillBulge_moved (k theta eps s t : ℝ) (he : eps ^ 2 = 1) (row col g1 g2 T F fd Td : ℝ)
    (tf : Except PyErr ℝ) :
    SimOut (simMap k theta eps s t)
      (tf.bind fun tf => (g1g2ToE1E2nb g1 g2).map fun e => fillComposite row col e.1 e.2 (T * tf) F fd Td)
      (tf.bind fun tf => (g1g2ToE1E2nb (simShape theta eps g1 g2).1 (simShape theta eps g1 g2).2).map fun e =>
        fillComposite ((simMap k theta eps s t).point (row, col)).1 ((simMap k theta eps s t).point (row, col)).2
          e.1 e.2 (k ^ 2 * T * tf) F fd Td) := by
  have hn := simShape_norm theta eps g1 g2 he
  cases tf with
  | error e => simp [Except.bind, SimOut]
  | ok tf =>
    by_cases hg : InDisk g1 g2
    · have hg' : InDisk (simShape theta eps g1 g2).1 (simShape theta eps g1 g2).2 := by
        unfold InDisk at hg ⊢; rw [hn]; exact hg
      rw [g1g2ToE1E2nb_closed hg, g1g2ToE1E2nb_closed hg', ellip_moved theta eps g1 g2 he]
      simp only [Except.bind, Except.map, SimOut, mul_assoc (k ^ 2)]
      exact fillComposite_moved k theta eps s t he row col _ _ (T * tf) F fd Td
    · have hg' : ¬ InDisk (simShape theta eps g1 g2).1 (simShape theta eps g1 g2).2 := by
        unfold InDisk at hg ⊢; rw [hn]; exact hg
      rw [g1g2ToE1E2nb_err hg, g1g2ToE1E2nb_err hg']
      simp [Except.bind, Except.map, SimOut]

theorem fillCoellip_moved (k theta eps s t : ℝ) (he : eps ^ 2 = 1) (row col g1 g2 : ℝ) (TF : List (ℝ × ℝ)) :
    SimOut (simMap k theta eps s t) (fillCoellip row col g1 g2 TF)
      (fillCoellip ((simMap k theta eps s t).point (row, col)).1 ((simMap k theta eps s t).point (row, col)).2
        (simShape theta eps g1 g2).1 (simShape theta eps g1 g2).2 (TF.map fun x => (k ^ 2 * x.1, x.2))) := by
  have hn := simShape_norm theta eps g1 g2 he
  by_cases hg : InDisk g1 g2
  · have hg' : InDisk (simShape theta eps g1 g2).1 (simShape theta eps g1 g2).2 := by
      unfold InDisk at hg ⊢; rw [hn]; exact hg
    unfold fillCoellip
    rw [g1g2ToE1E2nb_closed hg, g1g2ToE1E2nb_closed hg', ellip_moved theta eps g1 g2 he]
    simp only [Except.map, SimOut, List.map_map]
    refine map_moved _ fun tf => ?_
    have := coGauss_moved k theta eps s t he tf.2 row col (0.5 * tf.1)
      (2 * g1 / (1 + (g1 ^ 2 + g2 ^ 2))) (2 * g2 / (1 + (g1 ^ 2 + g2 ^ 2)))
    rw [show k ^ 2 * (0.5 * tf.1) = 0.5 * (k ^ 2 * tf.1) by ring] at this
    exact this
  · have hg' : ¬ InDisk (simShape theta eps g1 g2).1 (simShape theta eps g1 g2).2 := by
      unfold InDisk at hg ⊢; rw [hn]; exact hg
    unfold fillCoellip
    rw [g1g2ToE1E2nb_err hg, g1g2ToE1E2nb_err hg']
    simp [Except.map, SimOut]

theorem simOut_fresh {M : SkyMap} {kind : FMKind} {gk : GKind} {n ng : ℕ} (hF : FreshAs kind gk n ng)
    {bp bp' : List ℝ} (h : bp.length = n) (h' : bp'.length = n) (hs : SimOut M (fillFunc gk bp) (fillFunc gk bp')) :
    SimOut M ((makeGmixModel bp kind.arg).map (·.data)) ((makeGmixModel bp' kind.arg).map (·.data)) := by
  rw [hF bp h, hF bp' h']
  revert hs
  cases fillFunc gk bp <;> cases fillFunc gk bp' <;> simp [SimOut, Except.map]

/-- C93: a galaxy of any of the models, given by its parameters in the new coordinates, is the galaxy, moved; and the
parameters are refused in both coordinates or in none. -/
theorem C93_models (kind : FMKind) (hk : CanFit kind) (k theta eps s t : ℝ) (he : eps ^ 2 = 1) (pars : List ℝ)
    (hl : pars.length = guessLength kind 1) :
    SimOut (simMap k theta eps s t) ((makeGmixModel pars kind.arg).map (·.data))
      ((makeGmixModel (simPars kind k theta eps s t pars) kind.arg).map (·.data)) := by
  cases kind with
  | std name =>
    simp only [CanFit, List.mem_cons, List.not_mem_nil, or_false] at hk
    have hsimple : ∀ (ng : ℕ) (fv pv : List ℝ), FreshAs (.std name) (.model name) 6 ng → pars.length = 6 →
        (∀ row col g1 g2 T F, fillFunc (.model name) [row, col, g1, g2, T, F] =
          fillSimple fv pv row col g1 g2 T F) → SimOut (simMap k theta eps s t)
            ((makeGmixModel pars (FMKind.std name).arg).map (·.data))
            ((makeGmixModel (simPars (.std name) k theta eps s t pars) (FMKind.std name).arg).map (·.data)) := by
      intro ng fv pv hF h6 hfill
      match pars, h6 with
      | [row, col, g1, g2, T, F], h6 =>
        refine simOut_fresh hF h6 (by simp [simPars]) ?_
        simp only [simPars, List.take_succ_cons, List.take_zero, List.map_cons, List.map_nil, List.drop_succ_cons,
          List.drop_zero, List.cons_append, List.nil_append, hfill]
        exact fillSimple_moved k theta eps s t he fv pv row col g1 g2 T F
    rcases hk with rfl | rfl | rfl | rfl | rfl | rfl
    · obtain ⟨hF, -⟩ := fresh_std "gauss" 1 6 1 rfl rfl rfl rfl rfl (by simp [fillNames]) (by simp) (by simp)
      exact hsimple 1 fvalsGauss pvalsGauss hF hl (fun _ _ _ _ _ _ => rfl)
    · obtain ⟨hF, -⟩ := fresh_std "turb" 2 6 3 rfl rfl rfl rfl rfl (by simp [fillNames]) (by simp) (by simp)
      exact hsimple 3 fvalsTurb pvalsTurb hF hl (fun _ _ _ _ _ _ => rfl)
    · obtain ⟨hF, -⟩ := fresh_std "exp" 3 6 6 rfl rfl rfl rfl rfl (by simp [fillNames]) (by simp) (by simp)
      exact hsimple 6 fvalsExp pvalsExp hF hl (fun _ _ _ _ _ _ => rfl)
    · obtain ⟨hF, -⟩ := fresh_std "dev" 4 6 10 rfl rfl rfl rfl rfl (by simp [fillNames]) (by simp) (by simp)
      exact hsimple 10 fvalsDev pvalsDev hF hl (fun _ _ _ _ _ _ => rfl)
    · obtain ⟨hF, -⟩ := fresh_std "bd" 10 8 16 rfl rfl rfl rfl rfl (by simp [fillNames]) (by simp) (by simp)
      match pars, (hl : pars.length = 8) with
      | [row, col, g1, g2, T, lT, fd, F], hl =>
        refine simOut_fresh hF hl (by simp [simPars]) ?_
        exact fillBulge_moved k theta eps s t he row col g1 g2 T F fd _ _
    · obtain ⟨hF, -⟩ := fresh_std "bdf" 6 7 16 rfl rfl rfl rfl rfl (by simp [fillNames]) (by simp) (by simp)
      match pars, (hl : pars.length = 7) with
      | [row, col, g1, g2, T, fd, F], hl =>
        refine simOut_fresh hF hl (by simp [simPars]) ?_
        exact fillBulge_moved k theta eps s t he row col g1 g2 T F fd _ _
  | coellip n =>
    obtain ⟨hF, -⟩ := fresh_coellip n
    replace hl : pars.length = 4 + 2 * n := hl
    match pars, hl with
    | [], hl => simp at hl; omega
    | [_], hl => simp at hl; omega
    | [_, _], hl => simp at hl; omega
    | [_, _, _], hl => simp at hl; omega
    | row :: col :: g1 :: g2 :: rest, hl =>
      have hr : rest.length = 2 * n := by simp only [List.length_cons] at hl; omega
      have ht : (rest.take n).length = n := by rw [List.length_take]; omega
      have hr' : ((rest.take n).map (fun T => k ^ 2 * T) ++ rest.drop n).length = 2 * n := by
        rw [List.length_append, List.length_map, List.length_drop, ht]; omega
      refine simOut_fresh hF hl ?_ ?_
      · simp only [simPars, List.length_cons, hr']; omega
      · simp only [simPars, fillFunc, hr', hr, Nat.mul_div_cancel_left n two_pos]
        rw [List.take_left' (by rw [List.length_map, ht]), List.drop_left' (by rw [List.length_map, ht]),
          List.zip_map_left]
        exact fillCoellip_moved k theta eps s t he row col g1 g2 _

/-- C93: a composite model with a fixed bulge fraction and size ratio. -/
theorem C93_composite (fracdev TdByTe : ℝ) (k theta eps s t : ℝ) (he : eps ^ 2 = 1) (pars : List ℝ)
    (hl : pars.length = 6) :
    SimOut (simMap k theta eps s t) ((newGMixCM fracdev TdByTe pars).map (·.data))
      ((newGMixCM fracdev TdByTe (simPars (.std "cm") k theta eps s t pars)).map (·.data)) := by
  match pars, hl with
  | [row, col, g1, g2, T, F], hl =>
    have h := fillBulge_moved k theta eps s t he row col g1 g2 T F fracdev TdByTe (getCmTfactor fracdev TdByTe)
    unfold newGMixCM
    cases htf : getCmTfactor fracdev TdByTe with
    | error e => simp [Except.bind, Except.map, SimOut]
    | ok tf =>
      rw [htf] at h
      simp only [Except.bind] at h ⊢
      simp only [simPars, fillChecked, resetObj, List.length_cons, List.length_nil, List.take_succ_cons, List.take_zero,
        List.map_cons, List.map_nil, List.drop_succ_cons, List.drop_zero, List.cons_append, List.nil_append]
      simp only [Nat.reduceAdd, ne_eq, not_true_eq_false, if_false]
      have e1 := built_fill (.cm fracdev TdByTe tf) 6 16 [row, col, g1, g2, T, F]
      have e2 := built_fill (.cm fracdev TdByTe tf) 6 16
        [((simMap k theta eps s t).point (row, col)).1, ((simMap k theta eps s t).point (row, col)).2,
          (simShape theta eps g1 g2).1, (simShape theta eps g1 g2).2, k ^ 2 * T, F]
      unfold resetObj at e1 e2
      rw [e1, e2]
      simp only [fillFunc, fillCm]
      revert h
      cases g1g2ToE1E2nb g1 g2 <;> cases g1g2ToE1E2nb (simShape theta eps g1 g2).1 (simShape theta eps g1 g2).2 <;>
        simp [SimOut, Except.map]

/-! ### Fits -/

theorem fillFull_new (l : List ℝ) : ∀ g ∈ fillFull l, DetCurrent g ∧ g.normSet = false := by
  induction l using fillFull.induct with
  | case1 p row col irr irc icc rest ih =>
    intro g hg
    rw [fillFull, List.mem_cons] at hg
    rcases hg with rfl | hg
    · exact ⟨(C20_set _ _ _ _ _ _).1, rfl⟩
    · exact ih g hg
  | case2 l hl =>
    intro g hg
    rw [fillFull] at hg
    · simp at hg
    · exact hl

theorem fill_new (gk : GKind) (bp : List ℝ) (d : List Gauss) (h : fillFunc gk bp = .ok d) :
    ∀ g ∈ d, DetCurrent g ∧ g.normSet = false := by
  have hset : ∀ p row col a b c, DetCurrent (gauss2dSet p row col a b c) ∧
      (gauss2dSet p row col a b c).normSet = false := fun p row col a b c => ⟨(C20_set _ _ _ _ _ _).1, rfl⟩
  have hsimple : ∀ (fv pv : List ℝ) (row col g1 g2 T F : ℝ), fillSimple fv pv row col g1 g2 T F = .ok d →
      ∀ g ∈ d, DetCurrent g ∧ g.normSet = false := by
    intro fv pv row col g1 g2 T F h
    obtain ⟨e, -, rfl⟩ := exMap_ok h
    intro g hg
    obtain ⟨x, -, rfl⟩ := List.mem_map.1 hg
    exact hset _ _ _ _ _ _
  have hcomp : ∀ row col e1 e2 T F fd Td : ℝ, ∀ g ∈ fillComposite row col e1 e2 T F fd Td,
      DetCurrent g ∧ g.normSet = false := by
    intro row col e1 e2 T F fd Td g hg
    obtain ⟨x, -, rfl⟩ := List.mem_map.1 hg
    exact hset _ _ _ _ _ _
  unfold fillFunc at h
  split at h
  · simp only [Except.ok.injEq] at h
    exact h ▸ fillFull_new _
  · obtain ⟨e, -, rfl⟩ := exMap_ok h
    intro g hg
    obtain ⟨x, -, rfl⟩ := List.mem_map.1 hg
    exact hset _ _ _ _ _ _
  · exact hsimple _ _ _ _ _ _ _ _ h
  · exact hsimple _ _ _ _ _ _ _ _ h
  · exact hsimple _ _ _ _ _ _ _ _ h
  · exact hsimple _ _ _ _ _ _ _ _ h
  · obtain ⟨tf, -, h⟩ := exBind_ok h
    obtain ⟨e, -, rfl⟩ := exMap_ok h
    exact hcomp _ _ _ _ _ _ _ _
  · obtain ⟨tf, -, h⟩ := exBind_ok h
    obtain ⟨e, -, rfl⟩ := exMap_ok h
    exact hcomp _ _ _ _ _ _ _ _
  · obtain ⟨e, -, rfl⟩ := exMap_ok h
    exact hcomp _ _ _ _ _ _ _ _
  · simp at h
  · simp at h

theorem ready_pair {M : SkyMap} (hM : M.det ≠ 0) {d d' : List Gauss} (hmv : List.Forall₂ (Moved M) d d')
    (hd : ∀ g ∈ d, DetCurrent g ∧ g.normSet = false) (hd' : ∀ g ∈ d', DetCurrent g ∧ g.normSet = false)
    {n n' : List Gauss} (h : ready d = .ok n) (h' : ready d' = .ok n') : List.Forall₂ (BothReady M) n n' := by
  have key : ∀ {d n : List Gauss}, (∀ g ∈ d, DetCurrent g ∧ g.normSet = false) → ready d = .ok n → Fresh d := by
    intro d n hd h g hg
    refine ⟨(hd g hg).1, (hd g hg).2, ?_⟩
    by_contra hu
    have := (ifNeeded_new d (fun g hg => (hd g hg).1) fun g hg => (hd g hg).2).2 (fun hall => hu (hall g hg))
    unfold ready at h
    revert h this
    cases setNormsIfNeeded d with
    | mk a r => cases r <;> simp
  obtain ⟨a, a', h1, h1', hb⟩ := both_ready hM hmv (key hd h) (key hd' h')
  unfold ready at h h'
  rw [h1] at h
  rw [h1'] at h'
  simp only [Except.ok.injEq] at h h'
  exact h ▸ h' ▸ hb

theorem conv_new {gm q cv : List Gauss} (h : gmixConvolve gm q = .ok cv) :
    ∀ g ∈ cv, DetCurrent g ∧ g.normSet = false := by
  obtain ⟨c, -, rfl⟩ := exMap_ok h
  intro g hg
  obtain ⟨o, -, hg⟩ := List.mem_flatMap.1 hg
  obtain ⟨y, -, rfl⟩ := List.mem_map.1 hg
  exact ⟨(C20_set _ _ _ _ _ _).1, rfl⟩

theorem modelFor_pair {kind : FMKind} {gk : GKind} {n ng : ℕ} (hF : FreshAs kind gk n ng) {M : SkyMap} (hM : M.det ≠ 0)
    {bp bp' : List ℝ} (hl : bp.length = n) (hl' : bp'.length = n)
    (hs : SimOut M ((makeGmixModel bp kind.arg).map (·.data)) ((makeGmixModel bp' kind.arg).map (·.data)))
    {dopsf : Bool} {i i' : Img} (hi : MovedImg M i i') {d d' : List Gauss} (h : modelFor kind dopsf bp i = .ok d)
    (h' : modelFor kind dopsf bp' i' = .ok d') : List.Forall₂ (BothReady M) d d' := by
  rw [hF bp hl, hF bp' hl'] at hs
  unfold modelFor at h h'
  rw [hF bp hl] at h
  rw [hF bp' hl'] at h'
  cases hd : fillFunc gk bp with
  | error e =>
    rw [hd] at h
    cases dopsf
    · simp [Except.map, Except.bind] at h
    · simp only [if_true, Except.map, Except.bind] at h
      split at h <;> simp at h
  | ok g =>
    cases hd' : fillFunc gk bp' with
    | error e =>
      rw [hd'] at h'
      cases dopsf
      · simp [Except.map, Except.bind] at h'
      · simp only [if_true, Except.map, Except.bind] at h'
        split at h' <;> simp at h'
    | ok g' =>
      rw [hd] at h hs
      rw [hd'] at h' hs
      simp only [Except.map, SimOut] at hs
      cases dopsf with
      | false =>
        simp only [Bool.false_eq_true, if_false, Except.map, Except.bind] at h h'
        exact ready_pair hM hs (fill_new _ _ _ hd) (fill_new _ _ _ hd') h h'
      | true =>
        simp only [if_true] at h h'
        obtain ⟨q, hq, h⟩ := exBind_ok h
        obtain ⟨q', hq', h'⟩ := exBind_ok h'
        simp only [Except.map, Except.bind] at h h'
        obtain ⟨-, hp⟩ := hi
        rw [hq, hq'] at hp
        obtain ⟨N, hN, hqq⟩ := hp
        cases hc : gmixConvolve g q.data with
        | error e => rw [hc] at h; simp at h
        | ok cv =>
          obtain ⟨cv', hc', hcc⟩ := (C93_convolve hN hs hqq).2 cv hc
          rw [hc] at h
          rw [hc'] at h'
          exact ready_pair hM hcc (conv_new hc) (conv_new hc') h h'

theorem simMap_det (k theta eps s t : ℝ) : (simMap k theta eps s t).det = eps * k ^ 2 := by
  simp only [SkyMap.det, simMap]
  linear_combination (eps * k ^ 2) * Real.sin_sq_add_cos_sq theta

theorem simPars_length (kind : FMKind) (k theta eps s t : ℝ) (pars : List ℝ) :
    (simPars kind k theta eps s t pars).length = pars.length := by
  unfold simPars
  split
  · cases kind <;> simp only [List.length_cons, List.length_append, List.length_map, List.length_take, List.length_drop] <;>
      omega
  · rfl

theorem bandPars_sim (kind : FMKind) (hk : CanFit kind) (k theta eps s t : ℝ) (pars bp : List ℝ) (b : ℕ)
    (h : kind.bandPars pars b = .ok bp) :
    kind.bandPars (simPars kind k theta eps s t pars) b = .ok (simPars kind k theta eps s t bp) := by
  cases kind with
  | coellip n =>
    simp only [FMKind.bandPars, Except.ok.injEq] at h ⊢
    rw [h]
  | std name =>
    have key : ∀ m, takeBand (m + 5) pars b = .ok bp →
        takeBand (m + 5) (simPars (.std name) k theta eps s t pars) b = .ok (simPars (.std name) k theta eps s t bp) := by
      intro m h
      unfold takeBand at h ⊢
      rw [simPars_length]
      split_ifs at h ⊢ with h1
      match pars, h1 with
      | [], h1 => simp at h1
      | [_], h1 => simp at h1
      | [_, _], h1 => simp at h1
      | [_, _, _], h1 => simp at h1
      | [_, _, _, _], h1 => simp at h1
      | row :: col :: g1 :: g2 :: T :: rest, h1 =>
        have e : ∀ x : ℕ, m + 5 + b = m + b + 5 := fun _ => by omega
        rw [e 0] at h ⊢
        simp only [List.getElem?_cons_succ, List.take_succ_cons] at h
        simp only [simPars, List.getElem?_cons_succ, List.take_succ_cons, List.take_zero, List.map_cons, List.map_nil,
          List.drop_succ_cons, List.drop_zero, List.cons_append, List.nil_append]
        cases hr : rest[m + b]? with
        | none => rw [hr] at h; simp at h
        | some F =>
          rw [hr] at h
          simp only [Except.ok.injEq] at h ⊢
          subst h
          simp
    simp only [CanFit, List.mem_cons, List.not_mem_nil, or_false] at hk
    have h6 : ∀ name', getModelNpars (.str name') = .ok 6 → name' ≠ "coellip" → name' ≠ "bd" → name' ≠ "bdf" →
        ∀ pars, (FMKind.std name').bandPars pars b = takeBand 5 pars b := by
      intro name' h1 h2 h3 h4 pars
      simp only [FMKind.bandPars, getBandPars, h1, Except.bind, if_neg h2, if_neg h3, if_neg h4]
      cases takeBand 5 pars b <;> simp [Except.map]
    rcases hk with rfl | rfl | rfl | rfl | rfl | rfl
    · rw [h6 _ rfl (by simp) (by simp) (by simp)] at h ⊢; exact key 0 h
    · rw [h6 _ rfl (by simp) (by simp) (by simp)] at h ⊢; exact key 0 h
    · rw [h6 _ rfl (by simp) (by simp) (by simp)] at h ⊢; exact key 0 h
    · rw [h6 _ rfl (by simp) (by simp) (by simp)] at h ⊢; exact key 0 h
    · exact key 2 h
    · exact key 1 h

/-- An image and its mixture in both coordinate systems. -/
def PairOk (M : SkyMap) (x x' : Img × List Gauss) : Prop :=
  List.Forall₂ (MovedPixel M) x.1.pixels x'.1.pixels ∧ List.Forall₂ (BothReady M) x.2 x'.2

theorem band_pairs {kind : FMKind} {gk : GKind} {n ng : ℕ} {M : SkyMap} (hM : M.det ≠ 0) (hF : FreshAs kind gk n ng)
    {bp bp' : List ℝ} (hl : bp.length = n) (hl' : bp'.length = n)
    (hs : SimOut M ((makeGmixModel bp kind.arg).map (·.data)) ((makeGmixModel bp' kind.arg).map (·.data)))
    {dopsf : Bool} {is is' : List Img} (his : List.Forall₂ (MovedImg M) is is') {ds ds' : List (List Gauss)}
    (hm : List.Forall₂ (fun i d => modelFor kind dopsf bp i = .ok d) is ds)
    (hm' : List.Forall₂ (fun i d => modelFor kind dopsf bp' i = .ok d) is' ds') :
    List.Forall₂ (PairOk M) (is.zip ds) (is'.zip ds') := by
  induction his generalizing ds ds' with
  | nil => simp
  | cons hi _ ih =>
    cases hm with
    | cons m1 m2 =>
      cases hm' with
      | cons m1' m2' => exact .cons ⟨hi.1, modelFor_pair hF hM hl hl' hs hi m1 m1'⟩ (ih m2 m2')

theorem pairs_ok (kind : FMKind) (hk : CanFit kind) (k theta eps s t : ℝ) (hk0 : k ≠ 0) (he : eps ^ 2 = 1) {gk : GKind}
    {ng : ℕ} (hF : FreshAs kind gk (bandN kind) ng) (dopsf : Bool) (pars : List ℝ) {obs obs' : List (List Img)}
    (nband : ℕ) (hl : pars.length = guessLength kind nband)
    (hobs : List.Forall₂ (List.Forall₂ (MovedImg (simMap k theta eps s t))) obs obs') :
    ∀ (b0 : ℕ), b0 + obs.length = nband → ∀ (D D' : List (List (List Gauss))), D.length = obs.length → D'.length = obs'.length →
      (∀ b is ds, obs[b]? = some is → D[b]? = some ds → ∃ bp, kind.bandPars pars (b0 + b) = .ok bp ∧
        List.Forall₂ (fun i d => modelFor kind dopsf bp i = .ok d) is ds) →
      (∀ b is ds, obs'[b]? = some is → D'[b]? = some ds →
        ∃ bp, kind.bandPars (simPars kind k theta eps s t pars) (b0 + b) = .ok bp ∧
        List.Forall₂ (fun i d => modelFor kind dopsf bp i = .ok d) is ds) →
      List.Forall₂ (PairOk (simMap k theta eps s t)) (obs.flatten.zip D.flatten) (obs'.flatten.zip D'.flatten) := by
  have hM : (simMap k theta eps s t).det ≠ 0 := by
    rw [simMap_det]
    refine mul_ne_zero ?_ (pow_ne_zero 2 hk0)
    rintro rfl
    norm_num at he
  induction hobs with
  | nil => intro b0 _ D D' h1 h2 _ _; simp
  | @cons is is' rest rest' his _ ih =>
    intro b0 hb D D' h1 h2 hD hD'
    match D, h1, D', h2 with
    | ds :: D, h1, ds' :: D', h2 =>
      obtain ⟨bp, hbp, hm⟩ := hD 0 is ds rfl rfl
      obtain ⟨bp', hbp', hm'⟩ := hD' 0 is' ds' rfl rfl
      simp only [List.length_cons] at hb h1 h2
      obtain ⟨bp2, hbp2, hbl, -⟩ := band_outcome kind hk nband pars hl b0 (by omega)
      rw [Nat.add_zero] at hbp hbp'
      rw [hbp, Except.ok.injEq] at hbp2
      subst hbp2
      rw [bandPars_sim kind hk k theta eps s t pars bp b0 hbp, Except.ok.injEq] at hbp'
      subst hbp'
      have hb1 : bp.length = guessLength kind 1 := by
        rw [hbl]
        cases kind with
        | coellip n => rfl
        | std name =>
          simp only [CanFit, List.mem_cons, List.not_mem_nil, or_false] at hk
          rcases hk with rfl | rfl | rfl | rfl | rfl | rfl <;> rfl
      have hs := C93_models kind hk k theta eps s t he bp hb1
      rw [List.flatten_cons, List.flatten_cons, List.flatten_cons, List.flatten_cons,
        List.zip_append hm.length_eq, List.zip_append hm'.length_eq]
      refine List.rel_append ?_ (ih (b0 + 1) (by omega) D D' (by omega) (by omega) ?_ ?_)
      · exact band_pairs hM hF hbl (by rw [simPars_length]; exact hbl) hs his hm hm'
      · intro b is ds hi hd
        have := hD (b + 1) is ds (by simpa using hi) (by simpa using hd)
        rwa [show b0 + 1 + b = b0 + (b + 1) by omega]
      · intro b is ds hi hd
        have := hD' (b + 1) is ds (by simpa using hi) (by simpa using hd)
        rwa [show b0 + 1 + b = b0 + (b + 1) by omega]

theorem pair_map {β β' γ : Type} {R : β → β' → Prop} {f : β → γ} {f' : β' → γ} (h : ∀ x x', R x x' → f' x' = f x)
    {l : List β} {l' : List β'} (hl : List.Forall₂ R l l') : l'.map f' = l.map f := by
  induction hl with
  | nil => rfl
  | cons h1 _ ih => rw [List.map_cons, List.map_cons, h _ _ h1, ih]

theorem flatten_pair {β β' : Type} {R : β → β' → Prop} {l : List (List β)} {l' : List (List β')}
    (h : List.Forall₂ (List.Forall₂ R) l l') : List.Forall₂ R l.flatten l'.flatten := by
  induction h with
  | nil => exact .nil
  | cons a _ ih => exact List.rel_append a ih

/-- C93: two fits of the same images with the same psfs, in two coordinate systems: at corresponding parameters they
give the same residuals and the same log likelihood, whatever was evaluated before. -/
theorem C93_fit (kind : FMKind) (hk : CanFit kind) (k theta eps s t : ℝ) (hk0 : k ≠ 0) (he : eps ^ 2 = 1)
    (obs obs' : List (List Img)) (guess guess' : List ℝ) (fm fm' : FitModel) (st st' : FMState)
    (h : newFitModel kind none obs guess = .ok (fm, st)) (h' : newFitModel kind none obs' guess' = .ok (fm', st'))
    (hobs : List.Forall₂ (List.Forall₂ (MovedImg (simMap k theta eps s t))) obs obs') (calls calls' : List Call)
    (pars : List ℝ) (hpars : pars.length = guess.length) (D D' : List (List (List Gauss))) (hD : IsModel fm pars D)
    (hD' : IsModel fm' (simPars kind k theta eps s t pars) D') :
    (calcFdiff fm' (runCalls fm' st' calls') (simPars kind k theta eps s t pars)).2 =
      (calcFdiff fm (runCalls fm st calls) pars).2 ∧
    (calcLnprob fm' (runCalls fm' st' calls') (simPars kind k theta eps s t pars)).2 =
      (calcLnprob fm (runCalls fm st calls) pars).2 := by
  obtain ⟨hk1, -, ho, ⟨i, is, r, hob, hdo⟩, -, hn, ⟨gk, ng, hF, -⟩, -⟩ := new_shape h
  obtain ⟨hk1', -, ho', ⟨i', is', r', hob', hdo'⟩, -, hn', -, -⟩ := new_shape h'
  have hlen := hobs.length_eq
  have hg : guess'.length = guess.length := by
    rw [← hlen, hn, Except.ok.injEq] at hn'
    exact hn'.symm
  have hdd : fm'.dopsf = fm.dopsf := by
    rw [hdo, hdo']
    rw [hob, hob'] at hobs
    cases hobs with
    | cons a _ =>
      cases a with
      | cons b _ =>
        have hp := b.2
        unfold Img.hasPsfGmix
        revert hp
        cases i.psf <;> cases i'.psf <;> simp [MovedPsf]
  have hne : 0 < obs.length := by rw [hob]; simp
  have hl : pars.length = guessLength kind obs.length := by
    rw [npars_guessLength kind hk _ hne, Except.ok.injEq] at hn
    omega
  have hok := pairs_ok kind hk k theta eps s t hk0 he hF fm.dopsf pars obs.length hl hobs 0 (by omega) D D'
    (by rw [hD.1, ho]) (by rw [hD'.1, ho'])
    (by
      intro b is ds h1 h2
      rw [Nat.zero_add, ← hk1]
      exact hD.2 b is ds (by rw [ho]; exact h1) h2)
    (by
      intro b is ds h1 h2
      have := hD'.2 b is ds (by rw [ho']; exact h1) h2
      rw [hk1', hdd] at this
      rw [Nat.zero_add]
      exact this)
  have hp : pairs fm D = obs.flatten.zip D.flatten := by rw [pairs, ho]
  have hp' : pairs fm' D' = obs'.flatten.zip D'.flatten := by rw [pairs, ho']
  rw [← hp, ← hp'] at hok
  have hval : ∀ x x' : Img × List Gauss, PairOk (simMap k theta eps s t) x x' → ∀ px px' : Pixel,
      MovedPixel (simMap k theta eps s t) px px' →
      gmixEvalFast x'.2 px'.v px'.u px'.area = gmixEvalFast x.2 px.v px.u px.area := by
    rintro x x' ⟨-, hb⟩ px px' ⟨a1, a2, -, -⟩
    have := both_fast hb (px.v, px.u) px.area
    rw [← a2] at this
    rw [show px'.v = ((simMap k theta eps s t).point (px.v, px.u)).1 from congrArg Prod.fst a1,
      show px'.u = ((simMap k theta eps s t).point (px.v, px.u)).2 from congrArg Prod.snd a1, this]
  constructor
  · rw [(C41_no_prior kind obs guess fm st h calls pars hpars D hD).2,
      (C41_no_prior kind obs' guess' fm' st' h' calls' _ (by rw [simPars_length, hg]; exact hpars) D' hD').2]
    unfold residuals
    rw [List.flatMap_def, List.flatMap_def, pair_map ?_ hok]
    intro x x' hx
    refine pair_map ?_ hx.1
    intro px px' hpx
    rw [hval x x' hx px px' hpx, hpx.2.2.1, hpx.2.2.2]
  · rw [C47_lnprob kind none obs guess fm st h calls pars hpars D hD (.fin 0) rfl,
      C47_lnprob kind none obs' guess' fm' st' h' calls' _ (by rw [simPars_length, hg]; exact hpars) D' hD' (.fin 0) rfl]
    have e1 : fm'.totpix = fm.totpix := by
      unfold FitModel.totpix
      rw [ho, ho']
      congr 1
      have := flatten_pair hobs
      refine pair_map (R := MovedImg (simMap k theta eps s t)) ?_ this
      intro x x' hx
      exact hx.1.length_eq.symm
    rw [e1]
    congr 2
    · congr 3
      refine pair_map ?_ hok
      intro x x' hx
      congr 2
      refine pair_map ?_ hx.1
      intro px px' hpx
      rw [hval x x' hx px px' hpx, hpx.2.2.1, hpx.2.2.2]
    · congr 1
      refine pair_map ?_ hok
      intro x x' hx
      congr 1
      refine pair_map ?_ hx.1
      intro px px' hpx
      rw [hval x x' hx px px' hpx, hpx.2.2.1, hpx.2.2.2]
    · congr 1
      refine pair_map ?_ hok
      intro x x' hx
      congr 1
      refine pair_map ?_ hx.1
      intro px px' hpx
      rw [hval x x' hx px px' hpx, hpx.2.2.2]

/-! ### Shear -/

theorem shearGauss_moved (s1 s2 : ℝ) (hs : InDisk s1 s2) (g : Gauss) (hg : PosDef2 g.irr g.irc g.icc) :
    ∃ g', shearGauss s1 s2 g = .ok g' ∧ Moved (shearMap s1 s2 g.row g.col) g g' ∧ DetCurrent g' ∧
      g'.normSet = false := by
  obtain ⟨irr', irc', icc', h1, h2⟩ := C10_sheared_moments_matrix g.irr g.irc g.icc s1 s2 hg hs
  have hq : 0 < 1 - (s1 ^ 2 + s2 ^ 2) := by unfold InDisk at hs; linarith
  have hq0 := Real.sqrt_pos.2 hq
  have hqq : Real.sqrt (1 - (s1 ^ 2 + s2 ^ 2)) ^ 2 = 1 - (s1 ^ 2 + s2 ^ 2) := Real.sq_sqrt hq.le
  have e00 := congrFun (congrFun h2 0) 0
  have e01 := congrFun (congrFun h2 0) 1
  have e11 := congrFun (congrFun h2 1) 1
  simp [momMat, shearMat, Matrix.mul_apply, Fin.sum_univ_two] at e00 e01 e11
  refine ⟨{ g with irr := irr', irc := irc', icc := icc', det := irr' * icc' - irc' * irc', normSet := false },
    by rw [shearGauss, h1]; rfl, ⟨rfl, ?_, ?_, ?_, ?_⟩, rfl, rfl⟩
  · simp only [SkyMap.point, shearMap, Prod.mk.injEq]
    constructor <;> ring
  all_goals
    simp only [shearMap]
    generalize Real.sqrt (1 - (s1 ^ 2 + s2 ^ 2)) = q at hq0 hqq
    have := hq0.ne'
    field_simp
    rw [hqq]
  · linear_combination e11
  · linear_combination e01
  · linear_combination e00

/-- C93: `get_sheared` shears every gaussian about its own centre. -/
theorem C93_shear (s1 s2 : ℝ) (hs : InDisk s1 s2) (gm : List Gauss) (hg : ∀ g ∈ gm, PosDef2 g.irr g.irc g.icc) :
    ∃ gm', shearData s1 s2 gm = .ok gm' ∧
      List.Forall₂ (fun g g' => Moved (shearMap s1 s2 g.row g.col) g g' ∧ DetCurrent g' ∧ g'.normSet = false) gm gm' := by
  induction gm with
  | nil => exact ⟨[], rfl, .nil⟩
  | cons g gm ih =>
    obtain ⟨g', h1, h2⟩ := shearGauss_moved s1 s2 hs g (hg g List.mem_cons_self)
    obtain ⟨gm', h3, h4⟩ := ih fun x hx => hg x (List.mem_cons_of_mem _ hx)
    exact ⟨g' :: gm', by simp [shearData, h1, h3, Except.bind, Except.map], .cons h2 h4⟩

/-- C93: so the result is the sheared sky only for gaussians with the centre of the shear: the others should have
been moved. -/
theorem C93_shear_centre (s1 s2 r c : ℝ) (hs : InDisk s1 s2) (h0 : (s1, s2) ≠ (0, 0)) (g g' : Gauss)
    (hg : PosDef2 g.irr g.irc g.icc) (h : shearGauss s1 s2 g = .ok g') :
    Moved (shearMap s1 s2 r c) g g' ↔ (g.row, g.col) = (r, c) := by
  obtain ⟨g2, h1, h2, -⟩ := shearGauss_moved s1 s2 hs g hg
  rw [h, Except.ok.injEq] at h1
  subst h1
  have hq : 0 < 1 - (s1 ^ 2 + s2 ^ 2) := by unfold InDisk at hs; linarith
  have hq0 := Real.sqrt_pos.2 hq
  have hqq : Real.sqrt (1 - (s1 ^ 2 + s2 ^ 2)) ^ 2 = 1 - (s1 ^ 2 + s2 ^ 2) := Real.sq_sqrt hq.le
  constructor
  · rintro ⟨-, hp, -⟩
    obtain ⟨-, hp2, -⟩ := h2
    rw [hp2] at hp
    simp only [SkyMap.point, shearMap, Prod.mk.injEq] at hp
    obtain ⟨p1, p2⟩ := hp
    have hs0 : 0 < s1 ^ 2 + s2 ^ 2 := by
      rcases eq_or_ne s1 0 with rfl | h1
      · have : s2 ≠ 0 := fun h => h0 (by rw [h])
        positivity
      · positivity
    generalize Real.sqrt (1 - (s1 ^ 2 + s2 ^ 2)) = q at *
    have hq1 := hq0.ne'
    field_simp at p1 p2
    have hlt : q < 1 := by nlinarith
    have hdet : (1 - s1 - q) * (1 + s1 - q) - s2 * s2 = 2 * q * (q - 1) := by linear_combination -hqq
    have hd0 : 2 * q * (q - 1) ≠ 0 := mul_ne_zero (by positivity) (by linarith)
    have x1 : (1 - s1 - q) * (g.row - r) + s2 * (g.col - c) = 0 := by linear_combination -p1
    have x2 : s2 * (g.row - r) + (1 + s1 - q) * (g.col - c) = 0 := by linear_combination -p2
    have y1 : 2 * q * (q - 1) * (g.row - r) = 0 := by
      rw [← hdet]; linear_combination (1 + s1 - q) * x1 - s2 * x2
    have y2 : 2 * q * (q - 1) * (g.col - c) = 0 := by
      rw [← hdet]; linear_combination (1 - s1 - q) * x2 - s2 * x1
    have z1 := (mul_eq_zero.1 y1).resolve_left hd0
    have z2 := (mul_eq_zero.1 y2).resolve_left hd0
    rw [sub_eq_zero.1 z1, sub_eq_zero.1 z2]
  · intro hrc
    simp only [Prod.mk.injEq] at hrc
    rw [← hrc.1, ← hrc.2]
    exact h2

/-! ### Concrete cases -/

/-- A quarter turn with the unit of length halved, about another origin. -/
example : SameSky (simMap 2 (Real.pi / 2) 1 4 6) (Jacobian.finishInit 20 30 0.3 0 0 0.4)
    (Jacobian.finishInit 10 35 0 (-0.8) 0.6 0) := by
  intro r c
  simp only [SkyMap.point, simMap, Jacobian.getVU, Jacobian.finishInit, Real.cos_pi_div_two, Real.sin_pi_div_two,
    Prod.mk.injEq]
  constructor <;> ring

/-- The same on a galaxy: the position turns, the shape changes sign, the size is four times as large. -/
example : simPars (.std "bdf") 2 (Real.pi / 2) 1 4 6 [1, 0, 0.1, 0.2, 4, 0.5, 100] =
    [4, 8, -0.1, -0.2, 16, 0.5, 100] := by
  simp only [simPars, simShape_eq, SkyMap.point, simMap, Real.cos_pi_div_two, Real.sin_pi_div_two,
    show 2 * (Real.pi / 2) = Real.pi by ring, Real.cos_pi, Real.sin_pi]
  norm_num

/-- A fit of an image with a round psf, and the same fit with the axes turned by any angle. -/
example (a : List Pixel) (theta : ℝ) : ∃ a' fm st fm' st',
    newFitModel (.std "exp") none [[⟨a, .ok exPsf⟩]] [0, 0, 0.1, 0.2, 4, 1] = .ok (fm, st) ∧
    newFitModel (.std "exp") none [[⟨a', .ok exPsf⟩]] [0, 0, 0.1, 0.2, 4, 1] = .ok (fm', st') ∧
    List.Forall₂ (MovedPixel (simMap 1 theta 1 0 0)) a a' ∧
    (calcFdiff fm' st' (simPars (.std "exp") 1 theta 1 0 0 [3, -2, 0.3, 0.2, 2, 7])).2 =
      (calcFdiff fm st [3, -2, 0.3, 0.2, 2, 7]).2 := by
  set M := simMap 1 theta 1 0 0 with hMdef
  have hf : ∀ r c g1 g2 T F : ℝ, g1 ^ 2 + g2 ^ 2 < 1 → Feasible (.std "exp") [r, c, g1, g2, T, F] := by
    intro r c g1 g2 T F h
    exact ⟨_, _, _, _, _, rfl, by simpa [InDisk] using h, by simp, by simp⟩
  have hx : Flux exPsf.data ≠ 0 := by simp [exPsf, Flux, gauss2dSet]
  have key : ∀ (b : List Pixel) (r c g1 g2 : ℝ), g1 ^ 2 + g2 ^ 2 < 1 → ∃ st D,
      newFitModel (.std "exp") none [[⟨b, .ok exPsf⟩]] [0, 0, 0.1, 0.2, 4, 1] =
        .ok (⟨.std "exp", none, [[⟨b, .ok exPsf⟩]], true⟩, st) ∧
      IsModel ⟨.std "exp", none, [[⟨b, .ok exPsf⟩]], true⟩ [r, c, g1, g2, 2, 7] D := by
    intro b r c g1 g2 hg
    obtain ⟨st, h⟩ := ((C92_setup (.std "exp") (by simp [CanFit]) none ⟨b, .ok exPsf⟩ [] [] [0, 0, 0.1, 0.2, 4, 1] 0
      rfl rfl).2.2 (hf _ _ _ _ _ _ (by norm_num)) ⟨_, rfl⟩).1 (by simp [psfRefusal, hx])
    obtain ⟨D, hD⟩ := (C92_in_range (.std "exp") (by simp [CanFit]) none _ _ _ _ h [r, c, g1, g2, 2, 7] rfl).2
      (hf _ _ _ _ _ _ hg) ⟨by simp, by simp, by simp⟩ (by
        intro i hi
        simp only [List.flatten_cons, List.flatten_nil, List.append_nil, List.mem_singleton] at hi
        subst hi
        exact ⟨_, rfl, hx, by simp [exPsf, GoodPsf, gauss2dSet]; norm_num⟩)
    exact ⟨st, D, h, hD⟩
  have hsq := Real.sin_sq_add_cos_sq theta
  have hdet : |M.det| = 1 := by rw [hMdef, simMap_det]; norm_num
  have hpx : List.Forall₂ (MovedPixel M) a (a.map fun px => { px with v := (M.point (px.v, px.u)).1, u := (M.point (px.v, px.u)).2 }) := by
    rw [List.forall₂_map_right_iff, List.forall₂_same]
    exact fun px _ => ⟨rfl, by rw [hdet, one_mul], rfl, rfl⟩
  have hn := simShape_norm theta 1 0.3 0.2 (by norm_num)
  obtain ⟨st, D, h, hD⟩ := key a 3 (-2) 0.3 0.2 (by norm_num)
  obtain ⟨st', D', h', hD'⟩ := key _ (M.point (3, -2)).1 (M.point (3, -2)).2 (simShape theta 1 0.3 0.2).1
    (simShape theta 1 0.3 0.2).2 (by rw [hn]; norm_num)
  refine ⟨_, _, st, _, st', h, h', hpx, ?_⟩
  have hpars : simPars (.std "exp") 1 theta 1 0 0 [3, -2, 0.3, 0.2, 2, 7] = [(M.point (3, -2)).1, (M.point (3, -2)).2,
      (simShape theta 1 0.3 0.2).1, (simShape theta 1 0.3 0.2).2, 2, 7] := by
    simp [simPars, hMdef]
  rw [← hpars] at hD'
  exact (C93_fit (.std "exp") (by simp [CanFit]) 1 theta 1 0 0 one_ne_zero (by norm_num) _ _ _ _ _ _ _ _ h h'
    (.cons (.cons ⟨hpx, M, ⟨rfl, rfl, rfl, rfl⟩, .cons (by
      refine ⟨rfl, ?_, ?_, ?_, ?_⟩
      · simp [gauss2dSet, hMdef, simMap, SkyMap.point]
      · simp only [gauss2dSet, hMdef, simMap]; linear_combination -hsq
      · simp only [gauss2dSet, hMdef, simMap]; ring
      · simp only [gauss2dSet, hMdef, simMap]; linear_combination -hsq) .nil⟩ .nil) .nil) [] []
    [3, -2, 0.3, 0.2, 2, 7] rfl D D' hD hD').1

/-- Two gaussians on both sides of the origin, sheared by `get_sheared`: their centres stay. -/
example : ∃ gm', shearData 0.5 0 [gauss2dSet 1 0 (-3) 1 0 1, gauss2dSet 1 0 3 1 0 1] = .ok gm' ∧
    gm'.map Gauss.col = [-3, 3] ∧ ¬ List.Forall₂ (Moved (shearMap 0.5 0 0 0))
      [gauss2dSet 1 0 (-3) 1 0 1, gauss2dSet 1 0 3 1 0 1] gm' := by
  have hs : InDisk 0.5 0 := by norm_num [InDisk]
  have hp : ∀ c, PosDef2 (gauss2dSet 1 0 c 1 0 1).irr (gauss2dSet 1 0 c 1 0 1).irc (gauss2dSet 1 0 c 1 0 1).icc := by
    intro c; simp [PosDef2, gauss2dSet]
  obtain ⟨a, ha, ha', -⟩ := shearGauss_moved 0.5 0 hs _ (hp (-3))
  obtain ⟨b, hb, hb', -⟩ := shearGauss_moved 0.5 0 hs _ (hp 3)
  refine ⟨[a, b], by simp [shearData, ha, hb, Except.bind, Except.map], ?_, ?_⟩
  · have h1 := congrArg Prod.snd ha'.2.1
    have h2 := congrArg Prod.snd hb'.2.1
    simp only [SkyMap.point, shearMap, gauss2dSet] at h1 h2
    simp only [List.map_cons, List.map_nil, List.cons.injEq, and_true]
    exact ⟨by rw [h1]; ring, by rw [h2]; ring⟩
  · intro h
    cases h with
    | cons h _ =>
      have := (C93_shear_centre 0.5 0 0 0 hs (by norm_num) _ _ (hp (-3)) ha).1 h
      simp [gauss2dSet] at this

end

end Ngmix.Props
