import Verif.Spec.GaussTurn
import Verif.Props.GaussMom
import Verif.Props.Coords

/-!
# C99: gaussian weighted moments turn with the axes of the sky
-/

namespace Ngmix.Props

open Ngmix Ngmix.Spec

noncomputable section

/-- Position in the turned axes. -/
theorem offset_turned {theta eps : ℝ} (he : eps = 1 ∨ eps = -1) {x x' : Pixel}
    (h : MovedPixel (simMap 1 theta eps 0 0) x x') : offset 0 0 x' = turnedSpin theta eps 1 (offset 0 0 x) := by
  obtain ⟨h1, -, -, -⟩ := h
  simp only [SkyMap.point, simMap, Prod.mk.injEq] at h1
  obtain ⟨hv, hu⟩ := h1
  have hexp : Complex.exp (-(((1 : ℕ) : ℂ) * theta * Complex.I)) = ⟨Real.cos theta, -Real.sin theta⟩ := by
    rw [show -(((1 : ℕ) : ℂ) * theta * Complex.I) = ((-theta : ℝ) : ℂ) * Complex.I by push_cast; ring, Complex.exp_mul_I,
      ← Complex.ofReal_cos, ← Complex.ofReal_sin, Real.cos_neg, Real.sin_neg]
    apply Complex.ext <;> simp [-Complex.ofReal_cos, -Complex.ofReal_sin]
  unfold turnedSpin
  rw [hexp]
  rcases he with rfl | rfl
  · rw [if_pos rfl]
    apply Complex.ext <;> simp [offset, hv, hu] <;> ring
  · rw [if_neg (by norm_num)]
    apply Complex.ext <;> simp [offset, hv, hu] <;> ring

theorem turnedSpin_norm (theta eps : ℝ) (k : ℕ) (z : ℂ) : ‖turnedSpin theta eps k z‖ = ‖z‖ := by
  have : ‖Complex.exp (-((k : ℂ) * theta * Complex.I))‖ = 1 := by
    rw [show -((k : ℂ) * theta * Complex.I) = ((-(k * theta) : ℝ) : ℂ) * Complex.I by push_cast; ring]
    exact Complex.norm_exp_ofReal_mul_I _
  unfold turnedSpin
  split_ifs
  · rw [norm_mul, this, one_mul]
  · rw [norm_mul, norm_pow, norm_neg, norm_one, one_pow, one_mul, Complex.norm_conj, norm_mul, this, one_mul]

theorem turnedSpin_pow (theta eps : ℝ) (k : ℕ) (z : ℂ) : turnedSpin theta eps 1 z ^ k = turnedSpin theta eps k (z ^ k) := by
  have : Complex.exp (-(((1 : ℕ) : ℂ) * theta * Complex.I)) ^ k = Complex.exp (-((k : ℂ) * theta * Complex.I)) := by
    rw [← Complex.exp_nat_mul]
    congr 1
    push_cast; ring
  unfold turnedSpin
  split_ifs
  · rw [mul_pow, this]
  · rw [mul_pow, pow_one, ← map_pow, mul_pow, this]

theorem turnedSpin_real (theta eps : ℝ) (k : ℕ) (r : ℝ) (z : ℂ) :
    turnedSpin theta eps k ((r : ℂ) * z) = (r : ℂ) * turnedSpin theta eps k z := by
  unfold turnedSpin
  split_ifs
  · ring
  · simp only [map_mul, Complex.conj_ofReal]
    ring

theorem turnedSpin_add (theta eps : ℝ) (k : ℕ) (y z : ℂ) :
    turnedSpin theta eps k (y + z) = turnedSpin theta eps k y + turnedSpin theta eps k z := by
  unfold turnedSpin
  split_ifs
  · ring
  · simp only [map_mul, map_add]
    ring

theorem turnedSpin_zero (theta eps : ℝ) (k : ℕ) : turnedSpin theta eps k 0 = 0 := by
  unfold turnedSpin
  split_ifs <;> simp

theorem weight_offset (sigma : ℝ) (px : Pixel) : roundWeight sigma px = Real.exp (-(‖offset 0 0 px‖ ^ 2 / (2 * sigma ^ 2))) := by
  have : ‖offset 0 0 px‖ ^ 2 = px.v ^ 2 + px.u ^ 2 := by
    rw [← Complex.normSq_eq_norm_sq, Complex.normSq_apply]
    simp only [offset]; ring
  rw [this]; rfl

theorem within_turned {theta eps : ℝ} (he : eps = 1 ∨ eps = -1) (m : ℝ) {pixels pixels' : List Pixel}
    (h : List.Forall₂ (MovedPixel (simMap 1 theta eps 0 0)) pixels pixels') :
    List.Forall₂ (MovedPixel (simMap 1 theta eps 0 0)) (within 0 0 m pixels) (within 0 0 m pixels') := by
  classical
  unfold within
  induction h with
  | nil => exact .nil
  | @cons x x' l l' hx _ ih =>
    have : ‖offset 0 0 x'‖ = ‖offset 0 0 x‖ := by rw [offset_turned he hx, turnedSpin_norm]
    rw [List.filter_cons, List.filter_cons, this]
    split_ifs
    · exact .cons hx ih
    · exact ih

/-- A sum of a real quantity that is the same in both axes. -/
theorem pixSum_rel {R : Pixel → Pixel → Prop} {f f' : Pixel → ℝ} (hf : ∀ x x', R x x' → f' x' = f x) {l l' : List Pixel}
    (h : List.Forall₂ R l l') : pixSum l' f' = pixSum l f := by
  unfold pixSum
  induction h with
  | nil => rfl
  | cons hx _ ih => simp only [List.map_cons, List.sum_cons, ih, hf _ _ hx]

/-- A sum of a complex quantity, from its real and imaginary parts. -/
theorem pixSum_spin {R : Pixel → Pixel → Prop} (theta eps : ℝ) (k : ℕ) {f g f' g' : Pixel → ℝ}
    (hf : ∀ x x', R x x' → (⟨f' x', g' x'⟩ : ℂ) = turnedSpin theta eps k ⟨f x, g x⟩) {l l' : List Pixel}
    (h : List.Forall₂ R l l') :
    (⟨pixSum l' f', pixSum l' g'⟩ : ℂ) = turnedSpin theta eps k ⟨pixSum l f, pixSum l g⟩ := by
  unfold pixSum
  induction h with
  | nil => exact (turnedSpin_zero theta eps k).symm
  | @cons x x' l l' hx _ ih =>
    simp only [List.map_cons, List.sum_cons]
    have e : ∀ a b c d : ℝ, (⟨a + b, c + d⟩ : ℂ) = ⟨a, c⟩ + ⟨b, d⟩ := fun a b c d => rfl
    rw [e, e, turnedSpin_add, hf _ _ hx, ih]

theorem moment_spin {theta eps : ℝ} (he : eps = 1 ∨ eps = -1) {x x' : Pixel}
    (h : MovedPixel (simMap 1 theta eps 0 0) x x') (t : ℕ × ℕ × ℕ) (ht : t ∈ spinTable) :
    (⟨momentOf 0 0 x' t.1, momentOf 0 0 x' t.2.1⟩ : ℂ) =
      turnedSpin theta eps t.2.2 ⟨momentOf 0 0 x t.1, momentOf 0 0 x t.2.1⟩ := by
  have ho := offset_turned he h
  have hn : ‖offset 0 0 x'‖ = ‖offset 0 0 x‖ := by rw [ho, turnedSpin_norm]
  have hpow : ∀ k, offset 0 0 x' ^ k = turnedSpin theta eps k (offset 0 0 x ^ k) := by
    intro k; rw [ho, turnedSpin_pow]
  have hz : ∀ p : Pixel, (⟨p.u, p.v⟩ : ℂ) = offset 0 0 p := fun p => by simp [offset]
  have heta : ∀ z : ℂ, (⟨z.re, z.im⟩ : ℂ) = z := fun z => rfl
  simp only [spinTable, List.mem_cons, List.not_mem_nil, or_false] at ht
  rcases ht with rfl | rfl | rfl | rfl | rfl | rfl
  · simp only [momentOf, hz]
    exact ho
  · simp only [momentOf, heta]
    exact hpow 2
  · simp only [momentOf, heta]
    rw [turnedSpin_real, hn, ho]
  · simp only [momentOf, heta]
    exact hpow 3
  · simp only [momentOf, heta]
    rw [turnedSpin_real, hn, hpow 2]
  · simp only [momentOf, heta]
    exact hpow 4

theorem moment_scalar {theta eps : ℝ} (he : eps = 1 ∨ eps = -1) {x x' : Pixel}
    (h : MovedPixel (simMap 1 theta eps 0 0) x x') (i : ℕ) (hi : i ∈ scalarTable) : momentOf 0 0 x' i = momentOf 0 0 x i := by
  have hn : ‖offset 0 0 x'‖ = ‖offset 0 0 x‖ := by rw [offset_turned he h, turnedSpin_norm]
  simp only [scalarTable, List.mem_cons, List.not_mem_nil, or_false] at hi
  rcases hi with rfl | rfl | rfl | rfl | rfl <;> simp only [momentOf, hn]

/-- C99: the moments seen from turned axes: those with spin turn with it, the others are the same, and so are the
covariances of those. -/
theorem C99_moments (sigma theta eps : ℝ) (he : eps = 1 ∨ eps = -1) (pixels pixels' : List Pixel)
    (h : List.Forall₂ (MovedPixel (simMap 1 theta eps 0 0)) pixels pixels') :
    (∀ t ∈ spinTable, spinMoment sigma pixels' t.1 t.2.1 = turnedSpin theta eps t.2.2 (spinMoment sigma pixels t.1 t.2.1)) ∧
    (∀ i ∈ scalarTable, gMoment sigma pixels' i = gMoment sigma pixels i) ∧
    (∀ i ∈ scalarTable, ∀ j ∈ scalarTable, gMomentCov sigma pixels' i j = gMomentCov sigma pixels i j) := by
  have hw := within_turned he ((100 * sigma) ^ 2) h
  have hwt : ∀ x x', MovedPixel (simMap 1 theta eps 0 0) x x' → roundWeight sigma x' = roundWeight sigma x := by
    intro x x' hx
    rw [weight_offset, weight_offset, offset_turned he hx, turnedSpin_norm]
  refine ⟨fun t ht => ?_, fun i hi => ?_, fun i hi j hj => ?_⟩
  · unfold spinMoment gMoment
    refine pixSum_spin theta eps t.2.2 ?_ hw
    intro x x' hx
    have hm := moment_spin he hx t ht
    have e : ∀ (c a b : ℝ), (⟨c * a, c * b⟩ : ℂ) = (c : ℂ) * ⟨a, b⟩ := by
      intro c a b
      apply Complex.ext <;> simp
    rw [e, e, hm, turnedSpin_real, hwt x x' hx, hx.2.2.1]
  · unfold gMoment
    refine pixSum_rel ?_ hw
    intro x x' hx
    rw [moment_scalar he hx i hi, hwt x x' hx, hx.2.2.1]
  · unfold gMomentCov
    refine pixSum_rel ?_ hw
    intro x x' hx
    rw [moment_scalar he hx i hi, moment_scalar he hx j hj, hwt x x' hx, hx.2.2.2]

theorem turned_shape (theta eps : ℝ) (he : eps = 1 ∨ eps = -1) (a b a' b' T : ℝ)
    (h : (⟨a', b'⟩ : ℂ) = turnedSpin theta eps 2 ⟨a, b⟩) : (a' / T, b' / T) = simShape theta eps (a / T) (b / T) := by
  have hexp : Complex.exp (-(((2 : ℕ) : ℂ) * theta * Complex.I)) = ⟨Real.cos (2 * theta), -Real.sin (2 * theta)⟩ := by
    rw [show -(((2 : ℕ) : ℂ) * theta * Complex.I) = ((-(2 * theta) : ℝ) : ℂ) * Complex.I by push_cast; ring, Complex.exp_mul_I,
      ← Complex.ofReal_cos, ← Complex.ofReal_sin, Real.cos_neg, Real.sin_neg]
    apply Complex.ext <;> simp [-Complex.ofReal_cos, -Complex.ofReal_sin]
  rw [simShape_eq]
  unfold turnedSpin at h
  rw [hexp] at h
  rcases he with rfl | rfl
  · rw [if_pos rfl] at h
    have h1 := congrArg Complex.re h
    have h2 := congrArg Complex.im h
    simp only [Complex.mul_re, Complex.mul_im] at h1 h2
    rw [h1, h2]
    refine Prod.ext ?_ ?_ <;> simp only <;> ring
  · rw [if_neg (by norm_num)] at h
    have h1 := congrArg Complex.re h
    have h2 := congrArg Complex.im h
    simp only [even_two, Even.neg_pow, one_pow, one_mul, Complex.conj_re, Complex.conj_im, Complex.mul_re, Complex.mul_im] at h1 h2
    rw [h1, h2]
    refine Prod.ext ?_ ?_ <;> simp only <;> ring

theorem turned_both (fwhm : ℝ) (hw : WidthOk (fwhmToSigma fwhm)) (higher : Bool) (theta eps : ℝ) (he : eps = 1 ∨ eps = -1)
    (pixels pixels' : List Pixel) (area : ℝ) (ha : 0 < area) (hpa : ∀ px ∈ pixels, px.area = area)
    (hz : ∀ px ∈ pixels, px.ierr ≠ 0) (h : List.Forall₂ (MovedPixel (simMap 1 theta eps 0 0)) pixels pixels') :
    ∃ w m m', gaussMomWeight fwhm = .ok w ∧ (gaussMomGo w higher (.obs pixels area)).2 = .ok m ∧
      (gaussMomGo w higher (.obs pixels' area)).2 = .ok m' ∧ GaussMomResult higher (fwhmToSigma fwhm) pixels area m ∧
      GaussMomResult higher (fwhmToSigma fwhm) pixels' area m' := by
  have hdet : |(simMap 1 theta eps 0 0).det| = 1 := by
    have h1 := Real.sin_sq_add_cos_sq theta
    have e : (simMap 1 theta eps 0 0).det = eps := by
      simp only [SkyMap.det, simMap]
      linear_combination eps * h1
    rw [e]
    rcases he with rfl | rfl <;> simp
  have hback : ∀ px' ∈ pixels', ∃ px ∈ pixels, MovedPixel (simMap 1 theta eps 0 0) px px' := by
    clear hpa hz
    induction h with
    | nil => simp
    | @cons x x' l l' hx _ ih =>
      intro px' hp
      rcases List.mem_cons.1 hp with rfl | hp
      · exact ⟨x, List.mem_cons_self, hx⟩
      · obtain ⟨px, h1, h2⟩ := ih px' hp
        exact ⟨px, List.mem_cons_of_mem _ h1, h2⟩
  have hpa' : ∀ px ∈ pixels', px.area = area := by
    intro px hp
    obtain ⟨q, hq, hm⟩ := hback px hp
    rw [hm.2.1, hdet, one_mul, hpa q hq]
  have hz' : ∀ px ∈ pixels', px.ierr ≠ 0 := by
    intro px hp
    obtain ⟨q, hq, hm⟩ := hback px hp
    rw [hm.2.2.2]; exact hz q hq
  obtain ⟨w, w1, m, g1, g2, R⟩ := C75_go fwhm hw higher pixels area ha hpa fun px hp => hz px (List.mem_of_mem_filter hp)
  obtain ⟨w', w1', m', g1', g2', R'⟩ := C75_go fwhm hw higher pixels' area ha hpa' fun px hp => hz' px (List.mem_of_mem_filter hp)
  rw [g1] at g1'
  injection g1' with g1'
  subst g1'
  exact ⟨w, m, m', g1, by rw [g2], by rw [g2'], R, R'⟩

/-- C99: `GaussMom.go` on the same image with the axes of the sky turned by any angle, one of them reversed or not: both
succeed; flux, size, their errors and the signal to noise ratio are the same and the shape turns, if neither is flagged. -/
theorem C99_turned (fwhm : ℝ) (hw : WidthOk (fwhmToSigma fwhm)) (higher : Bool) (theta eps : ℝ) (he : eps = 1 ∨ eps = -1)
    (pixels pixels' : List Pixel) (area : ℝ) (ha : 0 < area) (hpa : ∀ px ∈ pixels, px.area = area)
    (hz : ∀ px ∈ pixels, px.ierr ≠ 0) (h : List.Forall₂ (MovedPixel (simMap 1 theta eps 0 0)) pixels pixels') :
    ∃ w m m', gaussMomWeight fwhm = .ok w ∧ (gaussMomGo w higher (.obs pixels area)).2 = .ok m ∧
      (gaussMomGo w higher (.obs pixels' area)).2 = .ok m' ∧ m'.npix = m.npix ∧
      (m.res.flags = 0 → m'.res.flags = 0 → SameScalars m.res m'.res ∧
        ∃ e1 e2, m.res.e1 = .fin e1 ∧ m.res.e2 = .fin e2 ∧ m'.res.e1 = .fin (simShape theta eps e1 e2).1 ∧
          m'.res.e2 = .fin (simShape theta eps e1 e2).2) := by
  obtain ⟨w, m, m', g1, g2, g2', R, R'⟩ := turned_both fwhm hw higher theta eps he pixels pixels' area ha hpa hz h
  obtain ⟨k1, k2, k3⟩ := C99_moments (fwhmToSigma fwhm) theta eps he pixels pixels' h
  refine ⟨w, m, m', g1, g2, g2', ?_, fun hf hf' => ⟨?_, ?_⟩⟩
  · rw [R.npix, R'.npix, (within_turned he _ h).length_eq]
  · obtain ⟨a1, a2, a3⟩ := R.flux hf
    obtain ⟨b1, b2, b3⟩ := R'.flux hf'
    obtain ⟨c1, c2⟩ := R.size hf
    obtain ⟨d1, d2⟩ := R'.size hf'
    have f5 : (5 : ℕ) ∈ scalarTable := by simp [scalarTable]
    have f4 : (4 : ℕ) ∈ scalarTable := by simp [scalarTable]
    refine ⟨?_, ?_, ?_, ?_, ?_⟩
    · rw [a1, b1, k2 5 f5]
    · rw [a2, b2, k3 5 f5 5 f5]
    · rw [a3, b3, k2 5 f5, k3 5 f5 5 f5]
    · rw [c1, d1, k2 5 f5, k2 4 f4]
    · rw [c2, d2, k2 5 f5, k2 4 f4, k3 5 f5 5 f5, k3 4 f4 4 f4, k3 4 f4 5 f5]
  · obtain ⟨a1, a2, -⟩ := R.shape hf
    obtain ⟨b1, b2, -⟩ := R'.shape hf'
    have f4 : (4 : ℕ) ∈ scalarTable := by simp [scalarTable]
    have hs := turned_shape theta eps he _ _ _ _ (gMoment (fwhmToSigma fwhm) pixels 4)
      (k1 (2, 3, 2) (by simp [spinTable]))
    refine ⟨_, _, a1, a2, ?_, ?_⟩
    · rw [b1, k2 4 f4]
      exact congrArg Fl.fin (congrArg Prod.fst hs)
    · rw [b2, k2 4 f4]
      exact congrArg Fl.fin (congrArg Prod.snd hs)

/-- Each moment is, up to its sign, one of the moments in the other axes. -/
structure AxesTable (theta eps : ℝ) (sg : ℕ → ℝ) (pm : ℕ → ℕ) : Prop where
  sq : ∀ i, sg i ^ 2 = 1
  low : ∀ i < 6, pm i < 6
  high : ∀ i < 17, pm i < 17
  inv : ∀ i, pm (pm i) = i
  keep : pm 2 = 2 ∧ pm 3 = 3 ∧ pm 4 = 4 ∧ pm 5 = 5
  plus : sg 4 = 1 ∧ sg 5 = 1
  moment : ∀ x x', MovedPixel (simMap 1 theta eps 0 0) x x' → ∀ i < 17, momentOf 0 0 x' i = sg i * momentOf 0 0 x (pm i)

theorem getD_past {α : Type} (l : List α) (i : ℕ) (d : α) (h : l.length ≤ i) : l.getD i d = d := by
  simp [List.getD, List.getElem?_eq_none h]

theorem axes_table (theta eps : ℝ) (he : eps = 1 ∨ eps = -1) (ht : Real.sin theta * Real.cos theta = 0) :
    ∃ sg pm, AxesTable theta eps sg pm := by
  have h1 := Real.sin_sq_add_cos_sq theta
  have hm : ∀ (x : Pixel) (i : ℕ), i < 17 → momentOf 0 0 x i = (wsF17 0 0 x).getD i 0 := fun x i hi =>
    (moments_eq true 0 0 x i (by simpa [nMom] using hi)).symm
  have hone : (1.0 : ℝ) = 1 := by norm_num
  have hsq : ∀ x : ℝ, x ^ 2 = 1 → x = 1 ∨ x = -1 := fun x hx => sq_eq_one_iff.1 hx
  rcases mul_eq_zero.1 ht with h0 | h0
  · -- the axes keep their names
    rw [h0] at h1
    have hc := hsq (Real.cos theta) (by linarith)
    refine ⟨fun i => ([Real.cos theta, eps * Real.cos theta, 1, eps, 1, 1, eps * Real.cos theta, Real.cos theta,
      eps * Real.cos theta, Real.cos theta, 1, 1, eps, 1, eps, 1, 1] : List ℝ).getD i 1, id, ?_⟩
    refine ⟨fun i => ?_, fun i h => h, fun i h => h, fun i => rfl, ⟨rfl, rfl, rfl, rfl⟩, ⟨rfl, rfl⟩, ?_⟩
    · rcases Nat.lt_or_ge i 17 with hi | hi
      · rcases hc with hc | hc <;> rcases he with rfl | rfl <;> rw [hc] <;> interval_cases i <;> norm_num
      · rw [getD_past _ _ _ (by simpa using hi), one_pow]
    · rintro x x' ⟨hp, -⟩ i hi
      simp only [SkyMap.point, simMap, Prod.mk.injEq, h0] at hp
      obtain ⟨hv, hu⟩ := hp
      rw [hm x' i hi, show id i = i from rfl, hm x i hi]
      rcases hc with hc | hc <;> rcases he with rfl | rfl <;> rw [hc] at hv hu ⊢ <;> interval_cases i <;>
        simp only [wsF17, hv, hu, id, List.getD_cons_zero, List.getD_cons_succ, hone] <;> ring
  · -- the axes exchange their names
    rw [h0] at h1
    have hc := hsq (Real.sin theta) (by linarith)
    refine ⟨fun i => ([-Real.sin theta, eps * Real.sin theta, -1, -eps, 1, 1, eps * Real.sin theta, -Real.sin theta,
      -(eps * Real.sin theta), Real.sin theta, 1, -1, -eps, 1, eps, 1, 1] : List ℝ).getD i 1,
      fun i => ([1, 0, 2, 3, 4, 5, 7, 6, 9, 8] : List ℕ).getD i i, ?_⟩
    refine ⟨fun i => ?_, ?_, ?_, ?_, ⟨rfl, rfl, rfl, rfl⟩, ⟨rfl, rfl⟩, ?_⟩
    · rcases Nat.lt_or_ge i 17 with hi | hi
      · rcases hc with hc | hc <;> rcases he with rfl | rfl <;> rw [hc] <;> interval_cases i <;> norm_num
      · rw [getD_past _ _ _ (by simpa using hi), one_pow]
    · intro i hi
      interval_cases i <;> simp
    · intro i hi
      interval_cases i <;> simp
    · intro i
      rcases Nat.lt_or_ge i 10 with hi | hi
      · interval_cases i <;> simp
      · have : ([1, 0, 2, 3, 4, 5, 7, 6, 9, 8] : List ℕ).getD i i = i := getD_past _ _ _ (by simpa using hi)
        simp only [this]
    · rintro x x' ⟨hp, -⟩ i hi
      simp only [SkyMap.point, simMap, Prod.mk.injEq, h0] at hp
      obtain ⟨hv, hu⟩ := hp
      have hpm : ([1, 0, 2, 3, 4, 5, 7, 6, 9, 8] : List ℕ).getD i i < 17 := by interval_cases i <;> simp
      rw [hm x' i hi, hm x _ hpm]
      rcases hc with hc | hc <;> rcases he with rfl | rfl <;> rw [hc] at hv hu ⊢ <;> interval_cases i <;>
        simp only [wsF17, hv, hu, List.getD_cons_zero, List.getD_cons_succ, List.getD_nil, hone] <;> ring

theorem ratioQuad_sign (k a b va vb cab : ℝ) (hk : k ^ 2 = 1) : ratioQuad (k * a) b va vb (k * cab) = ratioQuad a b va vb cab := by
  rcases sq_eq_one_iff.1 hk with rfl | rfl
  · simp
  · unfold ratioQuad; ring_nf

/-- C99: the axes exchanged or not, each reversed or not: the measurement succeeds in both or in neither, and then the errors
of the shape are the same too. -/
theorem C99_axes (fwhm : ℝ) (hw : WidthOk (fwhmToSigma fwhm)) (higher : Bool) (theta eps : ℝ) (he : eps = 1 ∨ eps = -1)
    (ht : Real.sin theta * Real.cos theta = 0)
    (pixels pixels' : List Pixel) (area : ℝ) (ha : 0 < area) (hpa : ∀ px ∈ pixels, px.area = area)
    (hz : ∀ px ∈ pixels, px.ierr ≠ 0) (h : List.Forall₂ (MovedPixel (simMap 1 theta eps 0 0)) pixels pixels') :
    ∃ w m m', gaussMomWeight fwhm = .ok w ∧ (gaussMomGo w higher (.obs pixels area)).2 = .ok m ∧
      (gaussMomGo w higher (.obs pixels' area)).2 = .ok m' ∧ (m'.res.flags = 0 ↔ m.res.flags = 0) ∧
      (m.res.flags = 0 → m'.res.eErr = m.res.eErr) := by
  obtain ⟨w, m, m', g1, g2, g2', R, R'⟩ := turned_both fwhm hw higher theta eps he pixels pixels' area ha hpa hz h
  obtain ⟨sg, pm, hT⟩ := axes_table theta eps he ht
  have hws := within_turned he ((100 * fwhmToSigma fwhm) ^ 2) h
  have hwt : ∀ x x', MovedPixel (simMap 1 theta eps 0 0) x x' → roundWeight (fwhmToSigma fwhm) x' = roundWeight (fwhmToSigma fwhm) x := by
    intro x x' hx
    rw [weight_offset, weight_offset, offset_turned he hx, turnedSpin_norm]
  have hM : ∀ i < 17, gMoment (fwhmToSigma fwhm) pixels' i = sg i * gMoment (fwhmToSigma fwhm) pixels (pm i) := by
    intro i hi
    unfold gMoment
    rw [← pixSum_mul]
    refine pixSum_rel ?_ hws
    intro x x' hx
    rw [hT.moment x x' hx i hi, hwt x x' hx, hx.2.2.1]; ring
  have hC : ∀ i < 17, ∀ j < 17, gMomentCov (fwhmToSigma fwhm) pixels' i j =
      sg i * sg j * gMomentCov (fwhmToSigma fwhm) pixels (pm i) (pm j) := by
    intro i hi j hj
    unfold gMomentCov
    rw [← pixSum_mul]
    refine pixSum_rel ?_ hws
    intro x x' hx
    rw [hT.moment x x' hx i hi, hT.moment x x' hx j hj, hwt x x' hx, hx.2.2.2]; ring
  have hD : ∀ i < 17, gMomentCov (fwhmToSigma fwhm) pixels' i i = gMomentCov (fwhmToSigma fwhm) pixels (pm i) (pm i) := by
    intro i hi
    rw [hC i hi i hi, ← sq, hT.sq, one_mul]
  have hne : ∀ i, sg i ≠ 0 := by
    intro i h0
    have := hT.sq i
    rw [h0] at this
    norm_num at this
  obtain ⟨p2, p3, p4, p5⟩ := hT.keep
  obtain ⟨q4, q5⟩ := hT.plus
  have hpm : ∀ i < nMom higher, pm i < nMom higher := by
    intro i hi
    cases higher
    · exact hT.low i hi
    · exact hT.high i hi
  have h17 : ∀ i < nMom higher, i < 17 := by
    intro i hi
    cases higher <;> simp [nMom] at hi <;> omega
  have hflags : m'.res.flags = 0 ↔ m.res.flags = 0 := by
    rw [R.flags, R'.flags, hM 2 (by norm_num), hM 3 (by norm_num), hM 4 (by norm_num), hM 5 (by norm_num), p2, p3, p4, p5, q4, q5,
      one_mul, one_mul, mul_ne_zero_iff, mul_ne_zero_iff]
    have : (∀ i < nMom higher, 0 < gMomentCov (fwhmToSigma fwhm) pixels' i i) ↔
        ∀ i < nMom higher, 0 < gMomentCov (fwhmToSigma fwhm) pixels i i := by
      constructor
      · intro hh i hi
        have := hh (pm i) (hpm i hi)
        rwa [hD _ (h17 _ (hpm i hi)), hT.inv] at this
      · intro hh i hi
        rw [hD i (h17 i hi)]
        exact hh _ (hpm i hi)
    rw [this]
    simp [hne]
  refine ⟨w, m, m', g1, g2, g2', hflags, fun hf => ?_⟩
  obtain ⟨-, -, a⟩ := R.shape hf
  obtain ⟨-, -, b⟩ := R'.shape (hflags.2 hf)
  rw [a, b, hD 2 (by norm_num), hD 3 (by norm_num), hD 4 (by norm_num), hC 2 (by norm_num) 4 (by norm_num),
    hC 3 (by norm_num) 4 (by norm_num), hM 2 (by norm_num), hM 3 (by norm_num), hM 4 (by norm_num), p2, p3, p4, q4, one_mul, mul_one,
    mul_one, ratioQuad_sign _ _ _ _ _ _ (hT.sq 2), ratioQuad_sign _ _ _ _ _ _ (hT.sq 3)]

/-- three pixels of a unit square -/
def squarePix : List Pixel := [⟨0, 1, 1, 1, 1⟩, ⟨1, 0, 1, 1, 1⟩, ⟨1, 1, 1, 1, 1⟩]

/-- the same pixels seen from axes turned back by the angle of sine 3/5 -/
def slantPix : List Pixel := [⟨-3/5, 4/5, 1, 1, 1⟩, ⟨4/5, 3/5, 1, 1, 1⟩, ⟨1/5, 7/5, 1, 1, 1⟩]

theorem slant_moved : List.Forall₂ (MovedPixel (simMap 1 (Real.arcsin (3 / 5)) 1 0 0)) slantPix squarePix := by
  have hs : Real.sin (Real.arcsin (3 / 5)) = 3 / 5 := Real.sin_arcsin (by norm_num) (by norm_num)
  have hc : Real.cos (Real.arcsin (3 / 5)) = 4 / 5 := by
    rw [Real.cos_arcsin, show (1 - (3 / 5 : ℝ) ^ 2) = (4 / 5) ^ 2 by norm_num, Real.sqrt_sq (by norm_num)]
  unfold slantPix squarePix
  refine List.Forall₂.cons ?_ (List.Forall₂.cons ?_ (List.Forall₂.cons ?_ List.Forall₂.nil)) <;>
    refine ⟨?_, ?_, rfl, rfl⟩ <;> simp only [SkyMap.point, SkyMap.det, simMap, hs, hc] <;> norm_num

theorem width_one_two : WidthOk (fwhmToSigma (1.2 * fwhmFac)) ∧ fwhmToSigma (1.2 * fwhmFac) = 1.2 := by
  have h : fwhmFac ≠ 0 := by
    unfold fwhmFac
    positivity
  have : fwhmToSigma (1.2 * fwhmFac) = 1.2 := by unfold fwhmToSigma; field_simp
  rw [this]
  norm_num [WidthOk, gmixLowDetval]

theorem slant_within : within 0 0 ((100 * 1.2) ^ 2) slantPix = slantPix := by
  unfold within slantPix
  rw [List.filter_eq_self]
  intro px hp
  simp only [List.mem_cons, List.not_mem_nil, or_false] at hp
  rcases hp with rfl | rfl | rfl <;> simp [offset, Complex.sq_norm, Complex.normSq_apply] <;> norm_num

theorem square_within : within 0 0 ((100 * 1.2) ^ 2) squarePix = squarePix := by
  unfold within squarePix
  rw [List.filter_eq_self]
  intro px hp
  simp only [List.mem_cons, List.not_mem_nil, or_false] at hp
  rcases hp with rfl | rfl | rfl <;> simp [offset, Complex.sq_norm, Complex.normSq_apply] <;> norm_num

/-- C99: what is flagged depends on the axes: the same image, measured without a flag, is flagged in turned axes, because
there one component of its shape is zero. -/
theorem C99_flag_turns : ∃ fwhm theta area : ℝ, ∃ pixels pixels' : List Pixel, WidthOk (fwhmToSigma fwhm) ∧ 0 < area ∧
    (∀ px ∈ pixels, px.area = area ∧ px.ierr ≠ 0) ∧ List.Forall₂ (MovedPixel (simMap 1 theta 1 0 0)) pixels pixels' ∧
    ∃ w m m', gaussMomWeight fwhm = .ok w ∧ (gaussMomGo w false (.obs pixels area)).2 = .ok m ∧
      (gaussMomGo w false (.obs pixels' area)).2 = .ok m' ∧ m.res.flags = 0 ∧ m'.res.flags ≠ 0 := by
  obtain ⟨hw, h12⟩ := width_one_two
  have hp : ∀ px ∈ slantPix, px.area = 1 ∧ px.ierr ≠ 0 := by
    intro px hp
    simp only [slantPix, List.mem_cons, List.not_mem_nil, or_false] at hp
    rcases hp with rfl | rfl | rfl <;> norm_num
  obtain ⟨w, m, m', g1, g2, g2', R, R'⟩ := turned_both (1.2 * fwhmFac) hw false (Real.arcsin (3 / 5)) 1 (Or.inl rfl) slantPix
    squarePix 1 one_pos (fun px h => (hp px h).1) (fun px h => (hp px h).2) slant_moved
  refine ⟨1.2 * fwhmFac, Real.arcsin (3 / 5), 1, slantPix, squarePix, hw, one_pos, hp, slant_moved, w, m, m', g1, g2, g2', ?_, ?_⟩
  · rw [R.flags, h12]
    unfold gMoment gMomentCov
    rw [slant_within]
    have hv : ∀ px ∈ slantPix, 0 < roundWeight 1.2 px := fun px _ => Real.exp_pos _
    have e : roundWeight 1.2 ⟨4/5, 3/5, 1, 1, 1⟩ = roundWeight 1.2 ⟨-3/5, 4/5, 1, 1, 1⟩ := by
      unfold roundWeight; norm_num
    have a := Real.exp_pos (-((((4/5 : ℝ)) ^ 2 + (-3/5) ^ 2) / (2 * 1.2 ^ 2)))
    have b := Real.exp_pos (-((((7/5 : ℝ)) ^ 2 + (1/5) ^ 2) / (2 * 1.2 ^ 2)))
    change 0 < roundWeight 1.2 ⟨-3/5, 4/5, 1, 1, 1⟩ at a
    change 0 < roundWeight 1.2 ⟨1/5, 7/5, 1, 1, 1⟩ at b
    simp only [slantPix, pixSum, List.map_cons, List.map_nil, List.sum_cons, List.sum_nil, e]
    generalize roundWeight 1.2 ⟨-3/5, 4/5, 1, 1, 1⟩ = wa at a ⊢
    generalize roundWeight 1.2 ⟨1/5, 7/5, 1, 1, 1⟩ = wb at b ⊢
    have hA : 0 < wa ^ 2 := by positivity
    have hB : 0 < wb ^ 2 := by positivity
    have hone : (1.0 : ℝ) = 1 := by norm_num
    have hm : ∀ (x : Pixel) (i : ℕ), i < 6 → momentOf 0 0 x i = (wsF17 0 0 x).getD i 0 := fun x i hi =>
      (moments_eq true 0 0 x i (by simp [nMom]; omega)).symm
    refine ⟨fun i hi => ?_, ?_, ?_, ?_, ?_⟩
    · have hi6 : i < 6 := hi
      rw [hm _ i hi6, hm _ i hi6, hm _ i hi6]
      interval_cases i <;> simp only [wsF17, List.getD_cons_zero, List.getD_cons_succ, hone] <;> nlinarith
    all_goals rw [hm _ _ (by norm_num), hm _ _ (by norm_num), hm _ _ (by norm_num)]
    all_goals simp only [wsF17, List.getD_cons_zero, List.getD_cons_succ, hone]
    · nlinarith
    · nlinarith
    · intro h; nlinarith
    · intro h; nlinarith
  · rw [Ne, R'.flags, h12]
    unfold gMoment gMomentCov
    rw [square_within]
    rintro ⟨-, -, -, h, -⟩
    refine h ?_
    have e : roundWeight 1.2 ⟨0, 1, 1, 1, 1⟩ = roundWeight 1.2 ⟨1, 0, 1, 1, 1⟩ := by
      unfold roundWeight; norm_num
    simp only [squarePix, pixSum, List.map_cons, List.map_nil, List.sum_cons, List.sum_nil, e]
    simp [momentOf, offset, sq]

/-- the axes exchanged: `C99_axes` applies -/
example : Real.sin (Real.pi / 2) * Real.cos (Real.pi / 2) = 0 ∧
    List.Forall₂ (MovedPixel (simMap 1 (Real.pi / 2) (-1) 0 0)) slantPix
      [⟨-4/5, 3/5, 1, 1, 1⟩, ⟨-3/5, -4/5, 1, 1, 1⟩, ⟨-7/5, -1/5, 1, 1, 1⟩] := by
  refine ⟨by simp, ?_⟩
  unfold slantPix
  refine List.Forall₂.cons ?_ (List.Forall₂.cons ?_ (List.Forall₂.cons ?_ List.Forall₂.nil)) <;>
    refine ⟨?_, ?_, rfl, rfl⟩ <;>
    simp only [SkyMap.point, SkyMap.det, simMap, Real.sin_pi_div_two, Real.cos_pi_div_two] <;> norm_num

end

end Ngmix.Props
