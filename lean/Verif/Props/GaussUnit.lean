import Verif.Spec.GaussUnit
import Verif.Props.GaussTurn

/-!
# Gaussian weighted moments in another unit of length (C120)
-/

namespace Ngmix.Props

open Ngmix Ngmix.Spec

noncomputable section

/-- The change of the unit of length. -/
theorem unit_pixel {k : ℝ} {x x' : Pixel} (h : MovedPixel (simMap k 0 1 0 0) x x') :
    x'.v = k * x.v ∧ x'.u = k * x.u ∧ x'.area = k ^ 2 * x.area ∧ x'.val = x.val ∧ x'.ierr = x.ierr := by
  obtain ⟨h1, h2, h3, h4⟩ := h
  simp only [SkyMap.point, simMap, SkyMap.det, Real.cos_zero, Real.sin_zero, Prod.mk.injEq] at h1 h2
  refine ⟨by rw [h1.1]; ring, by rw [h1.2]; ring, ?_, h3, h4⟩
  rw [h2]
  congr 1
  rw [show k * 1 * (1 * (k * 1)) - -(k * 0) * (1 * (k * 0)) = k ^ 2 by ring]
  exact abs_of_nonneg (sq_nonneg k)

theorem offset_unit {k : ℝ} {x x' : Pixel} (h : MovedPixel (simMap k 0 1 0 0) x x') : offset 0 0 x' = (k : ℂ) * offset 0 0 x := by
  obtain ⟨h1, h2, -⟩ := unit_pixel h
  unfold offset
  apply Complex.ext <;> simp [h1, h2]

theorem norm_unit {k : ℝ} (hk : 0 < k) {x x' : Pixel} (h : MovedPixel (simMap k 0 1 0 0) x x') :
    ‖offset 0 0 x'‖ = k * ‖offset 0 0 x‖ := by
  rw [offset_unit h, norm_mul, Complex.norm_real, Real.norm_of_nonneg hk.le]

theorem within_unit {k : ℝ} (hk : 0 < k) (m : ℝ) {pixels pixels' : List Pixel}
    (h : List.Forall₂ (MovedPixel (simMap k 0 1 0 0)) pixels pixels') :
    List.Forall₂ (MovedPixel (simMap k 0 1 0 0)) (within 0 0 (m ^ 2) pixels) (within 0 0 ((k * m) ^ 2) pixels') := by
  classical
  unfold within
  induction h with
  | nil => exact .nil
  | @cons x x' l l' hx _ ih =>
    have hiff : (‖offset 0 0 x'‖ ^ 2 < (k * m) ^ 2) ↔ ‖offset 0 0 x‖ ^ 2 < m ^ 2 := by
      rw [norm_unit hk hx, mul_pow, mul_pow]
      exact mul_lt_mul_iff_right₀ (by positivity)
    rw [List.filter_cons, List.filter_cons]
    simp only [hiff]
    split_ifs
    · exact .cons hx ih
    · exact ih

theorem weight_unit {k : ℝ} (hk : 0 < k) (sigma : ℝ) {x x' : Pixel} (h : MovedPixel (simMap k 0 1 0 0) x x') :
    roundWeight (k * sigma) x' = roundWeight sigma x := by
  obtain ⟨h1, h2, -⟩ := unit_pixel h
  unfold roundWeight
  rw [h1, h2, show (k * x.v) ^ 2 + (k * x.u) ^ 2 = k ^ 2 * (x.v ^ 2 + x.u ^ 2) by ring,
    show 2 * (k * sigma) ^ 2 = k ^ 2 * (2 * sigma ^ 2) by ring, mul_div_mul_left _ _ (by positivity)]

theorem moment_unit {k : ℝ} (hk : 0 < k) {x x' : Pixel} (h : MovedPixel (simMap k 0 1 0 0) x x') (i : ℕ) (hi : i < 17) :
    momentOf 0 0 x' i = k ^ lengthsIn.getD i 0 * momentOf 0 0 x i := by
  obtain ⟨h1, h2, -⟩ := unit_pixel h
  have ho := offset_unit h
  have hn := norm_unit hk h
  have hre : ∀ (n : ℕ) (z : ℂ), (((k : ℂ) ^ n) * z).re = k ^ n * z.re := by
    intro n z
    rw [← Complex.ofReal_pow, Complex.re_ofReal_mul]
  have him : ∀ (n : ℕ) (z : ℂ), (((k : ℂ) ^ n) * z).im = k ^ n * z.im := by
    intro n z
    rw [← Complex.ofReal_pow, Complex.im_ofReal_mul]
  have e3 : (((‖offset 0 0 x'‖ ^ 2 : ℝ) : ℂ) * offset 0 0 x') = (k : ℂ) ^ 3 * (((‖offset 0 0 x‖ ^ 2 : ℝ) : ℂ) * offset 0 0 x) := by
    rw [hn, ho]; push_cast; ring
  have e4 : (((‖offset 0 0 x'‖ ^ 2 : ℝ) : ℂ) * offset 0 0 x' ^ 2) =
      (k : ℂ) ^ 4 * (((‖offset 0 0 x‖ ^ 2 : ℝ) : ℂ) * offset 0 0 x ^ 2) := by
    rw [hn, ho]; push_cast; ring
  have ep : ∀ n, offset 0 0 x' ^ n = (k : ℂ) ^ n * offset 0 0 x ^ n := fun n => by rw [ho, mul_pow]
  have hr : ∀ n, ‖offset 0 0 x'‖ ^ n = k ^ n * ‖offset 0 0 x‖ ^ n := fun n => by rw [hn, mul_pow]
  interval_cases i <;> simp only [lengthsIn, List.getD_cons_zero, List.getD_cons_succ, momentOf, pow_one, pow_zero, one_mul, h1, h2]
  case «6» => rw [e3, hre]
  case «7» => rw [e3, him]
  case «11» => rw [e4, hre]
  case «12» => rw [e4, him]
  all_goals first | rw [ep, hre] | rw [ep, him] | rw [hr]

theorem gMoment_unit {k : ℝ} (hk : 0 < k) (sigma : ℝ) {pixels pixels' : List Pixel}
    (h : List.Forall₂ (MovedPixel (simMap k 0 1 0 0)) pixels pixels') :
    (∀ i < 17, gMoment (k * sigma) pixels' i = k ^ lengthsIn.getD i 0 * gMoment sigma pixels i) ∧
    (∀ i < 17, ∀ j < 17, gMomentCov (k * sigma) pixels' i j =
      k ^ (lengthsIn.getD i 0 + lengthsIn.getD j 0) * gMomentCov sigma pixels i j) ∧
    pixSum (within 0 0 ((100 * (k * sigma)) ^ 2) pixels') (roundWeight (k * sigma)) =
      pixSum (within 0 0 ((100 * sigma) ^ 2) pixels) (roundWeight sigma) := by
  have hw := within_unit hk (100 * sigma) h
  rw [show k * (100 * sigma) = 100 * (k * sigma) by ring] at hw
  refine ⟨fun i hi => ?_, fun i hi j hj => ?_, pixSum_rel (fun x x' hx => weight_unit hk sigma hx) hw⟩
  · unfold gMoment
    rw [← pixSum_mul]
    refine pixSum_rel ?_ hw
    intro x x' hx
    rw [moment_unit hk hx i hi, weight_unit hk sigma hx, (unit_pixel hx).2.2.2.1]; ring
  · unfold gMomentCov
    rw [← pixSum_mul]
    refine pixSum_rel ?_ hw
    intro x x' hx
    rw [moment_unit hk hx i hi, moment_unit hk hx j hj, weight_unit hk sigma hx, (unit_pixel hx).2.2.2.2, pow_add]; ring

theorem ratioQuad_unit (s t a b va vb cab : ℝ) (ht : t ≠ 0) :
    ratioQuad (s * a) (t * b) (s ^ 2 * va) (t ^ 2 * vb) (s * t * cab) = (s / t) ^ 2 * ratioQuad a b va vb cab := by
  unfold ratioQuad
  by_cases hb : b = 0
  · subst hb
    simp
  · field_simp

theorem sqrt_unit (c x : ℝ) (hc : 0 ≤ c) : Real.sqrt (max (c ^ 2 * x) 0) = c * Real.sqrt (max x 0) := by
  rw [show max (c ^ 2 * x) 0 = c ^ 2 * max x 0 by rw [mul_max_of_nonneg _ _ (by positivity), mul_zero],
    Real.sqrt_mul (by positivity), Real.sqrt_sq hc]

/-- C120.  `GaussMom` on the same image with Jacobian and width of the weight in another unit of length. -/
theorem C120_unit (fwhm k : ℝ) (hk : 0 < k) (hw : WidthOk (fwhmToSigma fwhm)) (hw' : WidthOk (fwhmToSigma (k * fwhm))) (higher : Bool)
    (pixels pixels' : List Pixel) (area : ℝ) (ha : 0 < area) (hpa : ∀ px ∈ pixels, px.area = area)
    (h : List.Forall₂ (MovedPixel (simMap k 0 1 0 0)) pixels pixels') :
    ∃ w w', gaussMomWeight fwhm = .ok w ∧ gaussMomWeight (k * fwhm) = .ok w' ∧
      (((gaussMomGo w higher (.obs pixels area)).2 = .error .zeroDiv ∧
        (gaussMomGo w' higher (.obs pixels' (k ^ 2 * area))).2 = .error .zeroDiv) ∨
      ∃ m m', (gaussMomGo w higher (.obs pixels area)).2 = .ok m ∧ (gaussMomGo w' higher (.obs pixels' (k ^ 2 * area))).2 = .ok m' ∧
        (m'.res.flags = 0 ↔ m.res.flags = 0) ∧ (m.res.flags = 0 → SameInLength k (nMom higher) m m')) := by
  have hsig : fwhmToSigma (k * fwhm) = k * fwhmToSigma fwhm := by unfold fwhmToSigma; ring
  have hwn := within_unit hk (100 * fwhmToSigma fwhm) h
  rw [show k * (100 * fwhmToSigma fwhm) = 100 * fwhmToSigma (k * fwhm) by rw [hsig]; ring] at hwn
  have hpa' : ∀ px' ∈ pixels', px'.area = k ^ 2 * area := by
    clear hwn
    induction h with
    | nil => simp
    | @cons x x' l l' hx _ ih =>
      intro px' hp
      rcases List.mem_cons.1 hp with rfl | hp
      · rw [(unit_pixel hx).2.2.1, hpa x List.mem_cons_self]
      · exact ih (fun px hp => hpa px (List.mem_cons_of_mem _ hp)) px' hp
  have hz : ∀ {l l' : List Pixel}, List.Forall₂ (MovedPixel (simMap k 0 1 0 0)) l l' →
      ((∃ px ∈ l, px.ierr = 0) ↔ ∃ px ∈ l', px.ierr = 0) := by
    intro l l' h
    induction h with
    | nil => simp
    | cons hx _ ih => simp only [List.exists_mem_cons_iff, ih, (unit_pixel hx).2.2.2.2]
  by_cases hzero : ∃ px ∈ within 0 0 ((100 * fwhmToSigma fwhm) ^ 2) pixels, px.ierr = 0
  · obtain ⟨w, g1, g2⟩ := C75_zero_weight fwhm hw higher pixels area hzero
    obtain ⟨w', g1', g2'⟩ := C75_zero_weight (k * fwhm) hw' higher pixels' (k ^ 2 * area) ((hz hwn).1 hzero)
    exact ⟨w, w', g1, g1', .inl ⟨g2, g2'⟩⟩
  · have hzero' := fun h' => hzero ((hz hwn).2 h')
    obtain ⟨w, _, m, g1, g2, R⟩ := C75_go fwhm hw higher pixels area ha hpa
      fun px hp h0 => hzero ⟨px, hp, h0⟩
    obtain ⟨w', _, m', g1', g2', R'⟩ := C75_go (k * fwhm) hw' higher pixels' (k ^ 2 * area) (by positivity) hpa'
      fun px hp h0 => hzero' ⟨px, hp, h0⟩
    rw [hsig] at R'
    obtain ⟨hM, hC, hN⟩ := gMoment_unit hk (fwhmToSigma fwhm) h
    have h17 : ∀ i < nMom higher, i < 17 := by
      intro i hi
      cases higher <;> simp [nMom] at hi <;> omega
    have hkp : ∀ n : ℕ, 0 < k ^ n := fun n => by positivity
    have hflags : m'.res.flags = 0 ↔ m.res.flags = 0 := by
      rw [R.flags, R'.flags, hM 2 (by norm_num), hM 3 (by norm_num), hM 4 (by norm_num), hM 5 (by norm_num), mul_ne_zero_iff,
        mul_ne_zero_iff, mul_pos_iff_of_pos_left (hkp _), mul_pos_iff_of_pos_left (hkp _)]
      simp only [ne_eq, (hkp _).ne', not_false_eq_true, true_and]
      refine and_congr (forall₂_congr fun i hi => ?_) Iff.rfl
      rw [hC i (h17 i hi) i (h17 i hi), mul_pos_iff_of_pos_left (hkp _)]
    refine ⟨w, w', g1, g1', .inr ⟨m, m', by rw [g2], by rw [g2'], hflags, fun hf => ?_⟩⟩
    have hf' := hflags.2 hf
    have l2 : lengthsIn.getD 2 0 = 2 := rfl
    have l3 : lengthsIn.getD 3 0 = 2 := rfl
    have l4 : lengthsIn.getD 4 0 = 2 := rfl
    have l5 : lengthsIn.getD 5 0 = 0 := rfl
    have M2 := hM 2 (by norm_num)
    have M3 := hM 3 (by norm_num)
    have M4 := hM 4 (by norm_num)
    have M5 := hM 5 (by norm_num)
    have C22 := hC 2 (by norm_num) 2 (by norm_num)
    have C33 := hC 3 (by norm_num) 3 (by norm_num)
    have C44 := hC 4 (by norm_num) 4 (by norm_num)
    have C55 := hC 5 (by norm_num) 5 (by norm_num)
    have C24 := hC 2 (by norm_num) 4 (by norm_num)
    have C34 := hC 3 (by norm_num) 4 (by norm_num)
    have C45 := hC 4 (by norm_num) 5 (by norm_num)
    rw [l2] at M2 C22 C24
    rw [l3] at M3 C33 C34
    rw [l4] at M4 C24 C34 C44 C45
    rw [l5] at M5 C55 C45
    simp only [pow_zero, one_mul, add_zero] at M5 C55 C45
    obtain ⟨a1, a2, a3⟩ := R.flux hf
    obtain ⟨b1, b2, b3⟩ := R'.flux hf'
    obtain ⟨c1, c2⟩ := R.size hf
    obtain ⟨d1, d2⟩ := R'.size hf'
    obtain ⟨e1, e2, e3⟩ := R.shape hf
    obtain ⟨f1, f2, f3⟩ := R'.shape hf'
    refine ⟨?_, ?_, ?_, ?_, ?_, ?_, ?_⟩
    · rw [R.npix, R'.npix, ← hsig]
      exact hwn.length_eq.symm
    · rw [a1, b1, a2, b2, a3, b3, M5, C55]
      exact ⟨rfl, rfl, rfl⟩
    · refine ⟨_, _, c1, ?_, c2, ?_⟩
      · rw [d1, M4, M5, mul_div_assoc]
      · rw [d2, M4, M5, C44, C45, C55]
        have := ratioQuad_unit (k ^ 2) 1 (gMoment (fwhmToSigma fwhm) pixels 4) (gMoment (fwhmToSigma fwhm) pixels 5)
          (gMomentCov (fwhmToSigma fwhm) pixels 4 4) (gMomentCov (fwhmToSigma fwhm) pixels 5 5)
          (gMomentCov (fwhmToSigma fwhm) pixels 4 5) one_ne_zero
        simp only [one_mul, mul_one, one_pow, div_one] at this
        rw [show k ^ (2 + 2) = (k ^ 2) ^ 2 by ring, this, sqrt_unit _ _ (hkp 2).le]
    · have hq : ∀ a va ca : ℝ, Real.sqrt (max (ratioQuad (k ^ 2 * a) (k ^ 2 * gMoment (fwhmToSigma fwhm) pixels 4) (k ^ (2 + 2) * va)
          (k ^ (2 + 2) * gMomentCov (fwhmToSigma fwhm) pixels 4 4) (k ^ (2 + 2) * ca)) 0) =
          Real.sqrt (max (ratioQuad a (gMoment (fwhmToSigma fwhm) pixels 4) va (gMomentCov (fwhmToSigma fwhm) pixels 4 4) ca) 0) := by
        intro a va ca
        have := ratioQuad_unit (k ^ 2) (k ^ 2) a (gMoment (fwhmToSigma fwhm) pixels 4) va
          (gMomentCov (fwhmToSigma fwhm) pixels 4 4) ca (hkp 2).ne'
        rw [div_self (hkp 2).ne', one_pow, one_mul, ← pow_mul, ← pow_add] at this
        rw [← this]
      rw [e1, e2, e3, f1, f2, f3, M2, M3, M4, C22, C33, C44, C24, C34, hq, hq, mul_div_mul_left _ _ (hkp 2).ne',
        mul_div_mul_left _ _ (hkp 2).ne']
      exact ⟨rfl, rfl, rfl⟩
    · refine ⟨_, R.sums hf, ?_⟩
      rw [R'.sums hf']
      refine List.map_congr_left fun i hi => ?_
      rw [hM i (h17 i (List.mem_range.1 hi))]
    · intro i hi j hj
      exact ⟨_, R.cov hf i hi j hj, by rw [R'.cov hf' i hi j hj, hC i (h17 i hi) j (h17 j hj)]⟩
    · rw [(R.norm hf).1, (R.norm hf).2, (R'.norm hf').1, (R'.norm hf').2, hN]
      exact ⟨rfl, rfl⟩

/-! ### Concrete cases -/

/-- The slanted pixels of C99 in a unit half as long, and a weight that can be made in both units. -/
example : List.Forall₂ (MovedPixel (simMap 2 0 1 0 0)) slantPix [⟨-6/5, 8/5, 4, 1, 1⟩, ⟨8/5, 6/5, 4, 1, 1⟩, ⟨2/5, 14/5, 4, 1, 1⟩] ∧
    WidthOk (fwhmToSigma (1.2 * fwhmFac)) ∧ WidthOk (fwhmToSigma (2 * (1.2 * fwhmFac))) := by
  obtain ⟨h1, h2⟩ := width_one_two
  refine ⟨?_, h1, ?_⟩
  · unfold slantPix
    refine List.Forall₂.cons ?_ (List.Forall₂.cons ?_ (List.Forall₂.cons ?_ List.Forall₂.nil)) <;>
      refine ⟨?_, ?_, rfl, rfl⟩ <;>
      simp only [SkyMap.point, SkyMap.det, simMap, Real.sin_zero, Real.cos_zero] <;> norm_num
  · have : fwhmToSigma (2 * (1.2 * fwhmFac)) = 2.4 := by
      rw [show fwhmToSigma (2 * (1.2 * fwhmFac)) = 2 * fwhmToSigma (1.2 * fwhmFac) by unfold fwhmToSigma; ring, h2]; norm_num
    rw [this]
    unfold WidthOk gmixLowDetval
    norm_num

end

end Ngmix.Props
