import Verif.Spec.HigherMom
import Verif.Props.GaussTurn

/-!
# Measurements with and without moments of higher order (C123)
-/

namespace Ngmix.Props

open Ngmix Ngmix.Spec

noncomputable section

theorem take_six (f : ℕ → Fl) : ((List.range 17).map f).take 6 = (List.range 6).map f := by
  rw [← List.map_take, List.take_range]
  rfl

/-- C123.  What a measurement with moments of higher order has in common with one without. -/
theorem C123_higher (fwhm : ℝ) (hw : WidthOk (fwhmToSigma fwhm)) (pixels : List Pixel) (area : ℝ) (ha : 0 < area)
    (hpa : ∀ px ∈ pixels, px.area = area) :
    ∃ w, gaussMomWeight fwhm = .ok w ∧
      ((∀ higher, (gaussMomGo w higher (.obs pixels area)).2 = .error .zeroDiv) ∨
      ∃ m m', (gaussMomGo w false (.obs pixels area)).2 = .ok m ∧ (gaussMomGo w true (.obs pixels area)).2 = .ok m' ∧
        m'.npix = m.npix ∧
        (m'.res.flags = 0 ↔ m.res.flags = 0 ∧ ∀ i, 6 ≤ i → i < 17 → 0 < gMomentCov (fwhmToSigma fwhm) pixels i i) ∧
        (m'.res.flags = 0 → SameBasics m m') ∧
        (m.res.flags ≠ 0 → m'.res.flux = m.res.flux ∧ m'.res.sums.take 6 = m.res.sums) ∧
        (m.res.flags = 0 → m'.res.flags ≠ 0 → ∃ x : ℕ → ℝ, m.res.flux = .fin (x 5) ∧ m'.res.flux = .fin (area * x 5) ∧
          m.res.sums = (List.range 6).map (fun i => .fin (x i)) ∧
          m'.res.sums.take 6 = (List.range 6).map fun i => .fin (area * x i))) := by
  by_cases hzero : ∃ px ∈ within 0 0 ((100 * fwhmToSigma fwhm) ^ 2) pixels, px.ierr = 0
  · obtain ⟨w, g1, k1⟩ := C75_zero_weight fwhm hw false pixels area hzero
    obtain ⟨w2, g2, k2⟩ := C75_zero_weight fwhm hw true pixels area hzero
    obtain rfl : w = w2 := by rw [g1] at g2; exact Except.ok.inj g2
    exact ⟨w, g1, .inl fun b => by cases b; exacts [k1, k2]⟩
  · obtain ⟨w, _, m, g1, k1, R⟩ := C75_go fwhm hw false pixels area ha hpa fun px hp h0 => hzero ⟨px, hp, h0⟩
    obtain ⟨w2, _, m', g2, k2, R'⟩ := C75_go fwhm hw true pixels area ha hpa fun px hp h0 => hzero ⟨px, hp, h0⟩
    obtain rfl : w = w2 := by rw [g1] at g2; exact Except.ok.inj g2
    have n6 : nMom false = 6 := rfl
    have n17 : nMom true = 17 := rfl
    have hflags : m'.res.flags = 0 ↔ m.res.flags = 0 ∧ ∀ i, 6 ≤ i → i < 17 → 0 < gMomentCov (fwhmToSigma fwhm) pixels i i := by
      rw [R.flags, R'.flags, n6, n17]
      constructor
      · rintro ⟨h1, h2⟩
        exact ⟨⟨fun i hi => h1 i (by omega), h2⟩, fun i _ hi => h1 i hi⟩
      · rintro ⟨⟨h1, h2⟩, h3⟩
        refine ⟨fun i hi => ?_, h2⟩
        by_cases h6 : i < 6
        · exact h1 i h6
        · exact h3 i (by omega) hi
    have hbad : m'.res.flags ≠ 0 → m'.res.flux = .fin (area * gMoment (fwhmToSigma fwhm) pixels 5) ∧
        m'.res.sums.take 6 = (List.range 6).map fun i => .fin (area * gMoment (fwhmToSigma fwhm) pixels i) := by
      intro hf
      refine ⟨(R'.failed hf).1, ?_⟩
      rw [(R'.failed hf).2, n17, take_six]
    refine ⟨w, g1, .inr ⟨m, m', by rw [k1], by rw [k2], by rw [R.npix, R'.npix], hflags, fun hf' => ?_, fun hf => ?_,
      fun hf hf' => ?_⟩⟩
    · have hf := (hflags.1 hf').1
      refine ⟨?_, ?_, ?_, ?_, ?_, fun i hi j hj => ?_, ?_⟩
      · rw [(R.flux hf).1, (R.flux hf).2.1, (R.flux hf).2.2, (R'.flux hf').1, (R'.flux hf').2.1, (R'.flux hf').2.2]
        exact ⟨rfl, rfl, rfl⟩
      · rw [(R.size hf).1, (R.size hf).2, (R'.size hf').1, (R'.size hf').2]
        exact ⟨rfl, rfl⟩
      · rw [(R.shape hf).1, (R.shape hf).2.1, (R.shape hf).2.2, (R'.shape hf').1, (R'.shape hf').2.1, (R'.shape hf').2.2]
        exact ⟨rfl, rfl, rfl⟩
      · rw [R.pars hf, R'.pars hf']
      · rw [R.sums hf, R'.sums hf', R.errs hf, R'.errs hf', n6, n17, take_six, take_six]
        exact ⟨rfl, rfl⟩
      · rw [R.cov hf i (by rw [n6]; exact hi) j (by rw [n6]; exact hj), R'.cov hf' i (by rw [n17]; omega) j (by rw [n17]; omega)]
      · rw [(R.norm hf).1, (R.norm hf).2, (R'.norm hf').1, (R'.norm hf').2]
        exact ⟨rfl, rfl⟩
    · obtain ⟨b1, b2⟩ := hbad fun h => hf (hflags.1 h).1
      rw [b1, b2, (R.failed hf).1, (R.failed hf).2, n6]
      exact ⟨rfl, rfl⟩
    · obtain ⟨b1, b2⟩ := hbad hf'
      exact ⟨gMoment (fwhmToSigma fwhm) pixels, (R.flux hf).1, b1, by rw [R.sums hf, n6], b2⟩

/-! ### Concrete cases -/

/-- One pixel at an angle of thirty degrees, of area two. -/
def rayPix : Pixel := ⟨Real.sqrt 3, 1, 2, 1, 1⟩

theorem ray_offset : offset 0 0 rayPix = ⟨Real.sqrt 3, 1⟩ := by
  unfold offset rayPix
  simp

theorem ray_norm : ‖offset 0 0 rayPix‖ ^ 2 = 4 := by
  rw [ray_offset, ← Complex.normSq_eq_norm_sq, Complex.normSq_mk]
  have := Real.mul_self_sqrt (show (0 : ℝ) ≤ 3 by norm_num)
  linarith

theorem ray_within {s : ℝ} (hs : s = 1.2) : within 0 0 ((100 * s) ^ 2) [rayPix] = [rayPix] := by
  classical
  rw [within_cons, if_pos (by rw [ray_norm, hs]; norm_num)]
  rfl

theorem ray_moments : momentOf 0 0 rayPix 0 = 1 ∧ momentOf 0 0 rayPix 1 = Real.sqrt 3 ∧ momentOf 0 0 rayPix 2 = 2 ∧
    momentOf 0 0 rayPix 3 = 2 * Real.sqrt 3 ∧ momentOf 0 0 rayPix 4 = 4 ∧ momentOf 0 0 rayPix 5 = 1 ∧ momentOf 0 0 rayPix 8 = 0 := by
  have h3 := Real.mul_self_sqrt (show (0 : ℝ) ≤ 3 by norm_num)
  refine ⟨rfl, rfl, ?_, ?_, ray_norm, rfl, ?_⟩
  · simp only [momentOf, ray_offset, pow_two, Complex.mul_re]
    linarith
  · simp only [momentOf, ray_offset, pow_two, Complex.mul_im]
    ring
  · simp only [momentOf, ray_offset, pow_succ, pow_zero, one_mul, Complex.mul_re, Complex.mul_im]
    linear_combination Real.sqrt 3 * h3

/-- C123 (violation): asking for the moments of higher order flags a measurement that is good without them, and doubles its flux,
here because the real part of the cube of the offset of the only pixel is zero and so has no variance. -/
theorem C123_flagged_by_higher : ∃ fwhm w m m', gaussMomWeight fwhm = .ok w ∧ (gaussMomGo w false (.obs [rayPix] 2)).2 = .ok m ∧
    (gaussMomGo w true (.obs [rayPix] 2)).2 = .ok m' ∧ m.res.flags = 0 ∧ m'.res.flags ≠ 0 ∧
    ∃ f, 0 < f ∧ m.res.flux = .fin f ∧ m'.res.flux = .fin (2 * f) := by
  obtain ⟨h1, h2⟩ := width_one_two
  set fwhm := 1.2 * fwhmFac
  have hpa : ∀ px ∈ [rayPix], px.area = 2 := by simp [rayPix]
  have hwn := ray_within h2
  have hz : ∀ px ∈ within 0 0 ((100 * fwhmToSigma fwhm) ^ 2) [rayPix], px.ierr ≠ 0 := by
    rw [hwn]; simp [rayPix]
  obtain ⟨w, _, m, g1, k1, R⟩ := C75_go fwhm h1 false [rayPix] 2 (by norm_num) hpa hz
  obtain ⟨w2, _, m', g2, k2, R'⟩ := C75_go fwhm h1 true [rayPix] 2 (by norm_num) hpa hz
  obtain rfl : w = w2 := by rw [g1] at g2; exact Except.ok.inj g2
  have hr : 0 < roundWeight (fwhmToSigma fwhm) rayPix := Real.exp_pos _
  have hM : ∀ i, gMoment (fwhmToSigma fwhm) [rayPix] i = roundWeight (fwhmToSigma fwhm) rayPix * momentOf 0 0 rayPix i := by
    intro i
    unfold gMoment
    rw [hwn]
    simp [pixSum, rayPix]
  have hC : ∀ i, gMomentCov (fwhmToSigma fwhm) [rayPix] i i = (roundWeight (fwhmToSigma fwhm) rayPix * momentOf 0 0 rayPix i) ^ 2 := by
    intro i
    unfold gMomentCov
    rw [hwn]
    simp [pixSum, rayPix, pow_two]
  obtain ⟨m0, m1, m2, m3, m4, m5, m8⟩ := ray_moments
  have h3 : 0 < Real.sqrt 3 := Real.sqrt_pos.2 (by norm_num)
  have hf : m.res.flags = 0 := by
    rw [R.flags, hM, hM, hM, hM, m2, m3, m4, m5]
    refine ⟨fun i hi => ?_, by positivity, by positivity, by positivity, by positivity⟩
    rw [hC]
    have : i < 6 := hi
    interval_cases i
    · rw [m0]; positivity
    · rw [m1]; positivity
    · rw [m2]; positivity
    · rw [m3]; positivity
    · rw [m4]; positivity
    · rw [m5]; positivity
  have hf' : m'.res.flags ≠ 0 := by
    rw [ne_eq, R'.flags]
    rintro ⟨h, -⟩
    have := h 8 (by decide)
    rw [hC, m8] at this
    simp at this
  refine ⟨fwhm, w, m, m', g1, by rw [k1], by rw [k2], hf, hf', _, hr, ?_, ?_⟩
  · rw [(R.flux hf).1, hM, m5, mul_one]
  · rw [(R'.failed hf').1, hM, m5, mul_one]

/-- The slanted pixels of C99 meet the hypotheses. -/
example : WidthOk (fwhmToSigma (1.2 * fwhmFac)) ∧ ∀ px ∈ slantPix, px.area = 1 := by
  refine ⟨width_one_two.1, ?_⟩
  simp [slantPix]

end

end Ngmix.Props
