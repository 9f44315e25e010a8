import Verif.Props.PrePSFGo

/-! C60, C61, C71, C73 for whole measurements; the caches. -/

namespace Ngmix.Props

open Ngmix Ngmix.Spec

/-- A measurement that returns, step by step. -/
theorem pre_ok {cfg : PreCfg} {o : PreObs} {noPsf : Bool} {m : Option KMoments} {K : Kernels}
    (h : preMoments cfg (some o) noPsf = .ok (m, K)) :
    ∃ psf pim b a kpsf, checkObs (some o) noPsf = .ok (o, psf) ∧ o.image.nrow ≠ 0 ∧
      zeroPadImage (apodize cfg.apRad o.image) (targetDim cfg o psf) = .ok (pim, b, a) ∧
      psfFft psf (targetDim cfg o psf) pim.nrow = .ok kpsf ∧ preKernels cfg pim.nrow o.jac = .ok K ∧
      kpsf.nrow = kpsf.ncol ∧
      m = measureMoments pim.nrow (dft2 pim.nrow pim.get) kpsf.k (totVar o.weight) ((targetDim cfg o psf : ℝ) / o.image.nrow)
        K (o.jac.row0 + b - kpsf.row) (o.jac.col0 + b - kpsf.col) := by
  unfold preMoments at h
  obtain ⟨⟨o', psf⟩, h1, h'⟩ := exBind_ok h
  clear h
  have ho : o' = o := by
    unfold checkObs at h1
    simp only at h1
    split_ifs at h1 with hs
    cases noPsf with
    | true => simp only [Except.ok.injEq, Prod.mk.injEq] at h1; exact h1.1.symm
    | false =>
        cases hp : o.psf with
        | none => rw [hp] at h1; cases h1
        | some p =>
            rw [hp] at h1
            simp only at h1
            split_ifs at h1 with hw
            simp only [Except.ok.injEq, Prod.mk.injEq] at h1
            exact h1.1.symm
  subst ho
  simp only at h'
  split_ifs at h' with h0
  obtain ⟨kim, h2, h⟩ := exBind_ok h'
  obtain ⟨kpsf, h3, h⟩ := exBind_ok h
  obtain ⟨K', h4, h⟩ := exBind_ok h
  unfold padAndFft at h2
  obtain ⟨⟨pim, b, a⟩, h2', hk⟩ := exMap_ok h2
  subst hk
  simp only at h h3 h4
  split_ifs at h with h5
  simp only [Except.ok.injEq, Prod.mk.injEq] at h
  obtain ⟨hm, rfl⟩ := h
  exact ⟨psf, pim, b, a, kpsf, h1, h0, h2', h3, h4, not_not.1 h5, hm.symm⟩

theorem apodize_nrow (apRad : ℝ) (im : Image) : (apodize apRad im).nrow = im.nrow ∧ (apodize apRad im).ncol = im.ncol := by
  unfold apodize; split_ifs <;> exact ⟨rfl, rfl⟩

theorem pad_rows {im pim : Image} {t b a : ℤ} (h : zeroPadImage im t = .ok (pim, b, a)) :
    Padded im pim t b a ∧ (im.nrow : ℤ) ≤ t := by
  by_cases hle : (im.nrow : ℤ) ≤ t
  · obtain ⟨pim', b', a', h1, h2⟩ := (C59_pad im t).2 hle
    rw [h1] at h
    cases h
    exact ⟨h2, hle⟩
  · rw [(C59_pad im t).1 (not_le.1 hle)] at h; cases h

theorem check_psf {o : PreObs} {p psf} (hpsf : o.psf = some p) (h : checkObs (some o) false = .ok (o, psf)) : psf = some p := by
  unfold checkObs at h
  simp only [hpsf] at h
  split_ifs at h with h1 h2
  simp only [Except.ok.injEq, Prod.mk.injEq, true_and] at h
  exact h.symm

theorem check_noPsf {o : PreObs} {psf} (h : checkObs (some o) true = .ok (o, psf)) : psf = none := by
  unfold checkObs at h
  simp only at h
  split_ifs at h with h1
  simp only [Except.ok.injEq, Prod.mk.injEq, true_and] at h
  exact h.symm

/-- C71.  A whole measurement with a psf: if the padded, apodized image is the circular convolution of an object with the padded
psf image, and the psf is above the floor in the modes of the kernel, the four moments are the weighted sums of the object
itself about the difference of the two centres. -/
theorem C71_go (cfg : PreCfg) (o : PreObs) (psf : Image) (Jp : Jacobian) (hpsf : o.psf = some (psf, Jp))
    (m : Option KMoments) (K : Kernels) (h : preMoments cfg (some o) false = .ok (m, K))
    (pim ppsf : Image) (b a b' a' : ℤ)
    (hp : zeroPadImage (apodize cfg.apRad o.image) (targetDim cfg o o.psf) = .ok (pim, b, a))
    (hp' : zeroPadImage psf (targetDim cfg o o.psf) = .ok (ppsf, b', a'))
    (obj : ℕ → ℕ → ℝ) (hconv : CircConv pim.nrow obj ppsf.get pim.get)
    (ht : NotTruncated (modes pim.nrow K.msk) (dft2 pim.nrow ppsf.get)) :
    ∃ mm, m = some mm ∧
      ∀ dr dc, dr = (o.jac.row0 + b) - (Jp.row0 + b') → dc = (o.jac.col0 + b) - (Jp.col0 + b') →
      mm.mf = weightedSum pim.nrow obj (realWeight pim.nrow (modes pim.nrow K.msk) K.fkf) dr dc ∧
      mm.mr = weightedSum pim.nrow obj (realWeight pim.nrow (modes pim.nrow K.msk) K.fkr) dr dc ∧
      mm.mp = weightedSum pim.nrow obj (realWeight pim.nrow (modes pim.nrow K.msk) K.fkp) dr dc ∧
      mm.mc = weightedSum pim.nrow obj (realWeight pim.nrow (modes pim.nrow K.msk) K.fkc) dr dc := by
  obtain ⟨psf0, pim0, b0, a0, kpsf, h1, h0, h2, h3, h4, h5, hm⟩ := pre_ok h
  have := check_psf hpsf h1
  subst this
  rw [← hpsf, hp] at h2
  cases h2
  have hpad := pad_rows hp
  have hpad' := pad_rows hp'
  have hn : 0 < pim.nrow := by
    have e1 := hpad.1.nrow
    have e2 := hpad.2
    rw [(apodize_nrow cfg.apRad o.image).1] at e2
    omega
  have hnn : ppsf.nrow = pim.nrow := by
    have e1 := hpad.1.nrow
    have e2 := hpad'.1.nrow
    omega
  unfold psfFft at h3
  simp only [padAndFft] at h3
  rw [(C59_apodize 0 psf).1 le_rfl, ← hpsf, hp'] at h3
  simp only [Except.map, Except.ok.injEq] at h3
  subst h3
  simp only at hm
  rw [hnn] at hm
  obtain ⟨mm, hmm, hw⟩ := C71_measured pim.nrow hn obj ppsf.get pim.get hconv K ht (totVar o.weight)
    ((targetDim cfg o (some (psf, Jp)) : ℝ) / o.image.nrow) (o.jac.row0 + b - (Jp.row0 + b')) (o.jac.col0 + b - (Jp.col0 + b'))
  rw [hmm] at hm
  exact ⟨mm, hm, fun dr dc hr hc => by rw [hr, hc]; exact hw⟩

/-! ### Without a psf -/

theorem fftfreq_half (n j : ℕ) (hj : j < n) : |fftfreq n j| ≤ 1 / 2 := by
  have hn : (0 : ℝ) < n := by exact_mod_cast (by omega : 0 < n)
  unfold fftfreq
  split_ifs with h
  · rw [abs_of_nonneg (by positivity), div_le_iff₀ hn]
    have : 2 * j ≤ n := by omega
    have : (2 * j : ℝ) ≤ n := by exact_mod_cast this
    linarith
  · have h1 : n ≤ 2 * j := by omega
    have h1 : (n : ℝ) ≤ 2 * j := by exact_mod_cast h1
    have h2 : (j : ℝ) ≤ n := by exact_mod_cast hj.le
    rw [abs_div, abs_of_nonpos (by linarith), abs_of_pos hn, div_le_iff₀ hn]
    linarith

theorem sinc_low (x : ℝ) (h : |x| ≤ 1 / 2) : 2 / Real.pi ≤ npSinc x := by
  have hpi := Real.pi_pos
  have key : ∀ y : ℝ, 0 < y → y ≤ 1 / 2 → 2 / Real.pi ≤ Real.sin (Real.pi * y) / (Real.pi * y) := by
    intro y h0 h1
    have := Real.mul_le_sin (x := Real.pi * y) (by positivity) (by nlinarith)
    rw [le_div_iff₀ (by positivity)]
    exact this
  unfold npSinc
  split_ifs with h0
  · rw [div_le_one hpi]; exact Real.two_le_pi
  · rcases lt_or_gt_of_ne h0 with hneg | hpos
    · have := key (-x) (by linarith) (by rw [abs_of_neg hneg] at h; exact h)
      rwa [mul_neg, Real.sin_neg, neg_div_neg_eq] at this
    · exact key x hpos (by rw [abs_of_pos hpos] at h; exact h)

/-- The pixel is never near the floor. -/
theorem pixel_notTruncated (n : ℕ) (msk : ℕ → ℕ → Prop) :
    NotTruncated (modes n msk) (fun r c => (pixelFft n r c : ℂ)) := by
  intro k hk
  classical
  have hk' := (Finset.mem_filter.1 hk).1
  rw [Finset.mem_product, Finset.mem_range, Finset.mem_range] at hk'
  have h1 := sinc_low _ (fftfreq_half n k.1 hk'.1)
  have h2 := sinc_low _ (fftfreq_half n k.2 hk'.2)
  have h0 : pixelFft n 0 0 = 1 := by
    have : fftfreq n 0 = 0 := by
      unfold fftfreq
      rw [if_pos (by omega)]; simp
    unfold pixelFft npSinc
    rw [this]; simp
  have hpi : Real.pi < 4 := by linarith [Real.pi_lt_d2]
  have h3 : (1 : ℝ) / 2 ≤ 2 / Real.pi := by
    rw [div_le_div_iff₀ (by norm_num) Real.pi_pos]; linarith
  simp only [h0, Complex.norm_real, Real.norm_eq_abs, abs_one]
  unfold pixelFft
  rw [abs_of_nonneg (mul_nonneg (by linarith) (by linarith))]
  nlinarith

/-- C71.  A whole measurement without a psf always gives finite moments; they are the weighted sums, about the centre, of the
object whose transform is that of the image divided by that of a pixel.  A psf the observation has is ignored. -/
theorem C71_no_psf (cfg : PreCfg) (o : PreObs) (m : Option KMoments) (K : Kernels)
    (h : preMoments cfg (some o) true = .ok (m, K)) (pim : Image) (b a : ℤ)
    (hp : zeroPadImage (apodize cfg.apRad o.image) (targetDim cfg o none) = .ok (pim, b, a)) :
    ∃ mm, m = some mm ∧ ∀ obj : ℕ → ℕ → ℝ,
      (∀ k ∈ modes pim.nrow K.msk, dft2 pim.nrow pim.get k.1 k.2 =
        dft2 pim.nrow obj k.1 k.2 * (pixelFft pim.nrow k.1 k.2 : ℂ)) →
      mm.mf = weightedSum pim.nrow obj (realWeight pim.nrow (modes pim.nrow K.msk) K.fkf) (o.jac.row0 + b) (o.jac.col0 + b) ∧
      mm.mr = weightedSum pim.nrow obj (realWeight pim.nrow (modes pim.nrow K.msk) K.fkr) (o.jac.row0 + b) (o.jac.col0 + b) ∧
      mm.mp = weightedSum pim.nrow obj (realWeight pim.nrow (modes pim.nrow K.msk) K.fkp) (o.jac.row0 + b) (o.jac.col0 + b) ∧
      mm.mc = weightedSum pim.nrow obj (realWeight pim.nrow (modes pim.nrow K.msk) K.fkc) (o.jac.row0 + b) (o.jac.col0 + b) := by
  obtain ⟨psf0, pim0, b0, a0, kpsf, h1, h0, h2, h3, h4, h5, hm⟩ := pre_ok h
  have := check_noPsf h1
  subst this
  rw [hp] at h2
  cases h2
  have hpad := pad_rows hp
  have hn : 0 < pim.nrow := by
    have e1 := hpad.1.nrow
    have e2 := hpad.2
    rw [(apodize_nrow cfg.apRad o.image).1] at e2
    omega
  unfold psfFft at h3
  simp only [Except.ok.injEq] at h3
  subst h3
  simp only [show (0.0 : ℝ) = 0 by norm_num, sub_zero] at hm
  have ht := pixel_notTruncated pim.nrow K.msk
  obtain ⟨mm, hmm, -⟩ := measured_core pim.nrow hn (fun _ _ => 0) (dft2 pim.nrow pim.get) _ K ht (totVar o.weight)
    ((targetDim cfg o none : ℝ) / o.image.nrow) (o.jac.row0 + b) (o.jac.col0 + b)
  refine ⟨mm, hm.trans hmm, fun obj hobj => ?_⟩
  obtain ⟨mm', hmm', hw⟩ := measured_core pim.nrow hn obj (dft2 pim.nrow pim.get) _ K ht (totVar o.weight)
    ((targetDim cfg o none : ℝ) / o.image.nrow) (o.jac.row0 + b) (o.jac.col0 + b)
  rw [hmm] at hmm'
  cases hmm'
  exact hw hobj

/-- C60.  A whole measurement gives numbers that are not finite exactly when the pixels of the psf sum to zero. -/
theorem C60_zero_psf (cfg : PreCfg) (o : PreObs) (psf : Image) (Jp : Jacobian) (hpsf : o.psf = some (psf, Jp))
    (m : Option KMoments) (K : Kernels) (h : preMoments cfg (some o) false = .ok (m, K)) :
    m = none ↔ total psf = 0 := by
  obtain ⟨psf0, pim, b, a, kpsf, h1, h0, h2, h3, h4, h5, hm⟩ := pre_ok h
  have := check_psf hpsf h1
  subst this
  have hpad := pad_rows h2
  have hn : 0 < pim.nrow := by
    have e1 := hpad.1.nrow
    have e2 := hpad.2
    rw [(apodize_nrow cfg.apRad o.image).1] at e2
    omega
  unfold psfFft at h3
  simp only [padAndFft] at h3
  rw [(C59_apodize 0 psf).1 le_rfl] at h3
  obtain ⟨⟨ppsf, b', a'⟩, hp', hk⟩ := exMap_ok h3
  have hpad' := pad_rows hp'
  subst hk
  have hsq : ppsf.ncol = ppsf.nrow := h5.symm
  have h00 : dft2 ppsf.nrow ppsf.get 0 0 = ((total psf : ℝ) : ℂ) := by
    rw [dft2_zero, ← C59_pad_total _ _ _ _ _ hpad'.1]
    unfold total
    rw [hsq]
  rw [hm, C60_nonfinite]
  simp only
  rw [h00]
  constructor
  · rintro ⟨hz, -⟩; exact_mod_cast hz
  · intro hz
    refine ⟨by rw [hz]; norm_num, (0, 0), origin_mode cfg pim.nrow hn o.jac K h4, ?_⟩
    simp only
    rw [h00, hz]; norm_num

/-! ### Linearity -/

theorem dft2_linear (n : ℕ) (f g h : ℕ → ℕ → ℝ) (s t : ℝ) (hf : ∀ r c, h r c = s * f r c + t * g r c) (kr kc : ℕ) :
    dft2 n h kr kc = s * dft2 n f kr kc + t * dft2 n g kr kc := by
  unfold dft2
  rw [Finset.mul_sum, Finset.mul_sum, ← Finset.sum_add_distrib]
  refine Finset.sum_congr rfl fun x _ => ?_
  rw [hf]; push_cast; ring

theorem prep_linear (apRad : ℝ) (i1 i2 i3 : Image) (s t : ℝ) (h2 : i2.nrow = i1.nrow ∧ i2.ncol = i1.ncol)
    (h3 : i3.nrow = i1.nrow ∧ i3.ncol = i1.ncol) (hlin : ∀ r c, i3.get r c = s * i1.get r c + t * i2.get r c)
    (T : ℤ) (p1 p2 : Image) (b1 a1 b2 a2 : ℤ) (e1 : zeroPadImage (apodize apRad i1) T = .ok (p1, b1, a1))
    (e2 : zeroPadImage (apodize apRad i2) T = .ok (p2, b2, a2)) :
    ∃ p3, zeroPadImage (apodize apRad i3) T = .ok (p3, b1, a1) ∧ p2.nrow = p1.nrow ∧ p3.nrow = p1.nrow ∧ b2 = b1 ∧
      ∀ r c, p3.get r c = s * p1.get r c + t * p2.get r c := by
  have hap : ∀ r c, (apodize apRad i3).get r c = s * (apodize apRad i1).get r c + t * (apodize apRad i2).get r c := by
    intro r c
    by_cases ha : 0 < apRad
    · rw [((C59_apodize apRad i3).2 ha).2.2, ((C59_apodize apRad i1).2 ha).2.2, ((C59_apodize apRad i2).2 ha).2.2,
        h2.1, h2.2, h3.1, h3.2, hlin]
      ring
    · rw [(C59_apodize apRad i3).1 (not_lt.1 ha), (C59_apodize apRad i1).1 (not_lt.1 ha),
        (C59_apodize apRad i2).1 (not_lt.1 ha), hlin]
  have n1 := apodize_nrow apRad i1
  have n2 := apodize_nrow apRad i2
  have n3 := apodize_nrow apRad i3
  rw [h2.1, h2.2] at n2
  rw [h3.1, h3.2] at n3
  generalize apodize apRad i1 = j1 at *
  generalize apodize apRad i2 = j2 at *
  generalize apodize apRad i3 = j3 at *
  obtain ⟨r1, c1, g1⟩ := j1
  obtain ⟨r2, c2, g2⟩ := j2
  obtain ⟨r3, c3, g3⟩ := j3
  simp only at n1 n2 n3 hap
  obtain ⟨rfl, rfl⟩ := n1
  obtain ⟨rfl, rfl⟩ := n2
  obtain ⟨rfl, rfl⟩ := n3
  unfold zeroPadImage at *
  simp only at *
  split_ifs at e1 e2 ⊢ with hb hc
  all_goals
    cases e1; cases e2
    refine ⟨_, rfl, rfl, rfl, rfl, ?_⟩
    intro r c
    simp only
    split_ifs
    · exact hap _ _
    · ring

/-- C61.  The moments are linear in the image: measuring a combination of two images of one shape, with one jacobian and one
psf, gives the combination of their moments; with one weight map all three covariances are the same. -/
theorem C61_linear (cfg : PreCfg) (o1 o2 o3 : PreObs) (s t : ℝ) (noPsf : Bool)
    (hshape2 : o2.image.nrow = o1.image.nrow ∧ o2.image.ncol = o1.image.ncol)
    (hshape3 : o3.image.nrow = o1.image.nrow ∧ o3.image.ncol = o1.image.ncol)
    (hlin : ∀ r c, o3.image.get r c = s * o1.image.get r c + t * o2.image.get r c)
    (hjac : o2.jac = o1.jac ∧ o3.jac = o1.jac) (hpsf : o2.psf = o1.psf ∧ o3.psf = o1.psf)
    (m1 m2 : KMoments) (K1 K2 : Kernels) (h1 : preMoments cfg (some o1) noPsf = .ok (some m1, K1))
    (h2 : preMoments cfg (some o2) noPsf = .ok (some m2, K2)) :
    ∃ m3, preMoments cfg (some o3) noPsf = .ok (some m3, K1) ∧
      m3.mf = s * m1.mf + t * m2.mf ∧ m3.mr = s * m1.mr + t * m2.mr ∧
      m3.mp = s * m1.mp + t * m2.mp ∧ m3.mc = s * m1.mc + t * m2.mc ∧
      (o3.weight = o1.weight → m3.cov = m1.cov) := by
  obtain ⟨psf1, p1, b1, a1, kp1, c1, z1, e1, f1, g1, q1, r1⟩ := pre_ok h1
  obtain ⟨psf2, p2, b2, a2, kp2, c2, z2, e2, f2, g2, q2, r2⟩ := pre_ok h2
  have hc : ∀ o : PreObs, o.image.nrow = o1.image.nrow → o.image.ncol = o1.image.ncol → o.jac = o1.jac → o.psf = o1.psf →
      checkObs (some o) noPsf = .ok (o, psf1) := by
    intro o k1 k2 k3 k4
    unfold checkObs at c1 ⊢
    simp only at c1 ⊢
    rw [k1, k2]
    split_ifs at c1 ⊢ with hs
    rw [k4]
    cases noPsf with
    | true => simp only [Except.ok.injEq, Prod.mk.injEq, true_and] at c1 ⊢; exact c1
    | false =>
        cases hp : o1.psf with
        | none => rw [hp] at c1; cases c1
        | some p =>
            rw [hp] at c1
            simp only at c1 ⊢
            rw [k3]
            split_ifs at c1 ⊢ with hw
            simp only [Except.ok.injEq, Prod.mk.injEq, true_and] at c1 ⊢
            exact c1
  have c2' := hc o2 hshape2.1 hshape2.2 hjac.1 hpsf.1
  rw [c2'] at c2
  have hp12 : psf2 = psf1 := by simp only [Except.ok.injEq, Prod.mk.injEq, true_and] at c2; exact c2.symm
  subst hp12
  have T2 : targetDim cfg o2 psf2 = targetDim cfg o1 psf2 := by unfold targetDim; rw [hshape2.1]
  have T3 : targetDim cfg o3 psf2 = targetDim cfg o1 psf2 := by unfold targetDim; rw [hshape3.1]
  rw [T2] at e2 f2 r2
  obtain ⟨p3, e3, n2, n3, hb, hget⟩ := prep_linear cfg.apRad o1.image o2.image o3.image s t hshape2 hshape3 hlin _ p1 p2 b1 a1
    b2 a2 e1 e2
  rw [n2] at f2 g2 r2
  rw [f1] at f2
  cases f2
  rw [hjac.1] at g2 r2
  rw [g1] at g2
  cases g2
  rw [hb] at r2
  have m3s : ∃ m3, measureMoments p1.nrow (dft2 p1.nrow p3.get) kp1.k (totVar o3.weight)
      ((targetDim cfg o1 psf2 : ℝ) / o1.image.nrow) K1 (o1.jac.row0 + b1 - kp1.row) (o1.jac.col0 + b1 - kp1.col) = some m3 := by
    cases hmm : measureMoments p1.nrow (dft2 p1.nrow p3.get) kp1.k (totVar o3.weight)
      ((targetDim cfg o1 psf2 : ℝ) / o1.image.nrow) K1 (o1.jac.row0 + b1 - kp1.row) (o1.jac.col0 + b1 - kp1.col) with
    | some m => exact ⟨m, rfl⟩
    | none =>
        rw [C60_nonfinite] at hmm
        have := (C60_nonfinite p1.nrow (dft2 p1.nrow p1.get) kp1.k (totVar o1.weight)
          ((targetDim cfg o1 psf2 : ℝ) / o1.image.nrow) K1 (o1.jac.row0 + b1 - kp1.row) (o1.jac.col0 + b1 - kp1.col)).2 hmm
        rw [this] at r1; cases r1
  obtain ⟨m3, hm3⟩ := m3s
  have q1' := measure_some r1.symm
  have q2' := measure_some r2.symm
  have q3' := measure_some hm3
  refine ⟨m3, ?_, ?_⟩
  · unfold preMoments
    rw [hc o3 hshape3.1 hshape3.2 hjac.2 hpsf.2]
    simp only [Except.bind]
    rw [if_neg (by rw [hshape3.1]; exact z1), T3]
    unfold padAndFft
    rw [e3]
    simp only [Except.map]
    rw [n3, f1, hjac.2]
    simp only
    rw [g1]
    simp only
    rw [if_neg (not_not.2 q1), hshape3.1, hm3]
  · have hat : ∀ i, m3.at i = s * m1.at i + t * m2.at i := by
      intro i
      rw [q3'.2.1 i, q1'.2.1 i, q2'.2.1 i, ← mul_assoc s, ← mul_assoc t, ← add_mul, Finset.mul_sum, Finset.mul_sum,
        ← Finset.sum_add_distrib]
      congr 1
      refine Finset.sum_congr rfl fun k _ => ?_
      rw [dft2_linear p1.nrow p1.get p2.get p3.get s t hget, ← Complex.re_ofReal_mul, ← Complex.re_ofReal_mul,
        ← Complex.add_re]
      congr 1
      ring
    refine ⟨hat 5, hat 4, hat 2, hat 3, fun hw => ?_⟩
    funext i j
    rw [q3'.2.2 i j, q1'.2.2 i j, hw]

/-! ### Errors -/

/-- C73.  The kernel names accepted. -/
theorem C73_kernel_names (fwhm : ℝ) (kernel : String) (pf ap fs : ℝ) :
    (kernel = "ksigma" → newPreCfg fwhm kernel pf ap fs = .ok ⟨fwhm, true, pf, ap, fs⟩) ∧
    (kernel = "gauss" ∨ kernel = "pgauss" → newPreCfg fwhm kernel pf ap fs = .ok ⟨fwhm, false, pf, ap, fs⟩) ∧
    (kernel ≠ "ksigma" → kernel ≠ "gauss" → kernel ≠ "pgauss" → newPreCfg fwhm kernel pf ap fs = .error .value) := by
  unfold newPreCfg
  refine ⟨fun h => if_pos h, ?_, fun h1 h2 h3 => ?_⟩
  · rintro (rfl | rfl)
    · rw [if_neg (by decide), if_pos (Or.inl rfl)]
    · rw [if_neg (by decide), if_pos (Or.inr rfl)]
  · rw [if_neg h1, if_neg (by rintro (h | h); exacts [h2 h, h3 h])]

/-- C73.  What is refused before any measurement: things that are not observations, images that are not square, observations
without a psf (unless asked for none), psfs with another jacobian. -/
theorem C73_refused (cfg : PreCfg) :
    (∀ noPsf, preMoments cfg none noPsf = .error .value) ∧
    (∀ o noPsf, o.image.nrow ≠ o.image.ncol → preMoments cfg (some o) noPsf = .error .value) ∧
    (∀ o, o.image.nrow = o.image.ncol → o.psf = none → preMoments cfg (some o) false = .error .runtime) ∧
    (∀ o psf J, o.image.nrow = o.image.ncol → o.psf = some (psf, J) → ¬ sameWcs J o.jac →
      preMoments cfg (some o) false = .error .runtime) := by
  refine ⟨fun _ => rfl, fun o noPsf h => ?_, fun o h hp => ?_, fun o psf J h hp hw => ?_⟩
  · unfold preMoments checkObs
    simp only
    rw [if_pos h]; rfl
  · unfold preMoments checkObs
    simp only
    rw [if_neg (not_not.2 h), hp]; rfl
  · unfold preMoments checkObs
    simp only
    rw [if_neg (not_not.2 h), hp]
    simp only
    rw [if_pos hw]; rfl

/-- C73.  A padding factor below one is refused with ValueError. -/
theorem C73_padding (cfg : PreCfg) (o : PreObs) (noPsf : Bool) (psf : Option (Image × Jacobian))
    (hc : checkObs (some o) noPsf = .ok (o, psf)) (h0 : o.image.nrow ≠ 0) (h : targetDim cfg o psf < o.image.nrow) :
    preMoments cfg (some o) noPsf = .error .value := by
  unfold preMoments
  rw [hc]
  simp only [Except.bind]
  rw [if_neg h0]
  unfold padAndFft
  rw [(C59_pad _ _).1 (by rw [(apodize_nrow _ _).1]; exact h)]
  rfl

/-- C73.  With a padding factor of at least one, neither image fails to fit. -/
theorem C73_fits (cfg : PreCfg) (o : PreObs) (psf : Option (Image × Jacobian)) (hp : 1 ≤ cfg.padFactor) :
    (o.image.nrow : ℤ) ≤ targetDim cfg o psf ∧ ∀ p, psf = some p → (p.1.nrow : ℤ) ≤ targetDim cfg o psf := by
  have key : ∀ a b : ℕ, a ≤ b → (a : ℤ) ≤ pyInt (b * cfg.padFactor) := by
    intro a b hab
    have h1 : (a : ℝ) ≤ b := by exact_mod_cast hab
    have h2 : (0 : ℝ) ≤ b := by positivity
    have h3 : (a : ℝ) ≤ b * cfg.padFactor := by nlinarith
    unfold pyInt
    rw [if_neg (by have : (0 : ℝ) ≤ a := by positivity
                   linarith)]
    exact Int.le_floor.2 (by exact_mod_cast h3)
  unfold targetDim
  cases psf with
  | none => exact ⟨key _ _ le_rfl, fun p hp => (by cases hp)⟩
  | some p =>
      simp only
      split_ifs with hgt
      · exact ⟨key _ _ le_rfl, fun q hq => by cases hq; exact key _ _ (by omega)⟩
      · exact ⟨key _ _ (by omega), fun q hq => by cases hq; exact key _ _ le_rfl⟩

/-! ### Caches -/

/-- What a history of requests and switches answers without a cache. -/
def uncached {K V : Type} (f : K → Except PyErr V) : CacheOp K → Option (Except PyErr V)
  | .request k => some (f k)
  | _ => none

open Classical in
theorem cache_step_ok {K V : Type} (f : K → Except PyErr V) (c : Cache K V) (hc : ∀ e ∈ c.entries, f e.1 = .ok e.2)
    (op : CacheOp K) : (cacheStep f c op).2 = uncached f op ∧ ∀ e ∈ (cacheStep f c op).1.entries, f e.1 = .ok e.2 := by
  cases op with
  | turnOn => exact ⟨rfl, hc⟩
  | turnOff => exact ⟨rfl, fun e he => (by cases he)⟩
  | request k =>
      unfold cacheStep uncached
      simp only
      cases hon : c.on with
      | false => exact ⟨by simp, by simpa using hc⟩
      | true =>
          simp only [if_true]
          cases hfind : c.entries.find? (fun e => decide (e.1 = k)) with
          | some e =>
              have h1 := List.mem_of_find?_eq_some hfind
              have h2 := List.find?_some hfind
              have h2 : e.1 = k := by simpa using h2
              refine ⟨by rw [← h2, hc e h1], fun x hx => ?_⟩
              rcases List.mem_cons.1 hx with rfl | hx
              · exact hc x h1
              · exact hc x (List.mem_of_mem_filter hx)
          | none =>
              cases hf : f k with
              | error e => exact ⟨rfl, hc⟩
              | ok v =>
                  refine ⟨rfl, fun x hx => ?_⟩
                  rcases List.mem_cons.1 (List.mem_of_mem_take hx) with rfl | hx
                  · exact hf
                  · exact hc x hx

/-- C73.  The caches cannot be observed: whatever the history of switching on and off and of requests, every request is
answered as the function itself would. -/
theorem C73_caches {K V : Type} (f : K → Except PyErr V) (on : Bool) (ops : List (CacheOp K)) :
    cacheRun f ⟨on, []⟩ ops = ops.map (uncached f) := by
  have : ∀ (c : Cache K V), (∀ e ∈ c.entries, f e.1 = .ok e.2) → cacheRun f c ops = ops.map (uncached f) := by
    induction ops with
    | nil => intro c _; rfl
    | cons op ops ih =>
        intro c hc
        have h := cache_step_ok f c hc op
        unfold cacheRun
        rw [h.1, ih _ h.2, List.map_cons]
  exact this _ fun e he => (by cases he)

/-! ### A case -/

namespace PreExample

noncomputable section

/-- A unit jacobian about a centre. -/
def J (r c : ℝ) : Jacobian := ⟨r, c, 1, 0, 0, 1, 1, 1⟩

/-- `t` is the square of the lowest nonzero frequency over that of the cutoff. -/
def t : ℝ := 0.25333

def κ : ℝ := Real.pi ^ 2 / 4 / t

def size : ℝ := Real.sqrt (8 / κ) * fwhmFac

theorem κ_pos : 0 < κ := by unfold κ t; have := Real.pi_pos; positivity

theorem fwhmFac_ne : fwhmFac ≠ 0 := by
  unfold fwhmFac
  have : 0 < Real.log 2 := Real.log_pos (by norm_num)
  positivity

theorem sigma_sq : fwhmToSigma size ^ 2 = 8 / κ := by
  unfold fwhmToSigma size
  have := fwhmFac_ne
  rw [mul_div_assoc, div_self this, mul_one, Real.sq_sqrt (by have := κ_pos; positivity)]

theorem sigma_ne : fwhmToSigma size ≠ 0 := by
  intro h
  have := sigma_sq
  rw [h] at this
  have hk := κ_pos
  have : (0 : ℝ) < 8 / κ := by positivity
  simp_all

/-- The squares of the frequencies. -/
def kk : ℕ → ℝ
  | 0 => 0
  | 1 => 1
  | 2 => 4
  | _ => 1

theorem freq_sq (a b : ℝ) (r c : ℕ) (hr : r < 4) (hc : c < 4) :
    freqU (J a b) 4 r c ^ 2 + freqV (J a b) 4 r c ^ 2 = Real.pi ^ 2 / 4 * (kk r + kk c) := by
  have hf : ∀ j < 4, fftfreq 4 j ^ 2 = kk j / 16 := by
    intro j hj
    unfold fftfreq
    interval_cases j <;> norm_num [kk]
  have e : freqU (J a b) 4 r c ^ 2 + freqV (J a b) 4 r c ^ 2 = 4 * Real.pi ^ 2 * (fftfreq 4 r ^ 2 + fftfreq 4 c ^ 2) := by
    unfold freqU freqV J
    simp only
    norm_num
    ring
  rw [e, hf r hr, hf c hc]
  ring

theorem term_eq (a b : ℝ) : ∀ r < 4, ∀ c < 4, (freqU (J a b) 4 r c ^ 2 + freqV (J a b) 4 r c ^ 2) / κ = t * (kk r + kk c) := by
  intro r hr c hc
  rw [freq_sq a b r c hr hc]
  unfold κ
  have : t ≠ 0 := by unfold t; norm_num
  field_simp

theorem modes_eq (a b : ℝ) : modes 4 (ksigmaModes (J a b) 4 size) = ({0, 1, 3} : Finset ℕ) ×ˢ ({0, 1, 3} : Finset ℕ) := by
  have hκ := κ_pos
  have hterm := term_eq a b
  ext ⟨r, c⟩
  unfold modes
  classical
  rw [Finset.mem_filter, Finset.mem_product, Finset.mem_product]
  simp only [Finset.mem_range, Finset.mem_insert, Finset.mem_singleton]
  constructor
  · rintro ⟨⟨hr, hc⟩, hk⟩
    unfold ksigmaModes at hk
    rw [sigma_sq, show (8 / (8 / κ) : ℝ) = κ by field_simp, ← div_lt_one hκ, hterm r hr c hc] at hk
    unfold t at hk
    have h1 : r ≠ 2 := by
      rintro rfl
      have : 0 ≤ kk c := by interval_cases c <;> norm_num [kk]
      rw [show kk 2 = 4 from rfl] at hk
      norm_num at hk
      linarith
    have h2 : c ≠ 2 := by
      rintro rfl
      have : 0 ≤ kk r := by interval_cases r <;> norm_num [kk]
      rw [show kk 2 = 4 from rfl] at hk
      norm_num at hk
      linarith
    omega
  · rintro ⟨hr, hc⟩
    have hr4 : r < 4 := by omega
    have hc4 : c < 4 := by omega
    refine ⟨⟨hr4, hc4⟩, ?_⟩
    unfold ksigmaModes
    rw [sigma_sq, show (8 / (8 / κ) : ℝ) = κ by field_simp, ← div_lt_one hκ, hterm r hr4 c hc4]
    unfold t
    rcases hr with rfl | rfl | rfl <;> rcases hc with rfl | rfl | rfl <;> norm_num [kk]

theorem kernel_ok (a b : ℝ) : ∃ K, ksigmaKernels 4 size (J a b) 0 = .ok K := by
  have hdet : (J a b).dvdrow * (J a b).dudcol - (J a b).dvdcol * (J a b).dudrow = 1 := by unfold J; norm_num
  have h := (C72_ksigma_errors 4 size (J a b) 0).2.2 (by rw [hdet]; norm_num) sigma_ne
  simp only at h
  refine Exists.imp (fun K hK => hK.1) (h.1 ?_)
  clear h
  have hκ := κ_pos
  have hpi := Real.pi_pos
  rw [hdet, sigma_sq, realWeight_zero, show (8 / (8 / κ) : ℝ) = κ by field_simp]
  have hsum : ∑ k ∈ modes 4 (ksigmaModes (J a b) 4 size), ksigmaProfile (|1 / 1| * (8 / κ * 10 * Real.pi / 4)) κ
      (freqU (J a b) 4 k.1 k.2) (freqV (J a b) 4 k.1 k.2) =
      20 * Real.pi / κ * (1 + 4 * (1 - t) ^ 4 + 4 * (1 - 2 * t) ^ 4) := by
    have hterm := term_eq a b
    have hm := modes_eq a b
    rw [hm, Finset.sum_product]
    unfold ksigmaProfile
    have hs : ∀ f : ℕ → ℝ, ∑ x ∈ ({0, 1, 3} : Finset ℕ), f x = f 0 + f 1 + f 3 := by
      intro f
      rw [Finset.sum_insert (by decide), Finset.sum_insert (by decide), Finset.sum_singleton]; ring
    simp only [hs]
    simp only [hterm 0 (by norm_num) 0 (by norm_num), hterm 0 (by norm_num) 1 (by norm_num),
      hterm 0 (by norm_num) 3 (by norm_num), hterm 1 (by norm_num) 0 (by norm_num), hterm 1 (by norm_num) 1 (by norm_num),
      hterm 1 (by norm_num) 3 (by norm_num), hterm 3 (by norm_num) 0 (by norm_num), hterm 3 (by norm_num) 1 (by norm_num),
      hterm 3 (by norm_num) 3 (by norm_num)]
    norm_num [kk]
    ring
  rw [hsum]
  have e : 20 * Real.pi / κ * (1 + 4 * (1 - t) ^ 4 + 4 * (1 - 2 * t) ^ 4) / (4 : ℕ) / (4 : ℕ) =
      (5 * t * (1 + 4 * (1 - t) ^ 4 + 4 * (1 - 2 * t) ^ 4)) / Real.pi := by
    unfold κ
    have : t ≠ 0 := by unfold t; norm_num
    push_cast
    field_simp
    ring
  rw [e]
  have hp1 := Real.pi_gt_d6
  have hp2 := Real.pi_lt_d6
  rw [abs_le]
  unfold t
  constructor
  · rw [neg_le_sub_iff_le_add, ← sub_le_iff_le_add, le_div_iff₀ hpi]
    norm_num
    linarith
  · rw [sub_le_iff_le_add, div_le_iff₀ hpi]
    norm_num
    linarith

/-- Any image, seen through a psf of a single pixel. -/
def obs (im : Image) : PreObs := ⟨im, ⟨4, 4, fun _ _ => 1⟩, J 1.5 1.5, some (⟨4, 4, deltaImage⟩, J 0 0)⟩

def cfg : PreCfg := ⟨size, true, 1, 0, 0⟩

/-- The hypotheses of `C71_go`, `C61_linear` and `C60_zero_psf` are met by every four by four image. -/
theorem measured (get : ℕ → ℕ → ℝ) : ∃ mm K, preMoments cfg (some (obs ⟨4, 4, get⟩)) false = .ok (some mm, K) ∧
    mm.mf = weightedSum 4 get (realWeight 4 (modes 4 K.msk) K.fkf) 1.5 1.5 := by
  obtain ⟨K, hK⟩ := kernel_ok 1.5 1.5
  have htd : targetDim cfg (obs ⟨4, 4, get⟩) (obs ⟨4, 4, get⟩).psf = 4 := by
    unfold targetDim obs cfg
    simp only
    norm_num [pyInt]
  have hz : ∀ g : ℕ → ℕ → ℝ, ∃ p, zeroPadImage ⟨4, 4, g⟩ 4 = .ok (p, 0, 0) ∧ p.nrow = 4 ∧ p.ncol = 4 ∧
      ∀ r < 4, ∀ c < 4, p.get r c = g r c := by
    intro g
    refine ⟨_, by unfold zeroPadImage; simp only; norm_num; rfl, rfl, rfl, ?_⟩
    intro r hr c hc
    norm_num
    intro h
    omega
  obtain ⟨pim, hp, n1, n1', g1⟩ := hz get
  obtain ⟨ppsf, hp', n2, n2', g2⟩ := hz deltaImage
  have hap : ∀ i : Image, apodize cfg.apRad i = i := fun i => (C59_apodize _ i).1 le_rfl
  have hdelta : ∀ kr kc, dft2 4 ppsf.get kr kc = 1 := by
    intro kr kc
    rw [dft2_om]
    rw [Finset.sum_eq_single 0 _ (by simp), Finset.sum_eq_single 0 _ (by simp)]
    · rw [g2 0 (by norm_num) 0 (by norm_num)]; simp [deltaImage]
    · intro b hb hb0
      rw [g2 0 (by norm_num) b (Finset.mem_range.1 hb)]; simp [deltaImage, hb0]
    · intro a ha ha0
      refine Finset.sum_eq_zero fun b hb => ?_
      rw [g2 a (Finset.mem_range.1 ha) b (Finset.mem_range.1 hb)]; simp [deltaImage, ha0]
  have hrun : ∃ m, preMoments cfg (some (obs ⟨4, 4, get⟩)) false = .ok (m, K) := by
    unfold preMoments
    have hc : checkObs (some (obs ⟨4, 4, get⟩)) false = .ok (obs ⟨4, 4, get⟩, (obs ⟨4, 4, get⟩).psf) := by
      unfold checkObs obs
      simp only
      rw [if_neg (by simp), if_neg]
      rw [not_not]
      exact ⟨rfl, rfl, rfl, rfl⟩
    rw [hc]
    simp only [Except.bind]
    rw [if_neg (by unfold obs; norm_num), htd]
    unfold padAndFft
    rw [hap]
    rw [show (obs ⟨4, 4, get⟩).image = ⟨4, 4, get⟩ from rfl, hp]
    simp only [Except.map]
    unfold psfFft
    rw [show (obs ⟨4, 4, get⟩).psf = some (⟨4, 4, deltaImage⟩, J 0 0) from rfl]
    simp only [padAndFft]
    rw [(C59_apodize 0 ⟨4, 4, deltaImage⟩).1 le_rfl, hp']
    simp only [Except.map]
    rw [show preKernels cfg pim.nrow (obs ⟨4, 4, get⟩).jac = .ok K by rw [n1]; exact hK]
    simp only
    rw [if_neg (by rw [n2, n2']; simp)]
    exact ⟨_, rfl⟩
  obtain ⟨m, hm⟩ := hrun
  obtain ⟨mm, hmm, hw⟩ := C71_go cfg (obs ⟨4, 4, get⟩) ⟨4, 4, deltaImage⟩ (J 0 0) rfl m K hm pim ppsf 0 0 0 0
    (by rw [htd, hap]; exact hp) (by rw [htd]; exact hp') get (by
      rw [n1]
      intro r hr c hc
      rw [g1 r hr c hc, Finset.sum_eq_single (r, c)]
      · rw [show (r + 4 - r) % 4 = 0 by omega, show (c + 4 - c) % 4 = 0 by omega, g2 0 (by norm_num) 0 (by norm_num)]
        simp [deltaImage]
      · rintro ⟨x, y⟩ hxy hne
        rw [Finset.mem_product, Finset.mem_range, Finset.mem_range] at hxy
        simp only at hxy ⊢
        rw [g2 _ (by omega) _ (by omega)]
        unfold deltaImage
        rw [if_neg, mul_zero]
        rintro ⟨e1, e2⟩
        exact hne (by rw [Prod.mk.injEq]; omega)
      · intro h
        exact absurd (by rw [Finset.mem_product, Finset.mem_range, Finset.mem_range]; exact ⟨hr, hc⟩) h)
    (by
      rw [n1]
      intro k _
      rw [hdelta, hdelta]
      norm_num)
  rw [n1] at hw
  refine ⟨mm, K, by rw [hm, hmm], (hw 1.5 1.5 ?_ ?_).1⟩
  · unfold obs J; norm_num
  · unfold obs J; norm_num

end

end PreExample

end Ngmix.Props
