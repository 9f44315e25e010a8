import Verif.Proof.Shape

/-!
# Properties C01-C04: shapes, shears and rotations
-/

namespace Ngmix.Props

open Ngmix Ngmix.Spec

/-! ## C01 reduced shear is the disk automorphism -/

/-- C01: `shear_reduced` is `(g+s)/(1+conj(s) g)`, and that denominator does not vanish. -/
theorem C01_shear_is_disk_automorphism (g1 g2 s1 s2 : ℝ)
    (hg : InDisk g1 g2) (hs : InDisk s1 s2) :
    1 + (starRingEnd ℂ) (toC (s1, s2)) * toC (g1, g2) ≠ 0 ∧
    toC (shearReduced g1 g2 s1 s2) = mobius (toC (g1, g2)) (toC (s1, s2)) :=
  ⟨mobius_den_ne ((inDisk_iff_norm (g1, g2)).1 hg) ((inDisk_iff_norm (s1, s2)).1 hs),
    shearReduced_eq_mobius g1 g2 s1 s2⟩

/-- C01: the sheared shape stays strictly inside the unit disk. -/
theorem C01_shear_stays_in_disk (g1 g2 s1 s2 : ℝ)
    (hg : InDisk g1 g2) (hs : InDisk s1 s2) :
    InDisk (shearReduced g1 g2 s1 s2).1 (shearReduced g1 g2 s1 s2).2 :=
  shear_inDisk hg hs

/-- C01: `Shape.get_sheared` (either calling convention) never raises on shapes and
shears inside the disk; the new object holds the disk-automorphism image. -/
theorem C01_get_sheared_never_raises (s : ShapeObj) (s1 s2 x : ℝ)
    (hg : InDisk s.g1 s.g2) (hs : InDisk s1 s2) :
    ∃ r : ShapeObj,
      s.getSheared (.scalars s1 (some s2)) = .ok r ∧
      s.getSheared (.shape ⟨s1, s2, x⟩) = .ok r ∧
      toC (r.g1, r.g2) = mobius (toC (s.g1, s.g2)) (toC (s1, s2)) ∧
      InDisk r.g1 r.g2 ∧ r.g = Real.sqrt (r.g1 ^ 2 + r.g2 ^ 2) := by
  refine ⟨_, sheared_ok hg hs, sheared_ok hg hs, ?_, ?_, ?_⟩
  · exact shearReduced_eq_mobius s.g1 s.g2 s1 s2
  · exact shear_inDisk hg hs
  · simp only [sq]

/-- C01: for any numbers at all, `Shape.get_sheared` raises ZeroDivisionError exactly where the addition formula has no value,
otherwise a range error exactly when the image is not inside the disk, otherwise returns the image. -/
theorem C01_get_sheared_total (s : ShapeObj) (s1 s2 : ℝ) :
    (1 + (starRingEnd ℂ) (toC (s1, s2)) * toC (s.g1, s.g2) = 0 → s.getSheared (.scalars s1 (some s2)) = .error .zeroDiv) ∧
    (1 + (starRingEnd ℂ) (toC (s1, s2)) * toC (s.g1, s.g2) ≠ 0 →
      (1 ≤ ‖mobius (toC (s.g1, s.g2)) (toC (s1, s2))‖ → s.getSheared (.scalars s1 (some s2)) = .error .gmixRange) ∧
      (‖mobius (toC (s.g1, s.g2)) (toC (s1, s2))‖ < 1 → ∃ r, s.getSheared (.scalars s1 (some s2)) = .ok r ∧
        toC (r.g1, r.g2) = mobius (toC (s.g1, s.g2)) (toC (s1, s2)) ∧ r.g = Real.sqrt (r.g1 ^ 2 + r.g2 ^ 2))) := by
  refine ⟨fun h => ?_, fun h => ⟨fun hm => ?_, fun hm => ?_⟩⟩
  · replace h := (shear_den_iff _ _ _ _).2 h
    simp only [ShapeObj.getSheared, shearReducedE, if_pos h, Except.bind]
  · replace h := mt (shear_den_iff _ _ _ _).1 h
    rw [← shearReduced_eq_mobius] at hm
    simp only [ShapeObj.getSheared, shearReducedE, if_neg h, Except.bind]
    exact new_err (fun hd => absurd ((inDisk_iff_norm _).1 hd) (not_lt.2 hm))
  · replace h := mt (shear_den_iff _ _ _ _).1 h
    rw [← shearReduced_eq_mobius] at hm
    simp only [ShapeObj.getSheared, shearReducedE, if_neg h, Except.bind]
    exact ⟨_, new_ok ((inDisk_iff_norm _).2 hm), shearReduced_eq_mobius _ _ _ _, by simp only [sq]⟩

/-- C01: a shape inside the disk can be sheared exactly by the shears inside the disk. -/
theorem C01_get_sheared_iff (s : ShapeObj) (s1 s2 : ℝ) (hg : InDisk s.g1 s.g2) :
    (∃ r, s.getSheared (.scalars s1 (some s2)) = .ok r) ↔ InDisk s1 s2 := by
  constructor
  · rintro ⟨r, hr⟩
    simp only [ShapeObj.getSheared, shearReducedE] at hr
    split_ifs at hr with hz
    · cases hr
    · obtain ⟨hd, -⟩ := (new_ok_iff _ _ _).1 hr
      have hid := shear_norm_identity' hz
      have hpos : 0 < (1 + s.g1 * s1 + s.g2 * s2) * (1 + s.g1 * s1 + s.g2 * s2)
          + (s.g2 * s1 - s.g1 * s2) * (s.g2 * s1 - s.g1 * s2) := lt_of_le_of_ne (add_nonneg (mul_self_nonneg _) (mul_self_nonneg _)) (Ne.symm hz)
      unfold InDisk at *
      by_contra hn
      have : (1 - (s.g1 ^ 2 + s.g2 ^ 2)) * (1 - (s1 ^ 2 + s2 ^ 2)) ≤ 0 :=
        mul_nonpos_of_nonneg_of_nonpos (by linarith) (by linarith)
      have := div_nonpos_of_nonpos_of_nonneg this hpos.le
      linarith
  · intro hs
    exact ⟨_, sheared_ok hg hs⟩

/-- C01: `get_sheared(s1)` with a scalar and no second component is a `ValueError`. -/
theorem C01_get_sheared_needs_two_components (s : ShapeObj) (s1 : ℝ) :
    s.getSheared (.scalars s1 none) = .error .value := rfl

example : InDisk (-0.6) 0.7 ∧ InDisk 0.3 (-0.9) := by
  unfold InDisk; norm_num

/-! ## C02 inversion, identity, composition -/

/-- C02: shearing by `s` and then by `-s` restores the shape. -/
theorem C02_shear_inverse (g1 g2 s1 s2 : ℝ) (hg : InDisk g1 g2) (hs : InDisk s1 s2) :
    shearReduced (shearReduced g1 g2 s1 s2).1 (shearReduced g1 g2 s1 s2).2 (-s1) (-s2)
      = (g1, g2) := by
  apply toC_injective
  rw [shearReduced_eq_mobius, toC_eta, shearReduced_eq_mobius]
  have hs' := (inDisk_iff_norm (s1, s2)).1 hs
  have hd := mobius_den_ne ((inDisk_iff_norm (g1, g2)).1 hg) hs'
  have hneg : toC (-s1, -s2) = - toC (s1, s2) := by
    unfold toC; apply Complex.ext <;> simp
  rw [hneg]
  generalize toC (g1, g2) = g at *
  generalize toC (s1, s2) = s at *
  unfold mobius
  have h1 : (1:ℂ) - (starRingEnd ℂ) s * s ≠ 0 := by
    intro h
    have h2 : (starRingEnd ℂ) s * s = 1 := by linear_combination -h
    have h3 := congrArg norm h2
    simp at h3
    nlinarith [norm_nonneg s]
  have h4 : 1 + (starRingEnd ℂ) (-s) * ((g + s) / (1 + (starRingEnd ℂ) s * g))
      = (1 - (starRingEnd ℂ) s * s) / (1 + (starRingEnd ℂ) s * g) := by
    rw [map_neg, eq_div_iff hd, add_mul, mul_assoc, div_mul_cancel₀ _ hd]; ring
  rw [h4]
  generalize hdd : 1 + (starRingEnd ℂ) s * g = d at *
  generalize hee : 1 - (starRingEnd ℂ) s * s = e at *
  have : (g + s) / d + -s = g * e / d := by
    rw [eq_div_iff hd, add_mul, div_mul_cancel₀ _ hd, ← hdd, ← hee]; ring
  rw [this]
  field_simp

/-- C02: in `Shape` terms, `shape.get_sheared(sh).get_sheared(-sh)` succeeds and has the
original components. -/
theorem C02_get_sheared_inverse (s sh : ShapeObj)
    (hg : InDisk s.g1 s.g2) (hs : InDisk sh.g1 sh.g2) :
    ∃ r n r', s.getSheared (.shape sh) = .ok r ∧ sh.neg = .ok n ∧
      r.getSheared (.shape n) = .ok r' ∧ r'.g1 = s.g1 ∧ r'.g2 = s.g2 := by
  have hn : InDisk (-sh.g1) (-sh.g2) := by unfold InDisk at *; nlinarith
  have hr := shear_inDisk hg hs
  have hinv := C02_shear_inverse s.g1 s.g2 sh.g1 sh.g2 hg hs
  refine ⟨_, _, _, sheared_ok hg hs, new_ok hn, sheared_ok hr hn, ?_, ?_⟩
  · simp only; rw [hinv]
  · simp only; rw [hinv]

/-- C02: the zero shear changes nothing. -/
theorem C02_shear_zero (g1 g2 : ℝ) : shearReduced g1 g2 0 0 = (g1, g2) := by
  simp [shearReduced]

/-- C02: a round object sheared by `s` has shape `s`. -/
theorem C02_shear_of_round (s1 s2 : ℝ) : shearReduced 0 0 s1 s2 = (s1, s2) := by
  simp [shearReduced]

/-- C02: two successive shears `s` then `t` are the single shear by "`t` sheared by `s`"
followed by one rotation `u` that does not depend on the shape. -/
theorem C02_shear_compose (s1 s2 t1 t2 : ℝ) (hs : InDisk s1 s2) (ht : InDisk t1 t2) :
    ∃ u : ℂ, ‖u‖ = 1 ∧ ∀ g1 g2 : ℝ, InDisk g1 g2 →
      toC (shearReduced (shearReduced g1 g2 s1 s2).1 (shearReduced g1 g2 s1 s2).2 t1 t2)
        = u * toC (shearReduced g1 g2 (shearReduced t1 t2 s1 s2).1
              (shearReduced t1 t2 s1 s2).2) := by
  have hs' := (inDisk_iff_norm (s1, s2)).1 hs
  have ht' := (inDisk_iff_norm (t1, t2)).1 ht
  refine ⟨(1 + toC (t1, t2) * (starRingEnd ℂ) (toC (s1, s2))) /
      (1 + (starRingEnd ℂ) (toC (t1, t2)) * toC (s1, s2)), ?_, ?_⟩
  · rw [norm_div]
    have h : ‖1 + toC (t1, t2) * (starRingEnd ℂ) (toC (s1, s2))‖
        = ‖1 + (starRingEnd ℂ) (toC (t1, t2)) * toC (s1, s2)‖ := by
      rw [← Complex.norm_conj]; simp
    rw [h]
    exact div_self (norm_ne_zero_iff.2 (mobius_den_ne hs' ht'))
  · intro g1 g2 hg
    have hg' := (inDisk_iff_norm (g1, g2)).1 hg
    have hgs := (inDisk_iff_norm _).1 (shear_inDisk hg hs)
    have hts := (inDisk_iff_norm _).1 (shear_inDisk ht hs)
    rw [shearReduced_eq_mobius, shearReduced_eq_mobius, toC_eta, toC_eta]
    have e1 := mobius_den_ne hg' hs'
    have e2 := mobius_den_ne hs' ht'
    have e3 := mobius_den_ne ht' hs'
    have e4 := mobius_den_ne hgs ht'
    have e5 := mobius_den_ne hg' hts
    rw [shearReduced_eq_mobius] at e4 e5
    rw [shearReduced_eq_mobius, shearReduced_eq_mobius]
    generalize toC (g1, g2) = g at *
    generalize toC (s1, s2) = s at *
    generalize toC (t1, t2) = t at *
    unfold mobius at *
    have hc : (starRingEnd ℂ) ((t + s) / (1 + (starRingEnd ℂ) s * t))
        = ((starRingEnd ℂ) t + (starRingEnd ℂ) s) / (1 + s * (starRingEnd ℂ) t) := by
      simp
    rw [hc] at e5 ⊢
    generalize (starRingEnd ℂ) s = s' at *
    generalize (starRingEnd ℂ) t = t' at *
    have e2' : 1 + s * t' ≠ 0 := by rwa [mul_comm]
    have e3' : 1 + t * s' ≠ 0 := by rwa [mul_comm]
    have k1 : 1 + t' * ((g + s) / (1 + s' * g)) = (1 + s' * g + t' * (g + s)) / (1 + s' * g) := by
      rw [eq_div_iff e1, add_mul, mul_assoc, div_mul_cancel₀ _ e1]; ring
    have k2 : 1 + (t' + s') / (1 + s * t') * g = (1 + s * t' + (t' + s') * g) / (1 + s * t') := by
      rw [eq_div_iff e2', add_mul, mul_right_comm, div_mul_cancel₀ _ e2']; ring
    rw [k1] at e4 ⊢
    rw [k2] at e5 ⊢
    have e6 : 1 + s' * g + t' * (g + s) ≠ 0 := fun h => e4 (by rw [h, zero_div])
    have e7 : 1 + s * t' + (t' + s') * g ≠ 0 := fun h => e5 (by rw [h, zero_div])
    have e8 : 1 + s * t' + (t' + s') * g = 1 + s' * g + t' * (g + s) := by ring
    have e9 : 1 + t' * s = 1 + s * t' := by ring
    have e10 : 1 + s' * t = 1 + t * s' := by ring
    rw [e8, e9, e10]
    have k3 : (g + s) / (1 + s' * g) + t = (g + s + t * (1 + s' * g)) / (1 + s' * g) := by
      rw [eq_div_iff e1, add_mul, div_mul_cancel₀ _ e1]
    have k4 : g + (t + s) / (1 + t * s') = (g * (1 + t * s') + (t + s)) / (1 + t * s') := by
      rw [eq_div_iff e3', add_mul, div_mul_cancel₀ _ e3']
    rw [k3, k4, div_div_div_cancel_right₀ e1]
    generalize hq : 1 + s' * g + t' * (g + s) = q at *
    generalize hb : 1 + s * t' = b at *
    have k5 : g + s + t * (1 + s' * g) = g * (1 + t * s') + (t + s) := by ring
    rw [k5]
    generalize hc' : 1 + t * s' = c at *
    field_simp

example : ∃ s1 s2 t1 t2 g1 g2 : ℝ, InDisk s1 s2 ∧ InDisk t1 t2 ∧ InDisk g1 g2 ∧ s1 ≠ 0 ∧ t2 ≠ 0 :=
  ⟨0.1, 0.2, -0.3, 0.4, 0.5, 0.6, by unfold InDisk; norm_num⟩

/-! ## C03 rotations -/

theorem rotateShape_eq_spin2 (g1 g2 theta : ℝ) :
    toC (rotateShape g1 g2 theta) = spin2 theta (toC (g1, g2)) := by
  unfold spin2 rotateShape toC
  have h : Complex.exp (-(2 * (theta:ℂ)) * Complex.I)
      = ⟨Real.cos (2 * theta), - Real.sin (2 * theta)⟩ := by
    have : -(2 * (theta:ℂ)) * Complex.I = ((-(2 * theta) : ℝ) : ℂ) * Complex.I := by push_cast; ring
    rw [this, Complex.exp_mul_I, ← Complex.ofReal_cos, ← Complex.ofReal_sin, Real.cos_neg,
      Real.sin_neg]
    apply Complex.ext
    · rw [Complex.add_re, Complex.ofReal_re, Complex.re_ofReal_mul, Complex.I_re]; ring
    · rw [Complex.add_im, Complex.ofReal_im, Complex.im_ofReal_mul, Complex.I_im]; ring
  rw [h]
  apply Complex.ext <;> simp <;> ring

/-- C03: rotating is multiplication by `exp(-2 i theta)`; it keeps `|g|`, so a valid
shape stays valid. -/
theorem C03_rotate_is_spin2 (g1 g2 theta : ℝ) :
    toC (rotateShape g1 g2 theta) = spin2 theta (toC (g1, g2)) ∧
    (rotateShape g1 g2 theta).1 ^ 2 + (rotateShape g1 g2 theta).2 ^ 2 = g1 ^ 2 + g2 ^ 2 := by
  refine ⟨rotateShape_eq_spin2 g1 g2 theta, ?_⟩
  have := Real.sin_sq_add_cos_sq (2 * theta)
  simp only [rotateShape]
  linear_combination (g1 ^ 2 + g2 ^ 2) * this

/-- C03: rotations compose additively; `-theta` undoes `theta`; the period is `pi`. -/
theorem C03_rotate_group (g1 g2 a b : ℝ) :
    rotateShape (rotateShape g1 g2 a).1 (rotateShape g1 g2 a).2 b = rotateShape g1 g2 (a + b) ∧
    rotateShape g1 g2 0 = (g1, g2) ∧
    rotateShape (rotateShape g1 g2 a).1 (rotateShape g1 g2 a).2 (-a) = (g1, g2) ∧
    rotateShape g1 g2 (a + Real.pi) = rotateShape g1 g2 a := by
  have comp : ∀ a b : ℝ, rotateShape (rotateShape g1 g2 a).1 (rotateShape g1 g2 a).2 b
      = rotateShape g1 g2 (a + b) := by
    intro a b
    simp only [rotateShape, mul_add, Real.cos_add, Real.sin_add]
    ext <;> simp <;> ring
  have zero : rotateShape g1 g2 0 = (g1, g2) := by simp [rotateShape]
  refine ⟨comp a b, zero, ?_, ?_⟩
  · rw [comp, add_neg_cancel, zero]
  · simp [rotateShape, mul_add, Real.cos_add, Real.sin_add]

/-- C03: shearing commutes with rotating shape and shear together. -/
theorem C03_rotate_shear_covariant (g1 g2 s1 s2 theta : ℝ)
    (hg : InDisk g1 g2) (hs : InDisk s1 s2) :
    shearReduced (rotateShape g1 g2 theta).1 (rotateShape g1 g2 theta).2
        (rotateShape s1 s2 theta).1 (rotateShape s1 s2 theta).2
      = rotateShape (shearReduced g1 g2 s1 s2).1 (shearReduced g1 g2 s1 s2).2 theta := by
  apply toC_injective
  rw [shearReduced_eq_mobius, rotateShape_eq_spin2, toC_eta, toC_eta, toC_eta,
    rotateShape_eq_spin2, rotateShape_eq_spin2, shearReduced_eq_mobius]
  have hd := mobius_den_ne ((inDisk_iff_norm (g1, g2)).1 hg) ((inDisk_iff_norm (s1, s2)).1 hs)
  generalize toC (g1, g2) = g at *
  generalize toC (s1, s2) = s at *
  unfold spin2 mobius
  set u := Complex.exp (-(2 * (theta:ℂ)) * Complex.I) with hu
  have hu1 : (starRingEnd ℂ) u * u = 1 := by
    rw [hu, ← Complex.exp_conj, ← Complex.exp_add]
    have h2 : (starRingEnd ℂ) (2:ℂ) = 2 := Complex.conj_ofNat 2
    simp [h2]
  have : 1 + (starRingEnd ℂ) (u * s) * (u * g) = 1 + (starRingEnd ℂ) s * g := by
    rw [map_mul]
    linear_combination (starRingEnd ℂ) s * g * hu1
  rw [this]
  field_simp

/-- C03: `Shape.get_rotated` and in-place `rotate` never raise on a valid shape, agree with
`rotate_shape`, and keep the cached size. -/
theorem C03_shape_methods (s : ShapeObj) (theta : ℝ) (h : InDisk s.g1 s.g2)
    (hc : s.g = Real.sqrt (s.g1 ^ 2 + s.g2 ^ 2)) :
    ∃ r : ShapeObj, s.getRotated theta = .ok r ∧ s.rotate theta = (r, .ok ()) ∧
      (r.g1, r.g2) = rotateShape s.g1 s.g2 theta ∧ r.g = s.g := by
  have hn := (C03_rotate_is_spin2 s.g1 s.g2 theta).2
  have hd : InDisk (rotateShape s.g1 s.g2 theta).1 (rotateShape s.g1 s.g2 theta).2 := by
    unfold InDisk at *; rw [hn]; exact h
  refine ⟨_, new_ok hd, ?_, rfl, ?_⟩
  · have hge : ¬ (Real.sqrt ((rotateShape s.g1 s.g2 theta).1 * (rotateShape s.g1 s.g2 theta).1
        + (rotateShape s.g1 s.g2 theta).2 * (rotateShape s.g1 s.g2 theta).2) ≥ 1) := by
      rw [sqrt_ge_one_iff]; exact not_not.2 hd
    show ShapeObj.setG1G2 s (rotateShape s.g1 s.g2 theta).1 (rotateShape s.g1 s.g2 theta).2 = _
    simp only [ShapeObj.setG1G2, hge, if_false]
    rfl
  · show Real.sqrt ((rotateShape s.g1 s.g2 theta).1 * (rotateShape s.g1 s.g2 theta).1
        + (rotateShape s.g1 s.g2 theta).2 * (rotateShape s.g1 s.g2 theta).2) = _
    rw [hc, ← hn]
    congr 1
    ring

example : ∃ s : ShapeObj, InDisk s.g1 s.g2 ∧ s.g = Real.sqrt (s.g1 ^ 2 + s.g2 ^ 2) ∧ s.g1 ≠ 0 :=
  ⟨⟨0.3, 0.4, Real.sqrt (0.3 ^ 2 + 0.4 ^ 2)⟩, by unfold InDisk; norm_num, rfl, by norm_num⟩

/-! ## C04 validity of `Shape` objects over histories -/

/-- Spec: a `Shape` object is valid when it is inside the disk and its cached size is right. -/
def ShapeValid (s : ShapeObj) : Prop :=
  s.g1 ^ 2 + s.g2 ^ 2 < 1 ∧ s.g = Real.sqrt (s.g1 ^ 2 + s.g2 ^ 2)

/-- In-place operations a caller can perform on a `Shape`. -/
inductive ShapeOp
  | set (g1 g2 : ℝ)
  | rotate (theta : ℝ)

/-- One in-place operation; the object is left as the code leaves it even on failure. -/
noncomputable def shapeStep (s : ShapeObj) : ShapeOp → ShapeObj × Except PyErr Unit
  | .set a b => s.setG1G2 a b
  | .rotate t => s.rotate t

/-- A history in which the caller catches exceptions: the final object. -/
noncomputable def shapeRun (s : ShapeObj) (ops : List ShapeOp) : ShapeObj :=
  ops.foldl (fun s op => (shapeStep s op).1) s

/-- C04: construction succeeds exactly inside the disk, with `GMixRangeError` otherwise, and
the constructed object is valid with the requested components. -/
theorem C04_constructor (g1 g2 : ℝ) :
    (g1 ^ 2 + g2 ^ 2 < 1 → ∃ s, ShapeObj.new g1 g2 = .ok s ∧ s.g1 = g1 ∧ s.g2 = g2 ∧ ShapeValid s) ∧
    (1 ≤ g1 ^ 2 + g2 ^ 2 → ShapeObj.new g1 g2 = .error .gmixRange) := by
  constructor
  · intro h
    refine ⟨_, new_ok h, rfl, rfl, h, ?_⟩
    simp only [sq]
  · intro h
    exact new_err (not_lt.2 h)

/-- C04: `set_g1g2` succeeds exactly inside the disk; on success the object is valid and holds
the requested components whatever its earlier state. -/
theorem C04_set_g1g2 (s : ShapeObj) (g1 g2 : ℝ) :
    (g1 ^ 2 + g2 ^ 2 < 1 → (s.setG1G2 g1 g2).2 = .ok () ∧ ShapeValid (s.setG1G2 g1 g2).1 ∧
      (s.setG1G2 g1 g2).1.g1 = g1 ∧ (s.setG1G2 g1 g2).1.g2 = g2) ∧
    (1 ≤ g1 ^ 2 + g2 ^ 2 → (s.setG1G2 g1 g2).2 = .error .gmixRange ∧ (s.setG1G2 g1 g2).1.g1 = g1 ∧
      (s.setG1G2 g1 g2).1.g2 = g2 ∧ (s.setG1G2 g1 g2).1.g = s.g) := by
  constructor
  · intro h
    have hge : ¬ (Real.sqrt (g1 * g1 + g2 * g2) ≥ 1) := by
      rw [sqrt_ge_one_iff]; exact not_not.2 h
    simp only [ShapeObj.setG1G2, hge, if_false, ShapeValid]
    refine ⟨trivial, ⟨h, ?_⟩, trivial, trivial⟩
    simp only [sq]
  · intro h
    have hge : (Real.sqrt (g1 * g1 + g2 * g2) ≥ 1) := by
      rw [sqrt_ge_one_iff]; exact not_lt.2 h
    simp only [ShapeObj.setG1G2, hge, if_true, and_self]

theorem step_valid_iff (s : ShapeObj) (op : ShapeOp) :
    ShapeValid (shapeStep s op).1 ↔ (shapeStep s op).2 = .ok () := by
  have key : ∀ a b : ℝ, ShapeValid (s.setG1G2 a b).1 ↔ (s.setG1G2 a b).2 = .ok () := by
    intro a b
    rcases lt_or_ge (a ^ 2 + b ^ 2) 1 with h | h
    · have := (C04_set_g1g2 s a b).1 h
      simp [this.1, this.2.1]
    · have h2 := ((C04_set_g1g2 s a b).2 h).1
      simp only [h2]
      constructor
      · intro hv
        exfalso
        have hge : (Real.sqrt (a * a + b * b) ≥ 1) := by
          rw [sqrt_ge_one_iff]; exact not_lt.2 h
        simp only [ShapeObj.setG1G2, hge, if_true, ShapeValid] at hv
        linarith [hv.1]
      · intro h; simp at h
  cases op with
  | set a b => exact key a b
  | rotate t => exact key _ _

/-- C04: along any history whose operations all succeed a valid object stays valid. -/
theorem C04_successful_histories_valid (s : ShapeObj) (ops : List ShapeOp) (hs : ShapeValid s)
    (hok : ∀ pre op post, ops = pre ++ op :: post → (shapeStep (shapeRun s pre) op).2 = .ok ()) :
    ShapeValid (shapeRun s ops) := by
  rcases List.eq_nil_or_concat ops with h | ⟨pre, op, h⟩
  · subst h; exact hs
  · have hl := hok pre op [] (by rw [h]; simp)
    have := (step_valid_iff (shapeRun s pre) op).2 hl
    rw [h]
    simpa [shapeRun, List.foldl_append] using this

/-- C04: after any history at all (failures caught) the object is valid exactly when the last
operation succeeded: a later successful operation repairs it. -/
theorem C04_valid_iff_last_succeeded (s : ShapeObj) (ops : List ShapeOp) (op : ShapeOp) :
    ShapeValid (shapeRun s (ops ++ [op])) ↔ (shapeStep (shapeRun s ops) op).2 = .ok () := by
  rw [← step_valid_iff]
  simp [shapeRun, List.foldl_append]

/-- C04 counterexample (code as it is): a rejected `set_g1g2` leaves the rejected components
in the object and a stale size. -/
theorem C04_failed_set_breaks_object :
    ∃ s : ShapeObj, ShapeObj.new 0.6 0 = .ok s ∧
      (s.setG1G2 2 0).2 = .error .gmixRange ∧
      (s.setG1G2 2 0).1.g1 = 2 ∧ (s.setG1G2 2 0).1.g = s.g ∧
      ¬ ShapeValid (s.setG1G2 2 0).1 := by
  obtain ⟨s, h, -, -, -⟩ := (C04_constructor 0.6 0).1 (by norm_num)
  have h2 := ((C04_set_g1g2 s 2 0).2 (by norm_num)).1
  refine ⟨s, h, h2, ?_, ?_, ?_⟩
  · unfold ShapeObj.setG1G2; dsimp only; split <;> rfl
  · have hge : (Real.sqrt ((2:ℝ) * 2 + 0 * 0) ≥ 1) := by
      rw [sqrt_ge_one_iff]; unfold InDisk; norm_num
    simp only [ShapeObj.setG1G2, hge, if_true]
  · rw [show (s.setG1G2 2 0) = shapeStep s (.set 2 0) from rfl, step_valid_iff]
    rw [show shapeStep s (.set 2 0) = (s.setG1G2 2 0) from rfl, h2]
    simp

/-- C04: copying or negating a valid shape succeeds and gives a valid object with the same
(resp. negated) components. -/
theorem C04_copy_neg (s : ShapeObj) (hs : ShapeValid s) :
    (s.copy = .ok s) ∧ (∃ n, s.neg = .ok n ∧ n.g1 = -s.g1 ∧ n.g2 = -s.g2 ∧ n.g = s.g) := by
  obtain ⟨h, hg⟩ := hs
  constructor
  · unfold ShapeObj.copy
    rw [new_ok h]
    congr
    rw [hg]; simp only [sq]
  · have hn : InDisk (-s.g1) (-s.g2) := by unfold InDisk; nlinarith
    refine ⟨_, new_ok hn, rfl, rfl, ?_⟩
    rw [hg]; simp only; congr 1; ring

example : ShapeValid ⟨0.3, 0.4, Real.sqrt (0.3 ^ 2 + 0.4 ^ 2)⟩ := by
  unfold ShapeValid; norm_num

end Ngmix.Props
