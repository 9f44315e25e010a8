import Mathlib.Tactic.Linarith
import Mathlib.Tactic.FieldSimp
import Mathlib.Tactic.Ring
import Mathlib.Tactic.LinearCombination
import Verif.Model.Shape
import Verif.Spec.Shape

/-! Helper lemmas about shapes. -/

namespace Ngmix

open Spec

theorem sqrt_ge_one_iff (a b : ℝ) :
    Real.sqrt (a * a + b * b) ≥ 1 ↔ ¬ InDisk a b := by
  unfold InDisk
  have : (1:ℝ) ≤ Real.sqrt (a * a + b * b) ↔ 1 ≤ a * a + b * b := by
    rw [Real.le_sqrt' one_pos]; simp
  rw [ge_iff_le, this, not_lt]
  constructor <;> intro h <;> nlinarith

theorem shear_A_pos {g1 g2 s1 s2 : ℝ} (hg : InDisk g1 g2) (hs : InDisk s1 s2) :
    0 < 1 + g1 * s1 + g2 * s2 := by
  unfold InDisk at *
  nlinarith [sq_nonneg (g1 + s1), sq_nonneg (g2 + s2)]

theorem shear_den_pos {g1 g2 s1 s2 : ℝ} (hg : InDisk g1 g2) (hs : InDisk s1 s2) :
    0 < (1 + g1 * s1 + g2 * s2) * (1 + g1 * s1 + g2 * s2)
      + (g2 * s1 - g1 * s2) * (g2 * s1 - g1 * s2) := by
  have := shear_A_pos hg hs
  nlinarith [mul_pos this this, mul_self_nonneg (g2 * s1 - g1 * s2)]

theorem shear_norm_identity' {g1 g2 s1 s2 : ℝ} (h' : (1 + g1 * s1 + g2 * s2) * (1 + g1 * s1 + g2 * s2)
      + (g2 * s1 - g1 * s2) * (g2 * s1 - g1 * s2) ≠ 0) :
    1 - ((shearReduced g1 g2 s1 s2).1 ^ 2 + (shearReduced g1 g2 s1 s2).2 ^ 2)
      = (1 - (g1 ^ 2 + g2 ^ 2)) * (1 - (s1 ^ 2 + s2 ^ 2))
        / ((1 + g1 * s1 + g2 * s2) * (1 + g1 * s1 + g2 * s2)
          + (g2 * s1 - g1 * s2) * (g2 * s1 - g1 * s2)) := by
  simp only [shearReduced]
  set D := (1 + g1 * s1 + g2 * s2) * (1 + g1 * s1 + g2 * s2)
      + (g2 * s1 - g1 * s2) * (g2 * s1 - g1 * s2) with hD
  field_simp
  rw [hD]; ring

theorem shear_norm_identity {g1 g2 s1 s2 : ℝ} (hg : InDisk g1 g2) (hs : InDisk s1 s2) :
    1 - ((shearReduced g1 g2 s1 s2).1 ^ 2 + (shearReduced g1 g2 s1 s2).2 ^ 2)
      = (1 - (g1 ^ 2 + g2 ^ 2)) * (1 - (s1 ^ 2 + s2 ^ 2))
        / ((1 + g1 * s1 + g2 * s2) * (1 + g1 * s1 + g2 * s2)
          + (g2 * s1 - g1 * s2) * (g2 * s1 - g1 * s2)) := shear_norm_identity' (shear_den_pos hg hs).ne'

theorem shear_inDisk {g1 g2 s1 s2 : ℝ} (hg : InDisk g1 g2) (hs : InDisk s1 s2) :
    InDisk (shearReduced g1 g2 s1 s2).1 (shearReduced g1 g2 s1 s2).2 := by
  have h := shear_norm_identity hg hs
  have hd := shear_den_pos hg hs
  have : 0 < 1 - ((shearReduced g1 g2 s1 s2).1 ^ 2 + (shearReduced g1 g2 s1 s2).2 ^ 2) := by
    rw [h]
    unfold InDisk at hg hs
    exact div_pos (mul_pos (by linarith) (by linarith)) hd
  unfold InDisk
  linarith

theorem toC_injective {a b : ℝ × ℝ} (h : toC a = toC b) : a = b := by
  have h1 := congrArg Complex.re h
  have h2 := congrArg Complex.im h
  exact Prod.ext h1 h2

theorem toC_eta (g : ℝ × ℝ) : toC (g.1, g.2) = toC g := rfl

theorem inDisk_iff_norm (g : ℝ × ℝ) : InDisk g.1 g.2 ↔ ‖toC g‖ < 1 := by
  unfold InDisk toC
  rw [← sq_lt_one_iff₀ (norm_nonneg _), Complex.sq_norm, Complex.normSq_mk]
  constructor <;> intro h <;> nlinarith

theorem mobius_den_ne {g s : ℂ} (hg : ‖g‖ < 1) (hs : ‖s‖ < 1) :
    1 + (starRingEnd ℂ) s * g ≠ 0 := by
  intro h
  have h1 : (starRingEnd ℂ) s * g = -1 := by linear_combination h
  have h2 : ‖s‖ * ‖g‖ = 1 := by
    have := congrArg norm h1
    simpa using this
  have : ‖s‖ * ‖g‖ < 1 := by
    nlinarith [norm_nonneg s, norm_nonneg g]
  linarith

theorem shearReduced_eq_mobius (g1 g2 s1 s2 : ℝ) :
    toC (shearReduced g1 g2 s1 s2) = mobius (toC (g1, g2)) (toC (s1, s2)) := by
  unfold mobius toC shearReduced
  apply Complex.ext
  · simp [Complex.div_re, Complex.normSq_apply]
    ring
  · simp [Complex.div_im, Complex.normSq_apply]
    ring

theorem new_ok_iff (g1 g2 : ℝ) (s : ShapeObj) :
    ShapeObj.new g1 g2 = .ok s ↔
      InDisk g1 g2 ∧ s = ⟨g1, g2, Real.sqrt (g1 * g1 + g2 * g2)⟩ := by
  unfold ShapeObj.new
  by_cases h : InDisk g1 g2
  · have : ¬ (Real.sqrt (g1 * g1 + g2 * g2) ≥ 1) := by rw [sqrt_ge_one_iff]; simpa using h
    simp only [this, if_false, h, true_and]
    constructor
    · intro h; injection h with h; exact h.symm
    · intro h; rw [h]
  · have : (Real.sqrt (g1 * g1 + g2 * g2) ≥ 1) := by rw [sqrt_ge_one_iff]; exact h
    simp [this, h]

theorem new_ok {g1 g2 : ℝ} (h : InDisk g1 g2) :
    ShapeObj.new g1 g2 = .ok ⟨g1, g2, Real.sqrt (g1 * g1 + g2 * g2)⟩ :=
  (new_ok_iff g1 g2 _).2 ⟨h, rfl⟩

theorem new_err {g1 g2 : ℝ} (h : ¬ InDisk g1 g2) :
    ShapeObj.new g1 g2 = .error .gmixRange := by
  unfold ShapeObj.new
  have : (Real.sqrt (g1 * g1 + g2 * g2) ≥ 1) := by rw [sqrt_ge_one_iff]; exact h
  simp [this]

theorem shearE_ok {g1 g2 s1 s2 : ℝ} (hg : InDisk g1 g2) (hs : InDisk s1 s2) :
    shearReducedE g1 g2 s1 s2 = .ok (shearReduced g1 g2 s1 s2) := if_neg (shear_den_pos hg hs).ne'

theorem sheared_ok {s : ShapeObj} {s1 s2 : ℝ} (hg : InDisk s.g1 s.g2) (hs : InDisk s1 s2) :
    s.getSheared (.scalars s1 (some s2)) = .ok ⟨(shearReduced s.g1 s.g2 s1 s2).1, (shearReduced s.g1 s.g2 s1 s2).2,
      Real.sqrt ((shearReduced s.g1 s.g2 s1 s2).1 * (shearReduced s.g1 s.g2 s1 s2).1 +
        (shearReduced s.g1 s.g2 s1 s2).2 * (shearReduced s.g1 s.g2 s1 s2).2)⟩ := by
  simp only [ShapeObj.getSheared, shearE_ok hg hs, Except.bind]
  exact new_ok (shear_inDisk hg hs)

theorem sheared_shape_eq (s sh : ShapeObj) : s.getSheared (.shape sh) = s.getSheared (.scalars sh.g1 (some sh.g2)) := rfl

theorem shear_den_iff (g1 g2 s1 s2 : ℝ) :
    (1 + g1 * s1 + g2 * s2) * (1 + g1 * s1 + g2 * s2) + (g2 * s1 - g1 * s2) * (g2 * s1 - g1 * s2) = 0 ↔
      1 + (starRingEnd ℂ) (toC (s1, s2)) * toC (g1, g2) = 0 := by
  unfold toC
  constructor
  · intro h
    have hA : 1 + g1 * s1 + g2 * s2 = 0 := by nlinarith [mul_self_nonneg (g2 * s1 - g1 * s2), mul_self_nonneg (1 + g1 * s1 + g2 * s2)]
    have hB : g2 * s1 - g1 * s2 = 0 := by nlinarith [mul_self_nonneg (g2 * s1 - g1 * s2), mul_self_nonneg (1 + g1 * s1 + g2 * s2)]
    apply Complex.ext
    · simp; linarith
    · simp; linarith
  · intro h
    have h1 := congrArg Complex.re h
    have h2 := congrArg Complex.im h
    simp at h1 h2
    have hA : 1 + g1 * s1 + g2 * s2 = 0 := by linarith
    have hB : g2 * s1 - g1 * s2 = 0 := by linarith
    rw [hA, hB]; ring


end Ngmix
