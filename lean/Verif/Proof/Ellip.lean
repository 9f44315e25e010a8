import Verif.Proof.Shape
import Mathlib.Analysis.SpecialFunctions.Trigonometric.DerivHyp

/-! Helper lemmas for ellipticity conversions. -/

namespace Ngmix

open Spec

theorem tanh_two_mul' (x : ℝ) :
    Real.tanh (2 * x) = 2 * Real.tanh x / (1 + Real.tanh x ^ 2) := by
  have hc := (Real.cosh_pos x).ne'
  rw [Real.tanh_eq_sinh_div_cosh, Real.tanh_eq_sinh_div_cosh, Real.sinh_two_mul, Real.cosh_two_mul]
  field_simp

theorem size_nonneg (a b : ℝ) : 0 ≤ Real.sqrt (a * a + b * b) := Real.sqrt_nonneg _

theorem size_sq (a b : ℝ) : Real.sqrt (a * a + b * b) ^ 2 = a ^ 2 + b ^ 2 := by
  rw [Real.sq_sqrt (by nlinarith [mul_self_nonneg a, mul_self_nonneg b])]; ring

theorem size_lt_one {a b : ℝ} (h : InDisk a b) : Real.sqrt (a * a + b * b) < 1 := by
  have := (sqrt_ge_one_iff a b).not.2 (not_not.2 h)
  exact not_le.1 this

theorem size_mem {a b : ℝ} (h : InDisk a b) :
    Real.sqrt (a * a + b * b) ∈ Set.Ioo (-1 : ℝ) 1 :=
  ⟨by linarith [size_nonneg a b], size_lt_one h⟩

theorem size_eq_zero {a b : ℝ} (h : Real.sqrt (a * a + b * b) = 0) : a = 0 ∧ b = 0 := by
  have h2 := size_sq a b
  rw [h] at h2
  constructor <;> nlinarith [sq_nonneg a, sq_nonneg b]

theorem size_smul (r a b : ℝ) (hr : 0 ≤ r) :
    Real.sqrt (r * a * (r * a) + r * b * (r * b)) = r * Real.sqrt (a * a + b * b) := by
  have : r * a * (r * a) + r * b * (r * b) = r ^ 2 * (a * a + b * b) := by ring
  rw [this, Real.sqrt_mul (sq_nonneg r), Real.sqrt_sq hr]

theorem artanh_nonneg {x : ℝ} (h0 : 0 ≤ x) (h1 : x < 1) : 0 ≤ Real.artanh x := by
  unfold Real.artanh
  apply Real.log_nonneg
  rw [Real.one_le_sqrt, le_div_iff₀ (by linarith)]
  linarith

theorem artanh_pos {x : ℝ} (h0 : 0 < x) (h1 : x < 1) : 0 < Real.artanh x := by
  unfold Real.artanh
  apply Real.log_pos
  have : (1:ℝ) < (1 + x) / (1 - x) := by rw [lt_div_iff₀ (by linarith)]; linarith
  calc (1:ℝ) = Real.sqrt 1 := by simp
    _ < _ := Real.sqrt_lt_sqrt (by norm_num) this

/-- `tanh (y/2)` in terms of `tanh y`. -/
theorem tanh_half_artanh {e : ℝ} (h0 : 0 ≤ e) (h1 : e < 1) :
    Real.tanh (0.5 * Real.artanh e) = e / (1 + Real.sqrt (1 - e ^ 2)) := by
  set g := Real.tanh (0.5 * Real.artanh e) with hg
  have he : e = 2 * g / (1 + g ^ 2) := by
    have := tanh_two_mul' (0.5 * Real.artanh e)
    rw [← hg, show 2 * (0.5 * Real.artanh e) = Real.artanh e by ring,
      Real.tanh_artanh ⟨by linarith, h1⟩] at this
    exact this
  have hg1 : g < 1 := Real.tanh_lt_one _
  have hgm : -1 < g := Real.neg_one_lt_tanh _
  have hg2 : g ^ 2 < 1 := by nlinarith
  have hsq : 1 - e ^ 2 = ((1 - g ^ 2) / (1 + g ^ 2)) ^ 2 := by
    rw [he]; field_simp; ring
  rw [hsq, Real.sqrt_sq (div_nonneg (by linarith) (by positivity))]
  rw [he]
  have : 1 + (1 - g ^ 2) / (1 + g ^ 2) = 2 / (1 + g ^ 2) := by field_simp; ring
  rw [this]
  field_simp

theorem g1g2ToE1E2_closed {g1 g2 : ℝ} (h : InDisk g1 g2) :
    g1g2ToE1E2 g1 g2 = .ok (2 * g1 / (1 + (g1 ^ 2 + g2 ^ 2)), 2 * g2 / (1 + (g1 ^ 2 + g2 ^ 2))) := by
  have hlt := size_lt_one h
  have hmem := size_mem h
  have hsq := size_sq g1 g2
  unfold g1g2ToE1E2
  simp only [not_le.2 hlt, ge_iff_le, if_false]
  by_cases h0 : Real.sqrt (g1 * g1 + g2 * g2) = 0
  · obtain ⟨rfl, rfl⟩ := size_eq_zero h0
    simp
  · simp only [h0, if_false, not_le.2 (Real.tanh_lt_one _)]
    rw [tanh_two_mul', Real.tanh_artanh hmem, hsq]
    have hpos : 0 < 1 + (g1 ^ 2 + g2 ^ 2) := by positivity
    generalize Real.sqrt (g1 * g1 + g2 * g2) = g at *
    congr 2 <;> field_simp

theorem e1e2ToG1G2_closed {e1 e2 : ℝ} (h : InDisk e1 e2) :
    e1e2ToG1G2 e1 e2 = .ok (e1 / (1 + Real.sqrt (1 - (e1 ^ 2 + e2 ^ 2))),
      e2 / (1 + Real.sqrt (1 - (e1 ^ 2 + e2 ^ 2)))) := by
  have hlt := size_lt_one h
  have hsq := size_sq e1 e2
  unfold e1e2ToG1G2
  simp only [not_le.2 hlt, ge_iff_le, if_false]
  by_cases h0 : Real.sqrt (e1 * e1 + e2 * e2) = 0
  · obtain ⟨rfl, rfl⟩ := size_eq_zero h0
    simp
  · simp only [h0, if_false, not_le.2 (Real.tanh_lt_one _)]
    rw [tanh_half_artanh (size_nonneg _ _) hlt, hsq]
    have hpos : 0 < 1 + Real.sqrt (1 - (e1 ^ 2 + e2 ^ 2)) := by positivity
    generalize Real.sqrt (e1 * e1 + e2 * e2) = g at *
    congr 2 <;> field_simp

theorem inDisk_of_size {a b : ℝ} (h : Real.sqrt (a * a + b * b) < 1) : InDisk a b := by
  by_contra hc
  exact absurd ((sqrt_ge_one_iff a b).2 hc) (not_le.2 h)

end Ngmix
