import Verif.Model.MomResult
import Mathlib.Tactic.Positivity
import Mathlib.Tactic.FieldSimp
import Mathlib.Tactic.Ring

/-! Products of floats with a positive number. -/

namespace Ngmix.Fl

theorem infOf_mul_pos {s : ℝ} (hs : 0 < s) (x : ℝ) : infOf (s * x) = infOf x := by
  unfold infOf
  by_cases h : x = 0
  · simp [h]
  · simp [h, hs.ne', hs]

theorem infOf_pos {s : ℝ} (hs : 0 < s) : infOf s = pinf := by unfold infOf; simp [hs.ne', hs]

theorem infOf_neg_pos {s : ℝ} (hs : 0 < s) : infOf (-s) = ninf := by
  unfold infOf
  rw [if_neg (by linarith), if_neg (by linarith)]

theorem scale_nan (s : ℝ) : fin s * nan = nan := rfl
theorem scale_pinf {s : ℝ} (hs : 0 < s) : fin s * pinf = pinf := by change infOf s = _; exact infOf_pos hs
theorem scale_ninf {s : ℝ} (hs : 0 < s) : fin s * ninf = ninf := by change infOf (-s) = _; exact infOf_neg_pos hs

theorem scale_div {s : ℝ} (hs : 0 < s) (a b : Fl) : (fin s * a) / (fin s * b) = a / b := by
  rcases a with _ | _ | _ | x <;> rcases b with _ | _ | _ | y <;>
    simp only [scale_nan, scale_pinf hs, scale_ninf hs, fin_mul] <;> try rfl
  · change (if s * y < 0 then ninf else pinf) = (if y < 0 then ninf else pinf)
    by_cases h : y < 0
    · rw [if_pos h, if_pos (mul_neg_of_pos_of_neg hs h)]
    · rw [if_neg h, if_neg (not_lt.2 (mul_nonneg hs.le (not_lt.1 h)))]
  · change (if s * y < 0 then pinf else ninf) = (if y < 0 then pinf else ninf)
    by_cases h : y < 0
    · rw [if_pos h, if_pos (mul_neg_of_pos_of_neg hs h)]
    · rw [if_neg h, if_neg (not_lt.2 (mul_nonneg hs.le (not_lt.1 h)))]
  · change (if s * y = 0 then infOf (s * x) else fin (s * x / (s * y))) = (if y = 0 then infOf x else fin (x / y))
    by_cases h : y = 0
    · rw [if_pos h, if_pos (by rw [h]; ring), infOf_mul_pos hs]
    · rw [if_neg h, if_neg (mul_ne_zero hs.ne' h), mul_div_mul_left _ _ hs.ne']

theorem infOf_scale {s : ℝ} (hs : 0 < s) (x : ℝ) : fin s * infOf x = infOf x := by
  unfold infOf
  split_ifs
  · rfl
  · exact scale_pinf hs
  · exact scale_ninf hs

theorem scale_mul {s t : ℝ} (hs : 0 < s) (ht : 0 < t) (a b : Fl) :
    (fin s * a) * (fin t * b) = fin (s * t) * (a * b) := by
  have hst := mul_pos hs ht
  rcases a with _ | _ | _ | x <;> rcases b with _ | _ | _ | y <;>
    simp only [scale_nan, scale_pinf hs, scale_ninf hs, scale_pinf ht, scale_ninf ht, fin_mul] <;>
    first
      | rfl
      | exact (scale_pinf hst).symm
      | exact (scale_ninf hst).symm
      | (change infOf (t * y) = fin (s * t) * infOf y; rw [infOf_scale hst, infOf_mul_pos ht])
      | (change infOf (-(t * y)) = fin (s * t) * infOf (-y); rw [infOf_scale hst, ← mul_neg, infOf_mul_pos ht])
      | (change infOf (s * x) = fin (s * t) * infOf x; rw [infOf_scale hst, infOf_mul_pos hs])
      | (change infOf (-(s * x)) = fin (s * t) * infOf (-x); rw [infOf_scale hst, ← mul_neg, infOf_mul_pos hs])
      | (congr 1; ring)

theorem scale_sq {s : ℝ} (hs : 0 < s) (a : Fl) : (fin s * a).sq = fin (s ^ 2) * a.sq := by
  unfold sq; rw [scale_mul hs hs, pow_two]

theorem one_scale (a : Fl) : fin 1 * a = a := by
  rcases a with _ | _ | _ | x
  · rfl
  · exact scale_pinf one_pos
  · exact scale_ninf one_pos
  · simp

theorem scale_pos {s : ℝ} (hs : 0 < s) (a : Fl) : (fin s * a).pos ↔ a.pos := by
  rcases a with _ | _ | _ | x <;> simp only [scale_nan, scale_pinf hs, scale_ninf hs, fin_mul]
  change 0 < s * x ↔ 0 < x
  exact ⟨fun h => (pos_iff_pos_of_mul_pos h).1 hs, fun h => mul_pos hs h⟩

theorem scale_isZero {s : ℝ} (hs : 0 < s) (a : Fl) : (fin s * a).isZero ↔ a.isZero := by
  rcases a with _ | _ | _ | x <;> simp only [scale_nan, scale_pinf hs, scale_ninf hs, fin_mul]
  change s * x = 0 ↔ x = 0
  simp [hs.ne']

theorem scale_sqrt {s : ℝ} (hs : 0 < s) (a : Fl) : (fin (s ^ 2) * a).sqrt = fin s * a.sqrt := by
  have h2 : 0 < s ^ 2 := by positivity
  rcases a with _ | _ | _ | x
  · rfl
  · rw [scale_pinf h2]; exact (scale_pinf hs).symm
  · rw [scale_ninf h2]; rfl
  · rw [fin_mul]
    change (if s ^ 2 * x < 0 then nan else fin (Real.sqrt (s ^ 2 * x))) = fin s * (if x < 0 then nan else fin (Real.sqrt x))
    by_cases h : x < 0
    · rw [if_pos h, if_pos (mul_neg_of_pos_of_neg h2 h)]; rfl
    · rw [if_neg h, if_neg (not_lt.2 (mul_nonneg h2.le (not_lt.1 h))), fin_mul, Real.sqrt_mul h2.le, Real.sqrt_sq hs.le]

theorem two_scale {t : ℝ} (ht : 0 < t) (c : Fl) : fin 2 * (fin t * c) = fin t * (fin 2 * c) := by
  have e1 : fin 2 * (fin t * c) = fin (2 * t) * (fin 1 * c) := by
    rw [← one_scale (fin 2), show fin 1 * fin 2 = fin 2 * fin 1 by simp, scale_mul two_pos ht]
  have e2 : fin t * (fin 2 * c) = fin (t * 2) * (fin 1 * c) := by
    rw [← one_scale (fin t), show fin 1 * fin t = fin t * fin 1 by simp, scale_mul ht two_pos]
  rw [e1, e2, mul_comm]

end Ngmix.Fl
