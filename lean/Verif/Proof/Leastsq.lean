import Verif.Model.Leastsq
import Mathlib.LinearAlgebra.Matrix.NonsingularInverse

/-!
# Lemmas on matrices of floating point numbers
-/

namespace Ngmix

/-- A product with a factor that is not finite is not finite. -/
theorem Fl.mul_not_finite {x : Fl} (h : ¬ x.isFinite) (y : Fl) : ¬ (x * y).isFinite ∧ ¬ (y * x).isFinite := by
  have hi : ∀ a : ℝ, ¬ (Fl.infOf a).isFinite := by
    intro a
    unfold Fl.infOf
    split_ifs <;> simp [Fl.isFinite]
  cases x with
  | fin a => exact absurd trivial h
  | nan => cases y <;> exact ⟨id, id⟩
  | pinf => cases y with
    | fin b => exact ⟨hi b, hi b⟩
    | nan => exact ⟨id, id⟩
    | pinf => exact ⟨id, id⟩
    | ninf => exact ⟨id, id⟩
  | ninf => cases y with
    | fin b => exact ⟨hi (-b), hi (-b)⟩
    | nan => exact ⟨id, id⟩
    | pinf => exact ⟨id, id⟩
    | ninf => exact ⟨id, id⟩

/-- A number that is not finite times zero is NaN. -/
theorem Fl.mul_zero_nan {x : Fl} (h : ¬ x.isFinite) : x * .fin 0 = .nan := by
  cases x with
  | fin a => exact absurd trivial h
  | nan => rfl
  | pinf => change Fl.infOf 0 = _; simp [Fl.infOf]
  | ninf => change Fl.infOf (-0) = _; simp [Fl.infOf]

/-- A quotient by zero is not finite. -/
theorem Fl.div_zero_not_finite (x : Fl) : ¬ (x / .fin 0).isFinite := by
  cases x with
  | fin a =>
    rw [Fl.fin_div_zero]
    unfold Fl.infOf
    split_ifs <;> simp [Fl.isFinite]
  | nan => exact id
  | pinf => change ¬ (Fl.div _ _).isFinite; simp [Fl.div, Fl.isFinite]
  | ninf => change ¬ (Fl.div _ _).isFinite; simp [Fl.div, Fl.isFinite]

theorem Fl.div_nan (x : Fl) : x / .nan = .nan := by cases x <;> rfl

theorem foldl_nan {α : Type} (f : α → Fl) (l : List α) : l.foldl (fun a j => a + f j) .nan = .nan := by
  induction l with
  | nil => rfl
  | cons j l ih => simpa using ih

theorem foldl_mem_nan {α : Type} (f : α → Fl) (l : List α) (j : α) (hj : j ∈ l) (h : f j = .nan) (a : Fl) :
    l.foldl (fun a j => a + f j) a = .nan := by
  induction l generalizing a with
  | nil => simp at hj
  | cons k l ih =>
    rw [List.foldl_cons]
    rcases List.mem_cons.1 hj with rfl | hj
    · rw [h, Fl.add_nan, foldl_nan]
    · exact ih hj _

theorem foldl_fin {α : Type} (f : α → ℝ) (l : List α) (a : ℝ) :
    l.foldl (fun a j => a + Fl.fin (f j)) (.fin a) = .fin (a + (l.map f).sum) := by
  induction l generalizing a with
  | nil => simp
  | cons j l ih => rw [List.foldl_cons, Fl.fin_add, ih, List.map_cons, List.sum_cons, add_assoc]

/-- A NaN term makes the entry of a product NaN. -/
theorem flDot_nan {n : ℕ} (A B : Fin n → Fin n → Fl) (i k j : Fin n) (h : A i j * B j k = .nan) :
    flDot A B i k = .nan :=
  foldl_mem_nan (fun j => A i j * B j k) _ j (List.mem_finRange j) h _

/-- Of finite matrices it is the product. -/
theorem flDot_fin {n : ℕ} (A B : Matrix (Fin n) (Fin n) ℝ) :
    flDot (fun i j => .fin (A i j)) (fun i j => .fin (B i j)) = fun i j => .fin ((A * B) i j) := by
  funext i k
  unfold flDot
  simp only [Fl.fin_mul]
  rw [foldl_fin, zero_add, Matrix.mul_apply, ← List.ofFn_eq_map, List.sum_ofFn]

/-- A gradient that is NaN, or zero for a parameter which is not the only one, leaves a NaN in the matrix that is
inverted. -/
theorem covR_nan {n : ℕ} (grad : Fin n → Fl) (r : Fin n → Fin n → Fl) (ipvt : Fin n → Fin n)
    (hp : Function.Surjective ipvt) (p : Fin n) (h : grad p = .nan ∨ (grad p = .fin 0 ∧ 2 ≤ n)) :
    ∃ k, flDot (fun i j => covR grad r ipvt j i) (covR grad r ipvt) k k = .nan := by
  obtain ⟨j, hj⟩ := hp p
  rcases h with h | ⟨h, hn⟩
  · refine ⟨p, flDot_nan _ _ _ _ j ?_⟩
    have : covR grad r ipvt j p = .nan := by
      refine flDot_nan _ _ _ _ j ?_
      simp only [le_refl, if_true]
      rw [hj, h, Fl.div_nan, Fl.nan_mul]
    rw [this]; rfl
  · obtain ⟨k, hk⟩ : ∃ k : Fin n, k ≠ p := by
      by_cases h0 : p.val = 0
      · exact ⟨⟨1, by omega⟩, fun e => by have := congrArg Fin.val e; simp at this; omega⟩
      · exact ⟨⟨0, by omega⟩, fun e => by have := congrArg Fin.val e; simp at this; omega⟩
    refine ⟨k, flDot_nan _ _ _ _ j ?_⟩
    have : covR grad r ipvt j k = .nan := by
      refine flDot_nan _ _ _ _ j ?_
      simp only [le_refl, if_true]
      rw [hj, h, if_neg hk]
      exact Fl.mul_zero_nan (Fl.div_zero_not_finite _)
    rw [this]; rfl

end Ngmix
