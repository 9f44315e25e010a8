import Verif.Model.Pixels
import Verif.Spec.Pixels
import Mathlib.Tactic.Linarith

/-! Helper lemmas about buffer-filling loops. -/

namespace Ngmix

open Spec

/-- Generic buffer fill: each element of `l` optionally writes a value at the current index. -/
theorem foldl_fill {α β : Type} (f : α → Option β) (step : ℕ × List β → α → ℕ × List β)
    (hnone : ∀ a st, f a = none → step st a = st)
    (hsome : ∀ a b st, f a = some b → step st a = (st.1 + 1, st.2.set st.1 b))
    (l : List α) : ∀ (pre rest : List β), (l.filterMap f).length ≤ rest.length →
      l.foldl step (pre.length, pre ++ rest)
        = (pre.length + (l.filterMap f).length,
           pre ++ l.filterMap f ++ rest.drop (l.filterMap f).length) := by
  induction l with
  | nil => intro pre rest _; simp
  | cons a l ih =>
    intro pre rest h
    cases hfa : f a with
    | none =>
      rw [List.foldl_cons, hnone a _ hfa, List.filterMap_cons_none hfa]
      rw [List.filterMap_cons_none hfa] at h
      exact ih pre rest h
    | some b =>
      rw [List.filterMap_cons_some hfa] at h ⊢
      rw [List.foldl_cons, hsome a b _ hfa]
      cases rest with
      | nil => simp at h
      | cons c rest =>
        have hset : (pre ++ c :: rest).set pre.length b = (pre ++ [b]) ++ rest := by
          clear ih h
          induction pre with
          | nil => rfl
          | cons d pre ihp => simp
        have hlen : pre.length + 1 = (pre ++ [b]).length := by simp
        simp only [hset]
        rw [hlen, ih (pre ++ [b]) rest (by simpa using h)]
        simp
        omega

theorem foldl_fill_all {α β : Type} (f : α → Option β) (step : ℕ × List β → α → ℕ × List β)
    (hnone : ∀ a st, f a = none → step st a = st)
    (hsome : ∀ a b st, f a = some b → step st a = (st.1 + 1, st.2.set st.1 b))
    (l : List α) (buf : List β) (h : (l.filterMap f).length = buf.length) :
      l.foldl step (0, buf) = (buf.length, l.filterMap f) := by
  have := foldl_fill f step hnone hsome l [] buf (le_of_eq h)
  simp only [List.length_nil, List.nil_append, Nat.zero_add] at this
  rw [this, h]
  simp

theorem foldl_nested {α : Type} (step : α → ℕ × ℕ → α) (nrow ncol : ℕ) (s : α) :
    (List.range nrow).foldl (fun st r => (List.range ncol).foldl (fun st c => step st (r, c)) st) s
      = (rowMajor nrow ncol).foldl step s := by
  unfold rowMajor
  rw [List.foldl_flatMap]
  congr 1
  funext st r
  rw [List.foldl_map]

theorem rowMajor_length (nrow ncol : ℕ) : (rowMajor nrow ncol).length = nrow * ncol := by
  simp [rowMajor, List.length_flatMap]

theorem mem_rowMajor {nrow ncol : ℕ} {p : ℕ × ℕ} :
    p ∈ rowMajor nrow ncol ↔ p.1 < nrow ∧ p.2 < ncol := by
  obtain ⟨a, b⟩ := p
  simp only [rowMajor, List.mem_flatMap, List.mem_range, List.mem_map, Prod.mk.injEq]
  constructor
  · rintro ⟨r, hr, c, hc, rfl, rfl⟩; exact ⟨hr, hc⟩
  · rintro ⟨h1, h2⟩; exact ⟨a, h1, b, h2, rfl, rfl⟩

theorem countPositive_eq (w : Image) :
    countPositive w = (positiveWeight w.nrow w.ncol w.get).length := by
  unfold countPositive positiveWeight rowMajor
  rw [List.filter_flatMap, List.length_flatMap]
  congr 1
  apply List.map_congr_left
  intro r _
  rw [List.filter_map, List.length_map]
  rfl

end Ngmix
