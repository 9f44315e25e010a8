import Verif.Model.Bounded
import Verif.Props.Samplers

/-!
# The life of a `Bounded1D` (C45)
-/

namespace Ngmix.Props

open Ngmix

/-- C45: limits are accepted exactly if they are two numbers in increasing order; anything else raises ValueError. -/
theorem C45_limits (l : Option (List ℝ)) :
    (∀ lo hi, setLimits l = .ok (lo, hi) ↔ l = some [lo, hi] ∧ lo < hi) ∧
    (∀ e, setLimits l = .error e ↔ e = .value ∧ ∀ lo hi, l = some [lo, hi] → hi ≤ lo) := by
  have key : ∀ lo hi : ℝ, setLimits (some [lo, hi]) = if lo < hi then .ok (lo, hi) else .error .value := by
    intro lo hi
    simp only [setLimits, Prior1.mkBounded]
    by_cases h : lo < hi
    · rw [if_pos h, if_neg (by simpa using h)]; rfl
    · rw [if_neg h, if_pos (by simpa using h)]; rfl
  have bad : ∀ l : Option (List ℝ), setLimits l = .error .value → (∀ lo hi, l ≠ some [lo, hi]) →
      (∀ lo hi, setLimits l = .ok (lo, hi) ↔ l = some [lo, hi] ∧ lo < hi) ∧
      (∀ e, setLimits l = .error e ↔ e = .value ∧ ∀ lo hi, l = some [lo, hi] → hi ≤ lo) := by
    intro l h1 h2
    rw [h1]
    refine ⟨fun lo hi => ⟨fun hh => (by cases hh), fun hh => absurd hh.1 (h2 lo hi)⟩, fun e => ⟨fun hh => ?_, ?_⟩⟩
    · injection hh with hh
      exact ⟨hh.symm, fun lo hi he => absurd he (h2 lo hi)⟩
    · rintro ⟨rfl, -⟩; rfl
  match l with
  | none => exact bad _ rfl (by simp)
  | some [] => exact bad _ rfl (by simp)
  | some [a] => exact bad _ rfl (by simp)
  | some (a :: b :: c :: l) => exact bad _ rfl (by simp)
  | some [a, b] =>
    rw [key]
    by_cases h : a < b
    · rw [if_pos h]
      constructor
      · intro lo hi
        simp only [Except.ok.injEq, Prod.mk.injEq, Option.some.injEq, List.cons.injEq, and_true]
        constructor
        · rintro ⟨rfl, rfl⟩; exact ⟨⟨rfl, rfl⟩, h⟩
        · rintro ⟨⟨rfl, rfl⟩, -⟩; exact ⟨rfl, rfl⟩
      · intro e
        constructor
        · intro hh; cases hh
        · rintro ⟨-, hh⟩; exact absurd (hh a b rfl) (not_le.mpr h)
    · rw [if_neg h]
      constructor
      · intro lo hi
        constructor
        · intro hh; cases hh
        · rintro ⟨hh, hl⟩
          simp only [Option.some.injEq, List.cons.injEq, and_true] at hh
          rw [hh.1, hh.2] at h
          exact absurd hl h
      · intro e
        constructor
        · intro hh
          injection hh with hh
          refine ⟨hh.symm, fun lo hi he => ?_⟩
          simp only [Option.some.injEq, List.cons.injEq, and_true] at he
          rw [← he.1, ← he.2]
          exact not_lt.mp h
        · rintro ⟨rfl, -⟩; rfl

/-- C45: over the whole life of a `Bounded1D` its limits are in increasing order, refused limits leave the old ones, and
every sample that ends has as many values as asked for, all strictly between the limits of that time. -/
theorem C45_bounded_life (l : Option (List ℝ)) (b : ℝ × ℝ) (h : setLimits l = .ok b) (calls : List BoundedCall) :
    (boundedRun b calls).1 < (boundedRun b calls).2 ∧
    (∀ l' e, (boundedCall (boundedRun b calls) (.limits l')).2 = .raised e →
      e = .value ∧ boundedRun b (calls ++ [.limits l']) = boundedRun b calls) ∧
    (∀ lo hi, lo < hi → boundedRun b (calls ++ [.limits (some [lo, hi])]) = (lo, hi)) ∧
    ∀ n draws fuel v, (∀ k m, (draws k m).length = m) →
      (boundedCall (boundedRun b calls) (.sample n draws fuel)).2 = .values (some v) →
      v.length = n ∧ ∀ x ∈ v, (boundedRun b calls).1 < x ∧ x < (boundedRun b calls).2 := by
  have hb : b.1 < b.2 := ((C45_limits l).1 b.1 b.2 |>.mp h).2
  have hrun : (boundedRun b calls).1 < (boundedRun b calls).2 := by
    clear h
    induction calls generalizing b with
    | nil => exact hb
    | cons c cs ih =>
      simp only [boundedRun, List.foldl_cons]
      refine ih _ ?_
      cases c with
      | sample n draws fuel => exact hb
      | limits l' =>
        simp only [boundedCall]
        cases hl : setLimits l' with
        | error e => exact hb
        | ok b' => exact ((C45_limits l').1 b'.1 b'.2 |>.mp hl).2
  have happ : ∀ c, boundedRun b (calls ++ [c]) = (boundedCall (boundedRun b calls) c).1 := by
    intro c
    simp [boundedRun, List.foldl_append]
  refine ⟨hrun, ?_, ?_, ?_⟩
  · intro l' e he
    rw [happ]
    simp only [boundedCall] at he ⊢
    cases hl : setLimits l' with
    | error e' =>
      rw [hl] at he
      simp only [BoundedOut.raised.injEq] at he
      subst he
      exact ⟨((C45_limits l').2 e' |>.mp hl).1, rfl⟩
    | ok b' => rw [hl] at he; cases he
  · intro lo hi hlo
    rw [happ]
    simp only [boundedCall]
    rw [((C45_limits (some [lo, hi])).1 lo hi).mpr ⟨rfl, hlo⟩]
  · intro n draws fuel v hd hv
    simp only [boundedCall, BoundedOut.values.injEq] at hv
    exact C45_interval _ _ n draws hd fuel v hv

/-- A case: limits changed and refused, then a sample. -/
example : boundedRun (0, 1) [.limits (some [2, 1]), .limits (some [1, 3]), .limits none] = (1, 3) ∧
    setLimits (some [0, 1]) = .ok (0, 1) := by
  have h1 : setLimits (some [2, 1]) = .error .value := ((C45_limits _).2 _).mpr ⟨rfl, by
    intro lo hi h
    simp only [Option.some.injEq, List.cons.injEq, and_true] at h
    rw [← h.1, ← h.2]; norm_num⟩
  have h2 : setLimits (some [1, 3]) = .ok (1, 3) := ((C45_limits _).1 _ _).mpr ⟨rfl, by norm_num⟩
  refine ⟨?_, ((C45_limits _).1 _ _).mpr ⟨rfl, by norm_num⟩⟩
  simp only [boundedRun, List.foldl_cons, List.foldl_nil, boundedCall, h1, h2]
  rfl

end Ngmix.Props
