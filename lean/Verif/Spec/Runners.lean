import Verif.Model.Basic
import Mathlib.Data.Nat.Notation

/-! Specification of retry loops, independent of how they are coded. -/

namespace Ngmix.Spec

/-- `out` (with final state `w'`) is the outcome of at most `ntry` attempts starting in state `w`:
some `k` attempts were made, `1 ≤ k ≤ ntry`; all but the last gave a result that was not a success;
the last gave `out`; and the attempts ended before `ntry` only because the last one succeeded or
raised. -/
def RetryOutcome {W R : Type} (attempt : W → W × Except PyErr R) (success : R → Prop) (ntry : ℕ)
    (w w' : W) (out : Except PyErr R) : Prop :=
  ∃ k, k + 1 ≤ ntry ∧ ∃ ws : ℕ → W, ws 0 = w ∧
    (∀ i < k, ∃ r, attempt (ws i) = (ws (i + 1), .ok r) ∧ ¬ success r) ∧
    attempt (ws k) = (w', out) ∧
    ((∃ r, out = .ok r ∧ ¬ success r) → k + 1 = ntry)

end Ngmix.Spec
