import Verif.Model.PriorArrays

/-!
# What it means for an array method to agree with the method for one value
-/

namespace Ngmix.Spec

open Ngmix

/-- The array method is the scalar method at every element: it returns an array exactly when every element has a
value, and that array holds these values in order; it raises exactly what some element raises. -/
def Pointwise (scalar : ℝ → Except PyErr Fl) (array : List ℝ → Except PyErr PyNum) : Prop :=
  ∀ vals,
    (∀ ys, array vals = .ok (.arr ys) ↔ List.Forall₂ (fun v y => scalar v = .ok y) vals ys) ∧
    (∀ e, array vals = .error e ↔ ∃ v ∈ vals, scalar v = .error e)

/-- A prior built by its constructor whose scalar and array log probabilities are meant to agree: flat, two sided
error function of nonzero widths, normal and log normal of nonzero width. -/
def Agreeing : Prior1 → Prop
  | .flat _ _ => True
  | .erf2 _ wa _ wb => wa ≠ 0 ∧ wb ≠ 0
  | .normal _ sigma _ => sigma ≠ 0
  | .lognormal mean sigma _ => 0 < mean ∧ sigma ≠ 0
  | _ => False

end Ngmix.Spec
