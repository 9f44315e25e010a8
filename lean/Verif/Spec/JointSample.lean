import Verif.Spec.SampleLaw
import Verif.Spec.JointPrior
import Verif.Model.JointDraw

/-! # Specification: samples of the joint priors -/

namespace Ngmix.Spec

open Ngmix

/-- The rows of what a sampler of a joint prior returns. -/
def rowsOf : JSample → List (List ℝ)
  | .one x => [x]
  | .many l => l

/-- Asked for one set of parameters it returns a row, asked for `n` an array of `n` rows. -/
def ShapedRows (nrand : Option ℕ) : JSample → Prop
  | .one _ => nrand = none
  | .many l => nrand = some l.length

/-- A call returns these rows, each with `k` parameters, in the shape asked for. -/
def ReturnsRows {k : ℕ} (nrand : Option ℕ) (r : Except PyErr JSample) (l : List (Fin k → ℝ)) : Prop :=
  ∃ v, r = .ok v ∧ ShapedRows nrand v ∧ rowsOf v = l.map List.ofFn

/-- A sampler that, when it returns, returns an array with the number of values asked for. -/
def Sized {Ω : Type} (n : ℕ) (r : Ω → Except PyErr Sample) : Prop := ∀ ω v, r ω = .ok v → ShapedAs (some n) v

/-- The same for pairs. -/
def Sized2 {Ω : Type} (n : ℕ) (r : Ω → Except PyErr Sample2) : Prop := ∀ ω v, r ω = .ok v → ShapedAs2 (some n) v

end Ngmix.Spec
