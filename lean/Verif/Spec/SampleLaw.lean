import Verif.Model.SampleDraw
import Mathlib.Probability.ProductMeasure
import Mathlib.Probability.ConditionalProbability
import Mathlib.Probability.Distributions.Gaussian.Real

/-!
# Specification: what it means to be a sample of a prior

The generator is a sequence of independent deviates.  A law is a probability measure; the law of a prior has a density
proportional to the exponential of its log probability.
-/

namespace Ngmix.Spec

open Ngmix MeasureTheory

noncomputable section

variable {α β Ω : Type}

/-- Uniform deviates of `[0, 1)`. -/
def uniform01 : Measure ℝ := volume.restrict (Set.Ico 0 1)

/-- Standard normal deviates. -/
def stdNormal : Measure ℝ := ProbabilityTheory.gaussianReal 0 1

/-- Sequences of independent deviates of law `μ`. -/
def stream [MeasurableSpace α] (μ : Measure α) : Measure (ℕ → α) := Measure.infinitePi fun _ => μ

/-- The first `n` deviates. -/
def firsts (ω : ℕ → α) (n : ℕ) : List α := (List.range n).map ω

/-- Where batch `k` of a rejection loop for `n` values starts in the sequence of trials: where the one before ended, which
asked for as many trials as values were missing. -/
def batchStart (accept : α → Bool) (n : ℕ) (ω : ℕ → α) : ℕ → ℕ
  | 0 => 0
  | k + 1 => batchStart accept n ω k + (n - ((firsts ω (batchStart accept n ω k)).filter accept).length)

/-- The batches of a rejection loop: consecutive parts of the sequence of trials. -/
def batches (accept : α → Bool) (n : ℕ) (ω : ℕ → α) (k m : ℕ) : List α :=
  (List.range m).map fun i => ω (batchStart accept n ω k + i)

/-- What is computed from the deviates is determined by them and is, with probability one, `n` independent values of law `ν`.
(All sets `univ`: there are `n` values with probability one.) -/
def IndepOfLaw [MeasurableSpace Ω] [MeasurableSpace β] (P : Measure Ω) (out : Ω → List β → Prop) (n : ℕ) (ν : Measure β) :
    Prop :=
  (∀ ω l l', out ω l → out ω l' → l = l') ∧
  ∀ As : List (Set β), As.length = n → (∀ A ∈ As, MeasurableSet A) →
    MeasurableSet {ω | ∃ l, out ω l ∧ List.Forall₂ (fun x A => x ∈ A) l As} ∧
    P {ω | ∃ l, out ω l ∧ List.Forall₂ (fun x A => x ∈ A) l As} = (As.map ν).prod

/-- The exponential of a log probability; zero where it is minus infinity or the value is refused. -/
def densityOf (lnprob : α → Except PyErr Fl) (x : α) : ENNReal :=
  match lnprob x with
  | .ok (.fin v) => ENNReal.ofReal (Real.exp v)
  | _ => 0

/-- A log probability with everything outside a set refused. -/
def cutTo (S : Set α) (lnprob : α → Except PyErr Fl) (x : α) : Except PyErr Fl :=
  open Classical in if x ∈ S then lnprob x else .error .gmixRange

/-- The law of a prior: total probability one, and a density proportional to the exponential of the log probability. -/
def IsLawOf [MeasureSpace α] (lnprob : α → Except PyErr Fl) (ν : Measure α) : Prop :=
  IsProbabilityMeasure ν ∧ ∃ c : ℝ, 0 < c ∧ ν = volume.withDensity fun x => ENNReal.ofReal c * densityOf lnprob x

/-- The values in what a sampler returns. -/
def valuesOf : Sample → List ℝ
  | .one x => [x]
  | .many l => l

/-- The values in what a sampler of pairs returns. -/
def valuesOf2 : Sample2 → List (ℝ × ℝ)
  | .one x => [x]
  | .many l => l

/-- A sampler asked for one value returns a number, asked for `n` an array. -/
def ShapedAs (nrand : Option ℕ) : Sample → Prop
  | .one _ => nrand = none
  | .many l => nrand = some l.length

/-- The same for pairs. -/
def ShapedAs2 (nrand : Option ℕ) : Sample2 → Prop
  | .one _ => nrand = none
  | .many l => nrand = some l.length

/-- A call returns these values, in the shape asked for. -/
def Returns (nrand : Option ℕ) (r : Except PyErr Sample) (l : List ℝ) : Prop :=
  ∃ v, r = .ok v ∧ ShapedAs nrand v ∧ valuesOf v = l

/-- The same for pairs. -/
def Returns2 (nrand : Option ℕ) (r : Except PyErr Sample2) (l : List (ℝ × ℝ)) : Prop :=
  ∃ v, r = .ok v ∧ ShapedAs2 nrand v ∧ valuesOf2 v = l

/-- With probability one a sampler returns as many independent values as asked for (one, if no number is given), with the law
of the prior. -/
def Samples [MeasurableSpace Ω] [MeasureSpace β] (P : Measure Ω) (out : Ω → List β → Prop) (nrand : Option ℕ)
    (lnprob : β → Except PyErr Fl) : Prop :=
  ∃ ν, IsLawOf lnprob ν ∧ IndepOfLaw P out (nrand.getD 1) ν

end

end Ngmix.Spec
