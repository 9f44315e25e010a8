import Mathlib.Data.Real.Basic
import Verif.Model.Basic
import Verif.Model.Fl

/-!
# Specification vocabulary for guesses

Ranges of numbers, which columns of a guess lie in which range, and what replacing a guess by samples of the prior means.
The prior is given by its log probability `lnprob` and its sampler `sample`; nothing refers to the model of the guessers.
-/

namespace Ngmix.Spec

noncomputable section

/-- Between two numbers, in either order. -/
def Between (a b x : ℝ) : Prop := min a b ≤ x ∧ x ≤ max a b

/-- The range from 90% to 110% of a number. -/
def tenPercent (x : ℝ) : ℝ × ℝ := (0.9 * x, 1.1 * x)

/-- The range from 99% to 101% of a number. -/
def onePercent (x : ℝ) : ℝ × ℝ := (0.99 * x, 1.01 * x)

/-- The range of half width `w` about `x`. -/
def around (x w : ℝ) : ℝ × ℝ := (x - w, x + w)

/-- Each entry of a row is in its range. -/
def RowIn (bounds : List (ℝ × ℝ)) (row : List ℝ) : Prop := List.Forall₂ (fun b x => Between b.1 b.2 x) bounds row

/-- Number a list of ranges by columns from `k` on. -/
def columnsFrom (k : ℕ) : List (ℝ × ℝ) → List (ℕ × ℝ × ℝ)
  | [] => []
  | b :: bs => (k, b) :: columnsFrom (k + 1) bs

/-- `row` is `base` with the given columns replaced by numbers in the given ranges. -/
def Replaced (cols : List (ℕ × ℝ × ℝ)) (base row : List ℝ) : Prop :=
  row.length = base.length ∧
    ∀ j x, row[j]? = some x →
      (∃ c ∈ cols, c.1 = j ∧ Between c.2.1 c.2.2 x) ∨ ((∀ c ∈ cols, c.1 ≠ j) ∧ base[j]? = some x)

/-- The prior excludes a row: the log probability is minus infinity or a range error is raised. -/
def Excluded (lnprob : List ℝ → Except PyErr Fl) (row : List ℝ) : Prop :=
  lnprob row = .ok .ninf ∨ lnprob row = .error .gmixRange

/-- The prior gives a row a log probability other than minus infinity. -/
def Allowed (lnprob : List ℝ → Except PyErr Fl) (row : List ℝ) : Prop := ∃ l, lnprob row = .ok l ∧ l ≠ .ninf

/-- The random state after `k` samples. -/
def stateAfter {σ : Type} (sample : σ → List ℝ × σ) (s : σ) : ℕ → σ
  | 0 => s
  | k + 1 => (sample (stateAfter sample s k)).2

/-- The successive candidates for a row: the row itself, then the row with all but the first `keep` entries taken from
successive samples. -/
def candidate {σ : Type} (keep : ℕ) (sample : σ → List ℝ × σ) (row : List ℝ) (s : σ) : ℕ → List ℝ
  | 0 => row
  | k + 1 => row.take keep ++ (sample (stateAfter sample s k)).1.drop keep

/-- `out` is the first candidate the prior does not exclude, or the fourth replacement. -/
def FixedRow {σ : Type} (keep : ℕ) (lnprob : List ℝ → Except PyErr Fl) (sample : σ → List ℝ × σ) (row : List ℝ) (s : σ)
    (out : List ℝ) : Prop :=
  ∃ k ≤ 4, out = candidate keep sample row s k ∧ (∀ i < k, Excluded lnprob (candidate keep sample row s i)) ∧
    (k < 4 → Allowed lnprob (candidate keep sample row s k))

/-- The fluxes to use for bands some of which have no good flux: a good band has its own, a bad one a number within 10% of
the mean of the good ones. -/
def Filled (fs : List (Option ℝ)) (out : List ℝ) : Prop :=
  List.Forall₂ (fun f x => match f with
    | some y => x = y
    | none => Between (tenPercent ((fs.filterMap id).sum / ((fs.filterMap id).length : ℝ))).1
        (tenPercent ((fs.filterMap id).sum / ((fs.filterMap id).length : ℝ))).2 x) fs out

end

end Ngmix.Spec
