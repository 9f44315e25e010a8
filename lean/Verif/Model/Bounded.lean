import Verif.Model.Priors

/-!
# Model of `Bounded1D`, `/repo/ngmix/priors/priors.py:572-668`, over its life
-/

namespace Ngmix

noncomputable section

/-- `set_limits`, `priors.py:591-620`: the argument is a sequence, or has no length (`none`).  Nothing is assigned when it
raises. -/
def setLimits (limits : Option (List ℝ)) : Except PyErr (ℝ × ℝ) :=
  match limits with
  | some [lo, hi] => (Prior1.mkBounded lo hi).map fun _ => (lo, hi)
  | _ => .error .value

/-- A call on a `Bounded1D`: new limits, or a sample of `n` values where pass `k` of the loop gets the draws `draws k`.
`priors.py:591-668`. -/
inductive BoundedCall
  | limits (l : Option (List ℝ))
  | sample (n : ℕ) (draws : ℕ → ℕ → List ℝ) (fuel : ℕ)

/-- What a call gives: nothing, an exception, or the sample (`none`: the loop goes on after `fuel` passes).
`priors.py:591-668`. -/
inductive BoundedOut
  | done
  | raised (e : PyErr)
  | values (l : Option (List ℝ))

/-- One call, `priors.py:591-620`, `:622-668`. -/
def boundedCall (b : ℝ × ℝ) : BoundedCall → (ℝ × ℝ) × BoundedOut
  | .limits l =>
    match setLimits l with
    | .ok b' => (b', .done)
    | .error e => (b, .raised e)
  | .sample n draws fuel => open Classical in
    (b, .values (rejLoop (fun x : ℝ => decide (x > b.1 ∧ x < b.2)) n draws fuel 0 (rejInit 0 n)))

/-- The limits after some calls.  `priors.py:591-668`. -/
def boundedRun (b : ℝ × ℝ) (calls : List BoundedCall) : ℝ × ℝ := calls.foldl (fun b c => (boundedCall b c).1) b

end

end Ngmix
