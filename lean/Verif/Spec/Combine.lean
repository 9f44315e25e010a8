import Verif.Spec.Order
import Verif.Spec.GalsimFit

/-!
# Specification of observations measured together and apart (C112)
-/

namespace Ngmix.Spec

open Ngmix

noncomputable section

/-- The observations of two sets in each band. -/
def together {α : Type*} (obs obs' : List (List α)) : List (List α) := List.zipWith (fun a b => a ++ b) obs obs'

/-- `R` is the flux fit to all the observations, `r` and `r'` those to two parts of them, in which the templates have the
power `P` and `P'` (sum of weight times template squared).  The flux is the mean weighted by the power, it lies between the two;
chi squared is the sum of the two and of the disagreement of the fluxes. -/
def Pooled (P P' : ℝ) (r r' R : PFResult) : Prop :=
  0 ≤ P ∧ 0 ≤ P' ∧
  (P ≠ 0 → P' ≠ 0 → ∃ f f' F x x' X : ℝ, r.flux = .fin f ∧ r'.flux = .fin f' ∧ R.flux = .fin F ∧
    r.chi2per = .fin x ∧ r'.chi2per = .fin x' ∧ R.chi2per = .fin X ∧
    F = (P * f + P' * f') / (P + P') ∧ min f f' ≤ F ∧ F ≤ max f f' ∧
    X * R.dof = x * r.dof + x' * r'.dof + P * P' / (P + P') * (f - f') ^ 2) ∧
  (P ≠ 0 → P' = 0 → R.flux = r.flux) ∧
  (P = 0 → P' ≠ 0 → R.flux = r'.flux) ∧
  (P = 0 → P' = 0 → R.flags = Flags.DIV_ZERO ∧ R.flux = .fin pfPDEF)

/-- The observations with `c` times the unit-flux templates `ms` added to the images. -/
def addSource (c : ℝ) (obs : List PFObs) (ms : List (List ℝ)) : List PFObs :=
  List.zipWith (fun o m => { o with image := List.zipWith (fun y x => y + c * x) o.image m }) obs ms

end

end Ngmix.Spec
