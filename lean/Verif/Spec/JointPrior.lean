import Verif.Model.JointPrior

/-!
# Specification of the joint priors: one prior per parameter, in the documented parameter order
-/

namespace Ngmix.Spec

open Ngmix

/-- The parameters of the classes are
`cen1, cen2, g1, g2, T, F...` (simple), `..., T, logTratio, fracdev, F...` (bd), `..., T, fracdev, F...` (bdf),
`..., r50, nu, F...` (spergel), `..., T1, T2, ..., F1, F2, ...` (coellip, one prior for all the sizes and one for
all the fluxes).  `layout` lists the priors of the parameters from the fifth on. -/
def layout (p : JointPrior) : List Prior1 :=
  match p.cls with
  | .coellip n => (p.mids.flatMap fun T => List.replicate n T) ++ p.fs.flatMap fun F => List.replicate n F
  | _ => p.mids ++ p.fs

/-- The object has the attributes its class has. -/
def Shaped (p : JointPrior) : Prop :=
  match p.cls with
  | .simple => p.mids.length = 1
  | .bd => p.mids.length = 3
  | .bdf => p.mids.length = 2
  | .spergel => p.mids.length = 2
  | .coellip _ => p.mids.length = 1 ∧ p.fs.length = 1

/-- A one dimensional prior as returned by its constructor. -/
def Constructed : Prior1 → Prop
  | .normal _ sigma _ => sigma ≠ 0
  | .lognormal mean _ _ => 0 < mean
  | .trunc _ sigma _ _ => sigma ≠ 0
  | _ => True

/-- A shape prior as returned by its constructor. -/
def ConstructedG : PriorG → Prop
  | .ba sigma _ => sigma ≠ 0
  | _ => True

/-- A centre prior as returned by its constructor. -/
def ConstructedCen (p : CenPrior) : Prop := p.sigma1 ≠ 0 ∧ p.sigma2 ≠ 0

end Ngmix.Spec
