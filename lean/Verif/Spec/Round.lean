import Verif.Spec.GMix
import Verif.Spec.Moments
import Verif.Spec.Shape

/-!
# Specification of round versions of mixtures (C116)
-/

namespace Ngmix.Spec

open Ngmix

noncomputable section

/-- The mean squared extent along the direction `(x, y)` (row, column) of an object with these second moments. -/
def ExtentAlong (irr irc icc x y : ℝ) : ℝ := x ^ 2 * irr + 2 * x * y * irc + y ^ 2 * icc

/-- All gaussians have this centre and this shape, with any sizes. -/
def OneShape (gm : List Gauss) (row col g1 g2 : ℝ) : Prop :=
  ∀ g ∈ gm, HasShape g row col g1 g2 (g.irr + g.icc)

/-- The gaussians with norms marked as not set. -/
def NormsUnset (gm : List Gauss) : List Gauss := gm.map fun g => { g with normSet := false }

end

end Ngmix.Spec
