import Verif.Spec.FitModel
import Verif.Spec.PSFFlux

/-!
# Specification of observations in another order (C107)
-/

namespace Ngmix.Spec

open Ngmix

/-- The same bands in the same order, in each of them the same observations in any order. -/
def Reordered (obs obs' : List (List Img)) : Prop := List.Forall₂ List.Perm obs obs'

end Ngmix.Spec
