import Verif.Spec.FitSetup

/-!
# Specification: residuals of composite models (C121)
-/

namespace Ngmix.Spec

open Ngmix

noncomputable section

/-- Two residual vectors with weights `1 - fd` and `fd`, element by element. -/
def mixResiduals (fd : ℝ) (x y : List ℝ) : List ℝ := List.zipWith (fun a b => (1 - fd) * a + fd * b) x y

/-- `data / error` of all pixels, in the order of the residuals. -/
def weightedData (obs : List (List Img)) : List ℝ := obs.flatten.flatMap fun i => i.pixels.map fun px => px.val * px.ierr

end

end Ngmix.Spec
