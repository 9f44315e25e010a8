import Verif.Spec.FitModel
import Verif.Spec.JointPrior
import Verif.Spec.GalsimFit

/-!
# Specification of bands in another order (C109)
-/

namespace Ngmix.Spec

open Ngmix

/-- A band of a model fit: its images, its flux, and the prior for its flux. -/
structure Band where
  images : List Img
  flux : ℝ
  prior : Prior1

/-- The images of all bands. -/
def bandImages (bands : List Band) : List (List Img) := bands.map Band.images

/-- The parameters: those all bands share, then a flux for each band. -/
def bandsPars (shared : List ℝ) (bands : List Band) : List ℝ := shared ++ bands.map Band.flux

/-- A joint prior with the flux priors of the bands. -/
def bandsPrior (prior : Option JointPrior) (bands : List Band) : Option JointPrior :=
  prior.map fun p => { p with fs := bands.map Band.prior }

/-- A band of a galsim fit. -/
structure KBand where
  obs : List KObs
  flux : ℝ

end Ngmix.Spec
