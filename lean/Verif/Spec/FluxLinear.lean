import Verif.Spec.FitUnit
import Verif.Spec.FitModel

/-!
# Sums over the pixels of one band (C118)
-/

namespace Ngmix.Spec

open Ngmix

noncomputable section

/-- The images of one band, each with the mixture it is compared with. -/
abbrev FluxBand := List Img × List (List Gauss)

/-- The sum over all pixels of all images of the band of some `f (model at the pixel) pixel`. -/
def FluxBand.sum (x : FluxBand) (f : ℝ → Pixel → ℝ) : ℝ :=
  ((x.1.zip x.2).map fun y => (y.1.pixels.map fun px => f (gmixEvalFast y.2 px.v px.u px.area) px).sum).sum

/-- `sum model^2 / error^2`. -/
def FluxBand.power (x : FluxBand) : ℝ := x.sum fun m px => m ^ 2 * (px.ierr * px.ierr)

/-- `sum data * model / error^2`. -/
def FluxBand.overlap (x : FluxBand) : ℝ := x.sum fun m px => px.val * m * (px.ierr * px.ierr)

/-- `sum data^2 / error^2`. -/
def FluxBand.dataPower (x : FluxBand) : ℝ := x.sum fun _ px => px.val ^ 2 * (px.ierr * px.ierr)

/-- The residuals of the band, image by image and pixel by pixel, with the model multiplied by `c`. -/
def FluxBand.residuals (c : ℝ) (x : FluxBand) : List ℝ :=
  (x.1.zip x.2).flatMap fun y => y.1.pixels.map fun px => (c * gmixEvalFast y.2 px.v px.u px.area - px.val) * px.ierr

end

end Ngmix.Spec
