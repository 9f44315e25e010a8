import Verif.Model.Pixels
import Verif.Model.FitModel
import Verif.Model.PSFFlux
import Verif.Model.EM

/-!
# Specification: observations that differ only in masked pixels

A pixel is masked by a weight of zero.
-/

namespace Ngmix.Spec

open Ngmix

/-- Two images of one shape with the same values wherever the weight is positive. -/
def SameWhereUsed (w im im' : Image) : Prop :=
  im'.nrow = im.nrow ∧ im'.ncol = im.ncol ∧
    ∀ r < im.nrow, ∀ c < im.ncol, 0 < w.get r c → im'.get r c = im.get r c

/-- One pixel: same place, same error, and the same value unless it has no weight. -/
def SamePixel (p p' : Pixel) : Prop :=
  p'.u = p.u ∧ p'.v = p.v ∧ p'.area = p.area ∧ p'.ierr = p.ierr ∧ (p.ierr ≠ 0 → p'.val = p.val)

/-- Pixel by pixel. -/
def SamePixels (px px' : List Pixel) : Prop := List.Forall₂ SamePixel px px'

/-- Images of a fit: same psf, same pixels but for the values of masked ones. -/
def SameImg (i i' : Img) : Prop := i'.psf = i.psf ∧ SamePixels i.pixels i'.pixels

/-- All images of all bands. -/
def SameImgs (obs obs' : List (List Img)) : Prop := List.Forall₂ (List.Forall₂ SameImg) obs obs'

/-- Observations for a psf flux: everything is the same but image values with weight zero. -/
def SamePF (o o' : PFObs) : Prop :=
  o'.weight = o.weight ∧ o'.npixels = o.npixels ∧ o'.coords = o.coords ∧ o'.self = o.self ∧ o'.psf = o.psf ∧
    o'.image.length = o.image.length ∧ ∀ i : ℕ, o.weight[i]? ≠ some 0 → o'.image[i]? = o.image[i]?

/-- Observations for EM: the images may differ in any way, the pixels only in masked values. -/
def SameEM (o o' : EMObs) : Prop :=
  o'.jac = o.jac ∧ o'.psf = o.psf ∧
    match o.pixels, o'.pixels with
    | some px, some px' => SamePixels px px'
    | none, none => True
    | _, _ => False

end Ngmix.Spec
