import Verif.Spec.EM
import Mathlib.Analysis.SpecialFunctions.Log.Basic

/-!
# Specification: the likelihood an EM fit should raise

The values of the pixels are taken for counts; the expected counts in a pixel are the sky and what the gaussians predict.
-/

namespace Ngmix.Spec

open Ngmix

noncomputable section

/-- Expected counts in a pixel. -/
def expected (c : EMPoint) (px : Pixel) : ℝ := predicted c.conv px + c.sky

/-- Pixels of zero weight are masked, if the fit fills them. -/
def Masked (fill : Bool) (px : Pixel) : Prop := fill = true ∧ px.ierr ≤ 0

open Classical in
/-- Logarithm of the Poisson likelihood of the pixels that are not masked, up to a number that depends on them only: the
sum of `n log m` minus the total expected counts.  The total is the flux of the mixture (what falls outside of the image
counts) and the sky of all pixels, less what is expected in masked pixels. -/
def logLike (fill : Bool) (pxs : List Pixel) (c : EMPoint) : ℝ :=
  (pxs.map fun px => if Masked fill px then 0 else px.val * Real.log (expected c px)).sum -
    (Flux c.gmix + c.sky * pxs.length - (pxs.map fun px => if Masked fill px then expected c px else 0).sum)

/-- Same centres and covariances. -/
def SameShapes (gm gm' : List Gauss) : Prop :=
  List.Forall₂ (fun g g' : Gauss => g'.row = g.row ∧ g'.col = g.col ∧ g'.irr = g.irr ∧ g'.irc = g.irc ∧ g'.icc = g.icc)
    gm gm'

/-- Every gaussian that had light from a pixel still predicts something there (it is within five sigma of its new
centre). -/
def StillCovered (pxs : List Pixel) (a b : EMPoint) : Prop :=
  ∀ px ∈ pxs, 0 < px.val → List.Forall₂ (fun g g' => 0 < predicted [g] px → 0 < predicted [g'] px) a.conv b.conv

/-- No covariance was replaced: with the (single) gaussian of the psf taken away, the second moments of the light of each
component, about its old centre, have nonnegative sizes and a determinant of at least `1e-200`. -/
def NoneForced (q : Gauss) (pxs : List Pixel) (a : EMPoint) : Prop :=
  ∀ g ∈ a.conv,
    let tot : (Pixel → ℝ) → ℝ := fun f => (pxs.map fun px => f px * share a.conv a.sky [g] px).sum
    let rr := tot (fun px => (px.v - g.row) ^ 2) / tot (fun _ => 1) - q.irr
    let rc := tot (fun px => (px.v - g.row) * (px.u - g.col)) / tot (fun _ => 1) - q.irc
    let cc := tot (fun px => (px.u - g.col) ^ 2) / tot (fun _ => 1) - q.icc
    0 ≤ rr ∧ 0 ≤ cc ∧ 1e-200 ≤ rr * cc - rc ^ 2

end

end Ngmix.Spec
