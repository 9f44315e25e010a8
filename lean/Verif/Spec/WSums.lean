import Verif.Model.WSums
import Mathlib.Analysis.Complex.Basic

/-!
# Specification vocabulary for weighted moments and apertures
-/

namespace Ngmix.Spec

open Ngmix

noncomputable section

/-- The position of a pixel relative to a centre as a complex number, `u` real, `v` imaginary. -/
def offset (vcen ucen : ℝ) (px : Pixel) : ℂ := ⟨px.u - ucen, px.v - vcen⟩

/-- The moments by number: position, spin 2, size, flux, third order (spin 1 and 3), fourth order (spin 0, 2 and 4) and the
radial moments of order 6 and 8. -/
def momentOf (vcen ucen : ℝ) (px : Pixel) (i : ℕ) : ℝ :=
  let z := offset vcen ucen px
  let r : ℝ := ‖z‖
  match i with
  | 0 => px.v
  | 1 => px.u
  | 2 => (z ^ 2).re
  | 3 => (z ^ 2).im
  | 4 => r ^ 2
  | 5 => 1
  | 6 => ((r ^ 2 : ℝ) * z).re
  | 7 => ((r ^ 2 : ℝ) * z).im
  | 8 => (z ^ 3).re
  | 9 => (z ^ 3).im
  | 10 => r ^ 4
  | 11 => ((r ^ 2 : ℝ) * z ^ 2).re
  | 12 => ((r ^ 2 : ℝ) * z ^ 2).im
  | 13 => (z ^ 4).re
  | 14 => (z ^ 4).im
  | 15 => r ^ 6
  | 16 => r ^ 8
  | _ => 0

/-- The pixels nearer to the centre than `maxrad`. -/
def within (vcen ucen maxrad2 : ℝ) (pixels : List Pixel) : List Pixel :=
  open Classical in pixels.filter fun px => decide (‖offset vcen ucen px‖ ^ 2 < maxrad2)

/-- sum over pixels -/
def pixSum (pixels : List Pixel) (f : Pixel → ℝ) : ℝ := (pixels.map f).sum

/-- The same pixels with other values. -/
def withVals (f : Pixel → ℝ) (pixels : List Pixel) : List Pixel := pixels.map fun px => { px with val := f px }

/-- The record `r` is `start` plus the weighted sums over the pixels, `W` being the weight of a pixel. -/
structure AddedSums (n : ℕ) (vcen ucen : ℝ) (W : Pixel → ℝ) (pixels : List Pixel) (start r : WAcc) : Prop where
  wsum : r.wsum = start.wsum + pixSum pixels W
  sums : ∀ i < n, r.sums i = start.sums i + pixSum pixels fun px => W px * px.val * momentOf vcen ucen px i
  cov : ∀ i < n, ∀ j < n, r.cov i j = start.cov i j + pixSum pixels fun px =>
    (W px * momentOf vcen ucen px i) * (W px * momentOf vcen ucen px j) * (1 / px.ierr ^ 2)

/-- Apertures: the flux of a gaussian of flux `p` and covariance `M` (given by its entries) seen through the weight
`exp(-r^2/(2 s2))` centred on it. -/
def apertureOf (s2 : ℝ) (g : Gauss) : ℝ :=
  g.p * (s2 / Real.sqrt ((g.irr + s2) * (g.icc + s2) - g.irc ^ 2))

end

end Ngmix.Spec

namespace Ngmix.Spec

open Ngmix

noncomputable section

/-- The round gaussian of peak one. -/
def roundWeight (sigma : ℝ) (px : Pixel) : ℝ := Real.exp (-((px.v ^ 2 + px.u ^ 2) / (2 * sigma ^ 2)))

/-- Weighted moment number `i` of an image about the origin, with the round weight of peak one cut at 100 sigma. -/
def gMoment (sigma : ℝ) (pixels : List Pixel) (i : ℕ) : ℝ :=
  pixSum (within 0 0 ((100 * sigma) ^ 2) pixels) fun px => roundWeight sigma px * px.val * momentOf 0 0 px i

/-- Covariance of moments `i` and `j` for independent pixels of variance `1 / ierr ^ 2`. -/
def gMomentCov (sigma : ℝ) (pixels : List Pixel) (i j : ℕ) : ℝ :=
  pixSum (within 0 0 ((100 * sigma) ^ 2) pixels) fun px =>
    (roundWeight sigma px * momentOf 0 0 px i) * (roundWeight sigma px * momentOf 0 0 px j) * (1 / px.ierr ^ 2)

end

end Ngmix.Spec
