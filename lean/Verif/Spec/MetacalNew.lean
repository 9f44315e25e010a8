import Verif.Model.MetacalNew
import Verif.Spec.Metacal
import Mathlib.Analysis.SpecialFunctions.Trigonometric.Basic
import Mathlib.Analysis.SpecialFunctions.Exp

/-!
# What the GalSim operations mean

A profile has a Fourier transform, a function of the wave vector.  The operations are GalSim's: convolution multiplies
transforms, deconvolution inverts them where they do not vanish, a dilation by `d` keeps the flux and stretches the
profile, so that the transform at `k` is the old one at `d k`, and a shear moves the points of the profile by the
symmetric matrix of determinant one with the reduced shear `g`.
-/

namespace Ngmix.Spec

open Ngmix

noncomputable section

variable {O X : Type}

/-- Wave vectors `(kx, ky)`. -/
abbrev Wave := ℝ × ℝ

/-- The matrix of a shear, applied to a wave vector. -/
def shearWave (g1 g2 : ℝ) (k : Wave) : Wave :=
  (((1 + g1) * k.1 + g2 * k.2) / Real.sqrt (1 - g1 ^ 2 - g2 ^ 2),
    (g2 * k.1 + (1 - g1) * k.2) / Real.sqrt (1 - g1 ^ 2 - g2 ^ 2))

/-- A wave vector made longer. -/
def longer (d : ℝ) (k : Wave) : Wave := (d * k.1, d * k.2)

/-- `F` gives the Fourier transform of every profile. -/
structure Transforms (g : GalSimMake O X) (F : O → Wave → ℂ) : Prop where
  convolve : ∀ o a b c, (g.ops o).convolve a b = .ok c → ∀ k, F c k = F a k * F b k
  deconvolve : ∀ a c, g.deconvolve a = .ok c → ∀ k, F a k ≠ 0 → F c k = (F a k)⁻¹
  dilate : ∀ o a d c, (g.ops o).dilate a d = .ok c → ∀ k, F c k = F a (longer d k)
  shear : ∀ o a g1 g2 c, (g.ops o).shear a g1 g2 = .ok c → ∀ k, F c k = F a (shearWave g1 g2 k)

/-- The profiles GalSim interpolates from the image and from the psf image of an observation, and its pixel. -/
structure Seen (g : GalSimMake O X) (o : MObs O X) (image psf pixel : O) : Prop where
  image : g.interp o.image o.rest = .ok image
  psf : g.interp o.psf.image o.psf.rest = .ok psf
  pixel : g.pixel o.rest = .ok pixel

/-- The growth of the reconvolution psf. -/
def growth (g1 g2 : ℝ) : ℝ := 1 + 2 * shearSize g1 g2

/-- What the classes with a round psf dilate. -/
def roundTarget (g : GalSimMake O X) (o : MObs O X) (psf : O) : McClass O → Except PyErr O
  | .dilate => .error .type
  | .gauss _ => gaussTarget g psf (imSum o.psf.image)
  | .fitGauss _ fit => fit.bind fun sigma => g.gaussian sigma (imSum o.psf.image)
  | .analytic p _ => match p with
      | some t => .ok t
      | none => .error .assertion

/-- The transform of the reconvolution psf at `k`: for MetacalDilatePSF the psf without its pixel, grown, (sheared), and
with the pixel; for the others the target, grown. -/
def IsTarget (g : GalSimMake O X) (F : O → Wave → ℂ) (o : MObs O X) (psf pixel : O) (cls : McClass O) (g1 g2 : ℝ)
    (sheared : Bool) (t : O) : Prop :=
  match cls with
  | .dilate => ∀ k,
      let k' := longer (growth g1 g2) (if sheared then shearWave g1 g2 k else k)
      F pixel k' ≠ 0 → F t k = F psf k' / F pixel k' * F pixel k
  | _ => sheared = false ∧ ∃ t0, roundTarget g o psf cls = .ok t0 ∧ ∀ k, F t k = F t0 (longer (growth g1 g2) k)

/-- The noise added to the image of the new psf: none by MetacalDilatePSF. -/
def psfNoiseOf : McClass O → ℕ → ℕ → ℝ
  | .dilate => fun _ _ => 0
  | .gauss n => n.getD fun _ _ => 0
  | .fitGauss n _ => n.getD fun _ _ => 0
  | .analytic _ n => n.getD fun _ _ => 0

/-- The image is drawn from a profile that is the galaxy (with transform `G`), sheared by `(g1, g2)` or not, convolved with
the reconvolution psf `t`.  Modes at which the psf of the observation has no power are not restricted. -/
def ShowsGalaxy (g : GalSimMake O X) (F : O → Wave → ℂ) (o : MObs O X) (psf : O) (G : Wave → ℂ) (g1 g2 : ℝ)
    (sheared : Bool) (t : O) (ob : MObs O X) : Prop :=
  ∃ profile, (g.ops o).drawIm profile = .ok ob.image.get ∧ ∀ k,
    let k' := if sheared then shearWave g1 g2 k else k
    F psf k' ≠ 0 → F profile k = G k' * F t k

/-- The psf image is drawn from `t`, with the noise of the class. -/
def ShowsPsf (g : GalSimMake O X) (o : MObs O X) (cls : McClass O) (t : O) (ob : MObs O X) : Prop :=
  ∃ im, (g.ops o).drawPsf t = .ok im ∧ ∀ r c, ob.psf.image.get r c = im r c + psfNoiseOf cls r c

/-- The transform of a unit point at `d`: a profile moved by `d` has its transform multiplied by it. -/
def phase (d : ℝ × ℝ) (k : Wave) : ℂ := Complex.exp (-Complex.I * ((k.1 * d.1 + k.2 * d.2 : ℝ) : ℂ))

end

end Ngmix.Spec
