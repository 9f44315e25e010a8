import Verif.Model.Metacal
import Verif.Model.PsfTarget
import Verif.Model.EM

/-!
# Model of the constructors of `/repo/ngmix/metacal/metacal.py`

What is interpolated, deconvolved and convolved when a Metacal object is made.  GalSim is external, as in
`Model/Metacal.lean`.
-/

namespace Ngmix

noncomputable section

/-- The GalSim operations used in the constructors.  `ops o`: the operations of `Model/Metacal.lean`, drawing on the pixel
grids of the observation `o`.  `interp`: `_galsim_stuff`, `metacal.py:38-59`, the `InterpolatedImage` with the wcs of the
Jacobian, which is part of `X` (`:424-434`).  `pixel`: `wcs.toWorld(galsim.Pixel(scale=1))`, `:436-446`.  `gaussian`:
`galsim.Gaussian`; the width is `none` when it is not a finite number.  `kImage`: the flux and the modes of
`_get_gauss_target_psf`, `:853-865`. -/
structure GalSimMake (O X : Type) where
  ops : MObs O X → GalSim O
  interp : Image → X → Except PyErr O
  pixel : X → Except PyErr O
  deconvolve : O → Except PyErr O
  gaussian : Option ℝ → ℝ → Except PyErr O
  kImage : O → Except PyErr (ℝ × List (ℝ × ℝ))

variable {O X : Type}

/-- What `MetacalDilatePSF.__init__` leaves, `metacal.py:99-109`. -/
structure McBase (O X : Type) where
  obs : MObs O X
  pixel : O
  imNopsf : O
  psfInt : O
  psfNopix : O

/-- `MetacalDilatePSF.__init__`, `metacal.py:99-109`, with `_set_pixel` `:436-447`, `_set_interp` `:449-453` and
`_set_data` `:386-422`.  `none`: an observation without psf. -/
def newBase (g : GalSimMake O X) : Option (MObs O X) → Except PyErr (McBase O X)
  | none => .error .value
  | some o =>
      (g.pixel o.rest).bind fun pixel =>
      (g.deconvolve pixel).bind fun pixelInv =>
      (g.interp o.image o.rest).bind fun imageInt =>
      (g.interp o.psf.image o.psf.rest).bind fun psfInt =>
      (g.deconvolve psfInt).bind fun psfIntInv =>
      ((g.ops o).convolve imageInt psfIntInv).bind fun imNopsf =>
      ((g.ops o).convolve psfInt pixelInv).map fun psfNopix => ⟨o, pixel, imNopsf, psfInt, psfNopix⟩

/-- `_get_gauss_target_psf`, `metacal.py:846-873`. -/
def gaussTarget (g : GalSimMake O X) (psf : O) (flux : ℝ) : Except PyErr O :=
  (g.kImage psf).bind fun k => (gaussTargetSigmaSq k.1 k.2).bind fun s => g.gaussian (s.map Real.sqrt) flux

/-- The four classes with their arguments.  `noise` is the noise image the generator gives for the psf image, `none`
without a generator (`metacal.py:560-566`).  `fit`: the outcome of `_do_psf_fit` up to the width of the gaussian
(Model/PsfTarget, `doPsfFit`).  `psf` of the last: `none` if it is not a `GSObject`. -/
inductive McClass (O : Type)
  | dilate
  | gauss (noise : Option (ℕ → ℕ → ℝ))
  | fitGauss (noise : Option (ℕ → ℕ → ℝ)) (fit : Except PyErr (Option ℝ))
  | analytic (psf : Option O) (noise : Option (ℕ → ℕ → ℝ))

/-- The sum of the pixels, `metacal.py:556`. -/
def imSum (im : Image) : ℝ := (imVals im).sum

/-- The constructors: `MetacalDilatePSF` `metacal.py:99-109`; `MetacalGaussPSF` `:517-521` with `_setup_psf_noise`
`:554-568`; `MetacalFitGaussPSF` `:641-645` with `:732-735`; `MetacalAnalyticPSF` `:774-779`. -/
def newMc (g : GalSimMake O X) (cls : McClass O) (obs : Option (MObs O X)) : Except PyErr (Mc O X) :=
  (newBase g obs).bind fun b =>
    let mk := fun (noise : Option (ℕ → ℕ → ℝ)) (target : Except PyErr (Except PyErr O)) =>
      (imMax b.obs.psf.image).bind fun m => target.map fun t =>
        (⟨g.ops b.obs, .round t, b.obs, b.imNopsf, noise, m⟩ : Mc O X)
    match cls with
    | .dilate => .ok ⟨g.ops b.obs, .dilating b.psfNopix b.pixel, b.obs, b.imNopsf, none, 0⟩
    -- the target is made anew at each request
    | .gauss noise => mk noise (.ok (gaussTarget g b.psfInt (imSum b.obs.psf.image)))
    | .fitGauss noise fit => mk noise
        (match noise with
          | none => .error .value
          | some _ => fit.bind fun sigma => (g.gaussian sigma (imSum b.obs.psf.image)).map .ok)
    | .analytic psf noise => mk noise
        (match psf with
          | none => .error .assertion
          | some p => .ok (.ok p))

end

end Ngmix
