import Verif.Model.Pixels
import Verif.Model.FastExp
import Verif.Model.Moments
import Verif.Model.Jacobian
import Verif.Model.MomResult
import Mathlib.Analysis.SpecialFunctions.Complex.Circle
import Mathlib.Algebra.BigOperators.Group.Finset.Basic

/-!
# Model of `/repo/ngmix/prepsfmom.py`

Arrays in Fourier space are functions of the two array indices; an array restricted by a boolean mask is the function
together with the mask, sums over it are sums over the modes where the mask is true.  `scipy.fft.fftn` is the discrete
Fourier transform (its rounding is not modelled).
-/

namespace Ngmix

noncomputable section

open Classical

/-! ## Padding and apodization -/

/-- `prepsfmom.py:403-423` `_zero_pad_image`.  `np.pad` uses the same widths on both axes and raises ValueError when one is
negative. -/
def zeroPadImage (im : Image) (targetDim : ℤ) : Except PyErr (Image × ℤ × ℤ) :=
  let twice := targetDim - im.nrow
  let before := twice / 2
  let after := if twice % 2 = 0 then before else before + 1
  if before < 0 ∨ after < 0 then .error .value
  else
    let b := before.toNat
    let a := after.toNat
    .ok (⟨b + im.nrow + a, b + im.ncol + a, fun r c =>
      if (b ≤ r ∧ r < b + im.nrow) ∧ (b ≤ c ∧ c < b + im.ncol) then im.get (r - b) (c - b) else 0⟩, before, after)

/-- `prepsfmom.py:368-384` `_ap_kern_kern`. -/
def apKern (x m h : ℝ) : ℝ :=
  let y := (x - m) / h + 3
  if y < -3 then 0
  else if y > 3 then 1
  else -5 * y ^ 7 / 69984 + 7 * y ^ 5 / 2592 - 35 * y ^ 3 / 864 + 35 * y / 96 + 1 / 2

/-- `prepsfmom.py:389`: `int(6*ap_rad + 0.5)`. -/
def apRange (apRad : ℝ) : ℕ := (pyInt (6 * apRad + 0.5)).toNat

/-- One step of `prepsfmom.py:392-395`: the rows `y` and `ny-1-y` are multiplied (the loop over `x` covers the row). -/
def apRowStep (apRad : ℝ) (ny : ℕ) (mask : ℕ → ℕ → ℝ) (y : ℕ) : ℕ → ℕ → ℝ :=
  let k := apKern y (apRange apRad) apRad
  let m1 : ℕ → ℕ → ℝ := fun r c => if r = y then mask r c * k else mask r c
  fun r c => if r = ny - 1 - y then m1 r c * k else m1 r c

/-- One step of `prepsfmom.py:397-400`, the loop over `x`, all rows at once. -/
def apColStep (apRad : ℝ) (nx : ℕ) (mask : ℕ → ℕ → ℝ) (x : ℕ) : ℕ → ℕ → ℝ :=
  let k := apKern x (apRange apRad) apRad
  let m1 : ℕ → ℕ → ℝ := fun r c => if c = x then mask r c * k else mask r c
  fun r c => if c = nx - 1 - x then m1 r c * k else m1 r c

/-- `prepsfmom.py:387-400` `_build_square_apodization_mask` on a mask of ones. -/
def apMask (apRad : ℝ) (ny nx : ℕ) : ℕ → ℕ → ℝ :=
  let m := (List.range (min (apRange apRad + 1) ny)).foldl (apRowStep apRad ny) (fun _ _ => 1)
  (List.range (min (apRange apRad + 1) nx)).foldl (apColStep apRad nx) m

/-- `prepsfmom.py:476-479`. -/
def apodize (apRad : ℝ) (im : Image) : Image :=
  if apRad > 0 then { im with get := fun r c => im.get r c * apMask apRad im.nrow im.ncol r c } else im

/-! ## Fourier transforms -/

/-- `scipy.fft.fftfreq(n)[j]`.  `prepsfmom.py:606, 757`. -/
def fftfreq (n j : ℕ) : ℝ := if j < (n + 1) / 2 then (j : ℝ) / n else ((j : ℝ) - n) / n

/-- `scipy.fft.fftn` of an `n` by `n` image.  `prepsfmom.py:482`. -/
def dft2 (n : ℕ) (im : ℕ → ℕ → ℝ) (kr kc : ℕ) : ℂ :=
  ∑ x ∈ Finset.range n ×ˢ Finset.range n,
    (im x.1 x.2 : ℂ) * Complex.exp (-(2 * Real.pi * Complex.I * (((kr : ℝ) * x.1 + (kc : ℝ) * x.2) / n : ℝ)))

/-- `prepsfmom.py:426-451` `_compute_cen_phase_shift` and `_compute_cen_phase_shift_numba`, one element. -/
def cenPhase (n : ℕ) (row col : ℝ) (kr kc : ℕ) : ℂ :=
  let kx := fftfreq n kc * (2.0 * Real.pi * col)
  let ky := fftfreq n kr * (2.0 * Real.pi * row)
  ((Real.cos kx : ℂ) + Complex.I * (Real.sin kx : ℂ)) * ((Real.cos ky : ℂ) + Complex.I * (Real.sin ky : ℂ))

/-- A padded and transformed image: its size along both axes, the transform, the centre in the padded image. 
`prepsfmom.py:470-485`. -/
structure KIm where
  nrow : ℕ
  ncol : ℕ
  k : ℕ → ℕ → ℂ
  row : ℝ
  col : ℝ

/-- `prepsfmom.py:471-485` `_zero_pad_and_compute_fft_impl`.  The transform is only stated for a square padded image: the
code has no use for another one (see `measure`). -/
def padAndFft (im : Image) (cenRow cenCol : ℝ) (targetDim : ℤ) (apRad : ℝ) : Except PyErr KIm :=
  (zeroPadImage (apodize apRad im) targetDim).map fun p =>
    ⟨p.1.nrow, p.1.ncol, dft2 p.1.nrow p.1.get, cenRow + p.2.1, cenCol + p.2.1⟩

/-- `np.sinc`.  `prepsfmom.py:488-496`. -/
def npSinc (x : ℝ) : ℝ := if x = 0 then 1 else Real.sin (Real.pi * x) / (Real.pi * x)

/-- `prepsfmom.py:488-496` `_pixel_fft`. -/
def pixelFft (n kr kc : ℕ) : ℝ := npSinc (fftfreq n kc) * npSinc (fftfreq n kr)

/-! ## Kernels -/

/-- The dictionary of kernels, `prepsfmom.py:699-707`. -/
structure Kernels where
  msk : ℕ → ℕ → Prop
  fkf : ℕ → ℕ → ℝ
  fkr : ℕ → ℕ → ℝ
  fkp : ℕ → ℕ → ℝ
  fkc : ℕ → ℕ → ℝ
  nrm : ℝ
  fk00 : ℝ

/-- The modes of an `n` by `n` transform where the mask is true.  `prepsfmom.py:287-291`. -/
def modes (n : ℕ) (msk : ℕ → ℕ → Prop) : Finset (ℕ × ℕ) :=
  (Finset.range n ×ˢ Finset.range n).filter fun k => msk k.1 k.2

/-- `prepsfmom.py:606-610` and `:760-764`, `fv`: `Atinv` is the transposed inverse of `[[dvdrow, dvdcol], [dudrow, dudcol]]`. -/
def freqV (J : Jacobian) (n kr kc : ℕ) : ℝ :=
  let fx := fftfreq n kc * (2.0 * Real.pi)
  let fy := fftfreq n kr * (2.0 * Real.pi)
  let det := J.dvdrow * J.dudcol - J.dvdcol * J.dudrow
  J.dudcol / det * fy + -J.dudrow / det * fx

/-- `prepsfmom.py:606-611` and `:760-765`, `fu`. -/
def freqU (J : Jacobian) (n kr kc : ℕ) : ℝ :=
  let fx := fftfreq n kc * (2.0 * Real.pi)
  let fy := fftfreq n kr * (2.0 * Real.pi)
  let det := J.dvdrow * J.dudcol - J.dvdcol * J.dudrow
  (-J.dvdcol) / det * fy + J.dvdrow / det * fx

/-- `fmag2`.  `prepsfmom.py:622`. -/
def freqSq (J : Jacobian) (n kr kc : ℕ) : ℝ := freqU J n kr kc ^ 2 + freqV J n kr kc ^ 2

/-- `np.abs(np.linalg.det(Atinv))`.  `prepsfmom.py:651`. -/
def detAtinv (J : Jacobian) : ℝ := |1 / (J.dvdrow * J.dudcol - J.dvdcol * J.dudrow)|

/-- `prepsfmom.py:548-554` `_get_fwhm_smooth_profile`, one mode. -/
def smoothProfile (fwhmSmooth f2 : ℝ) : ℝ :=
  let s := fwhmToSigma fwhmSmooth
  let chi := s * s / 2 * f2
  if chi < fastexpMaxChi2 / 2 ∧ chi ≥ 0 then fexp (-chi) else 0

/-- The smoothing factor of a mode: one without smoothing (`prepsfmom.py:683`, `:808`). -/
def smoothFactor (fwhmSmooth f2 : ℝ) : ℝ := if fwhmSmooth > 0 then smoothProfile fwhmSmooth f2 else 1

/-- `np.sum(fkf)/dim/dim`.  `prepsfmom.py:662`. -/
def kernelNorm (n : ℕ) (msk : ℕ → ℕ → Prop) (fkf : ℕ → ℕ → ℝ) : ℝ := (∑ k ∈ modes n msk, fkf k.1 k.2) / n / n

/-- `prepsfmom.py:594-707` `_ksigma_kernels_impl`.  A singular Jacobian raises LinAlgError, zero size ZeroDivisionError. -/
def ksigmaKernels (dim : ℕ) (size : ℝ) (J : Jacobian) (fwhmSmooth : ℝ) : Except PyErr Kernels :=
  if J.dvdrow * J.dudcol - J.dvdcol * J.dudrow = 0 then .error .linAlg
  else
    let sigma := fwhmToSigma size
    if sigma ^ 2 = 0 then .error .zeroDiv
    else
      let kmax2 := 2 * 4 / sigma ^ 2
      let f2 := freqSq J dim
      let msk : ℕ → ℕ → Prop := fun r c => f2 r c < kmax2
      let karg : ℕ → ℕ → ℝ := fun r c => 1.0 - f2 r c / kmax2
      let maxRealVal := 4 / (sigma ^ 2 * 10 * Real.pi)
      let knrm := detAtinv J / maxRealVal
      let fkf : ℕ → ℕ → ℝ := fun r c => karg r c ^ 4 * knrm
      let nrm := kernelNorm dim msk fkf
      if ¬ |nrm - 1.0| ≤ 1e-5 then .error .fftRange
      else
        let sm : ℕ → ℕ → ℝ := fun r c => smoothFactor fwhmSmooth (f2 r c)
        let two : ℕ → ℕ → ℝ := fun r c => (-knrm * 8.0 / kmax2) * karg r c ^ 3 * sm r c
        let four : ℕ → ℕ → ℝ := fun r c => (knrm * 48 / kmax2 ^ 2) * karg r c ^ 2 * sm r c
        .ok {
          msk := msk
          fkf := fun r c => fkf r c * sm r c
          fkr := fun r c => -2 * two r c - f2 r c * four r c
          fkp := fun r c => -(freqU J dim r c ^ 2 - freqV J dim r c ^ 2) * four r c
          fkc := fun r c => -2 * freqU J dim r c * freqV J dim r c * four r c
          nrm := nrm
          fk00 := knrm }

/-- `prepsfmom.py:747-842` `_gauss_kernels_impl`. -/
def gaussKernels (dim : ℕ) (size : ℝ) (J : Jacobian) (fwhmSmooth : ℝ) : Except PyErr Kernels :=
  if J.dvdrow * J.dudcol - J.dvdcol * J.dudrow = 0 then .error .linAlg
  else
    let sigma := fwhmToSigma size
    let sigma2 := sigma * sigma
    let f2 := freqSq J dim
    let expFac := sigma2 / 2
    let chi : ℕ → ℕ → ℝ := fun r c => expFac * f2 r c
    let msk : ℕ → ℕ → Prop := fun r c => chi r c < fastexpMaxChi2 / 2 ∧ chi r c ≥ 0
    let knrm := detAtinv J * Real.pi * 2 * sigma2
    let fkf : ℕ → ℕ → ℝ := fun r c => fexp (-chi r c) * knrm
    let nrm := kernelNorm dim msk fkf
    if ¬ |nrm - 1.0| ≤ 1e-5 then .error .fftRange
    else
      let fkf' : ℕ → ℕ → ℝ := fun r c => fkf r c * smoothFactor fwhmSmooth (f2 r c)
      let fkfac := 2 * expFac
      let fkfac2 := 4 * expFac ^ 2
      .ok {
        msk := msk
        fkf := fkf'
        fkr := fun r c => (2 * fkfac - fkfac2 * f2 r c) * fkf' r c
        fkp := fun r c => fkfac2 * (freqV J dim r c ^ 2 - freqU J dim r c ^ 2) * fkf' r c
        fkc := fun r c => -2 * fkfac2 * freqU J dim r c * freqV J dim r c * fkf' r c
        nrm := nrm
        fk00 := knrm }

/-! ## Measurement -/

/-- `prepsfmom.py:528-542`, the psf amplitude used for one mode. -/
def psfUsed (kpsf : ℂ) (maxAmp : ℝ) : ℂ :=
  let minAmp := 1e-5 * maxAmp
  if ‖kpsf‖ ≤ minAmp ∧ ‖kpsf‖ ≠ 0 then kpsf / (‖kpsf‖ : ℂ) * (minAmp : ℂ)
  else if ‖kpsf‖ ≤ minAmp ∧ ‖kpsf‖ = 0 then (minAmp : ℂ)
  else kpsf

/-- `prepsfmom.py:540-545`: the mask returned, one mode. -/
def truncMask (kpsf : ℂ) (maxAmp : ℝ) : Prop := ‖kpsf‖ ≤ 1e-5 * maxAmp ∧ ‖kpsf‖ = 0

/-- The moments `[nan, nan, mp, mc, mr, mf]` and their covariance.  `prepsfmom.py:318-366`. -/
structure KMoments where
  mp : ℝ
  mc : ℝ
  mr : ℝ
  mf : ℝ
  cov : ℕ → ℕ → ℝ

/-- The kernel of moment `i`, `prepsfmom.py:350-355`: `p, c, r, f` from 2. -/
def Kernels.kern (K : Kernels) (i : ℕ) : ℕ → ℕ → ℝ :=
  match i with
  | 2 => K.fkp
  | 3 => K.fkc
  | 4 => K.fkr
  | _ => K.fkf

/-- `prepsfmom.py:283-315` `_measure_moments_fft` and `:318-366` `_measure_moments_fft_numba` and `_measure_moments_fft_numba`.  `none` when a psf amplitude used is zero
(then numbers are not finite).  The entries of the covariance are filled for `i ≤ j` and mirrored. -/
def measureMoments (n : ℕ) (kim kpsf : ℕ → ℕ → ℂ) (totVar pad : ℝ) (K : Kernels) (drow dcol : ℝ) : Option KMoments :=
  let maxAmp := ‖kpsf 0 0‖
  let used : ℕ → ℕ → ℂ := fun r c => psfUsed (kpsf r c) maxAmp
  if ∃ k ∈ modes n K.msk, used k.1 k.2 = 0 then none
  else
    let im : ℕ → ℕ → ℂ := fun r c =>
      let x := kim r c / used r c
      if drow ≠ 0 ∨ dcol ≠ 0 then x * cenPhase n drow dcol r c else x
    let df2 : ℝ := 1 / n * (1 / n)
    let df4 := df2 * df2
    let mom : ℕ → ℝ := fun i => (∑ k ∈ modes n K.msk, (im k.1 k.2 * (K.kern i k.1 k.2 : ℂ)).re) * df2
    let tv := totVar * pad ^ 2 * df4
    let kerns : ℕ → ℕ → ℕ → ℂ := fun i r c => (K.kern i r c : ℂ) * (1 / used r c)
    let entry : ℕ → ℕ → ℝ := fun i j =>
      (∑ k ∈ modes n K.msk, (kerns i k.1 k.2 * (starRingEnd ℂ) (kerns j k.1 k.2)).re) * tv
    some {
      mp := mom 2
      mc := mom 3
      mr := mom 4
      mf := mom 5
      cov := fun i j =>
        if 2 ≤ i ∧ i < 6 ∧ 2 ≤ j ∧ j < 6 then entry (min i j) (max i j)
        else if i = j ∧ i < 2 then 1 else 0 }

/-- An observation as seen here.  `prepsfmom.py:109-211`. -/
structure PreObs where
  image : Image
  weight : Image
  jac : Jacobian
  psf : Option (Image × Jacobian)

/-- The settings of `PrePSFMom`.  `prepsfmom.py:71-86`. -/
structure PreCfg where
  fwhm : ℝ
  ksigma : Bool
  padFactor : ℝ
  apRad : ℝ
  fwhmSmooth : ℝ

/-- `prepsfmom.py:71-86`: the kernel names accepted. -/
def newPreCfg (fwhm : ℝ) (kernel : String) (padFactor apRad fwhmSmooth : ℝ) : Except PyErr PreCfg :=
  if kernel = "ksigma" then .ok ⟨fwhm, true, padFactor, apRad, fwhmSmooth⟩
  else if kernel = "gauss" ∨ kernel = "pgauss" then .ok ⟨fwhm, false, padFactor, apRad, fwhmSmooth⟩
  else .error .value

/-- `get_galsim_wcs() != get_galsim_wcs()`: the four derivatives are compared.  `prepsfmom.py:845-867`. -/
def sameWcs (a b : Jacobian) : Prop :=
  a.dvdrow = b.dvdrow ∧ a.dvdcol = b.dvdcol ∧ a.dudrow = b.dudrow ∧ a.dudcol = b.dudcol

/-- `prepsfmom.py:845-867` `_check_obs_and_get_psf_obs`; `none` for an argument that is not an Observation. -/
def checkObs (obs : Option PreObs) (noPsf : Bool) : Except PyErr (PreObs × Option (Image × Jacobian)) :=
  match obs with
  | none => .error .value
  | some o =>
      if o.image.nrow ≠ o.image.ncol then .error .value
      else
        match noPsf, o.psf with
        | true, _ => .ok (o, none)
        | false, none => .error .runtime
        | false, some p => if ¬ sameWcs p.2 o.jac then .error .runtime else .ok (o, some p)

/-- `prepsfmom.py:111-117`. -/
def targetDim (cfg : PreCfg) (o : PreObs) (psf : Option (Image × Jacobian)) : ℤ :=
  match psf with
  | some p =>
      if o.image.nrow > p.1.nrow then pyInt (o.image.nrow * cfg.padFactor) else pyInt (p.1.nrow * cfg.padFactor)
  | none => pyInt (o.image.nrow * cfg.padFactor)

/-- `prepsfmom.py:126-138`: the transform of the psf and its centre; of a pixel without a psf. -/
def psfFft (psf : Option (Image × Jacobian)) (target : ℤ) (n : ℕ) : Except PyErr KIm :=
  match psf with
  | some p => padAndFft p.1 p.2.row0 p.2.col0 target 0
  | none => .ok ⟨n, n, fun r c => (pixelFft n r c : ℂ), 0.0, 0.0⟩

/-- `np.sum(1.0 / obs.weight[msk])`, `prepsfmom.py:186-187`. -/
def totVar (w : Image) : ℝ :=
  ∑ x ∈ (Finset.range w.nrow ×ˢ Finset.range w.ncol).filter fun x => w.get x.1 x.2 > 0, 1.0 / w.get x.1 x.2

/-- `prepsfmom.py:164-184`. -/
def preKernels (cfg : PreCfg) (dim : ℕ) (J : Jacobian) : Except PyErr Kernels :=
  if cfg.ksigma then ksigmaKernels dim cfg.fwhm J cfg.fwhmSmooth else gaussKernels dim cfg.fwhm J cfg.fwhmSmooth

/-- `prepsfmom.py:88-107` `go` and `:109-211` `_meas` and `_meas`, up to the moments.  An image without rows divides by zero (`:118`).  A psf image that is not square gives a transform the mask of
the kernel does not fit: IndexError.  The second component is the kernel, for `return_kernels`. -/
def preMoments (cfg : PreCfg) (obs : Option PreObs) (noPsf : Bool) : Except PyErr (Option KMoments × Kernels) :=
  (checkObs obs noPsf).bind fun op =>
    let o := op.1
    let target := targetDim cfg o op.2
    if o.image.nrow = 0 then .error .zeroDiv
    else (padAndFft o.image o.jac.row0 o.jac.col0 target cfg.apRad).bind fun kim =>
      (psfFft op.2 target kim.nrow).bind fun kpsf =>
        (preKernels cfg kim.nrow o.jac).bind fun K =>
          if kpsf.nrow ≠ kpsf.ncol then .error .index
          else
            .ok (measureMoments kim.nrow kim.k kpsf.k (totVar o.weight) ((target : ℝ) / o.image.nrow) K
              (kim.row - kpsf.row) (kim.col - kpsf.col), K)

/-- The sums of the result: the centroid is not measured.  `prepsfmom.py:364`. -/
def preSums (m : KMoments) : List Fl := [.nan, .nan, .fin m.mp, .fin m.mc, .fin m.mr, .fin m.mf]

/-- `prepsfmom.py:88-107` `go`, with the result dictionary of `:193-197`.  The second component is the kernel; `none` when a
psf amplitude used is zero. -/
def preGo (cfg : PreCfg) (obs : Option PreObs) (noPsf : Bool) : Except PyErr (Option MomRes × Kernels) :=
  (preMoments cfg obs noPsf).bind fun x =>
    match x.1 with
    | none => .ok (none, x.2)
    | some m => (makeMomResult (preSums m) ⟨6, 6, fun i j => .fin (m.cov i j)⟩ (some (.fin x.2.fk00))).map fun r => (some r, x.2)

/-- `prepsfmom.py:199-210`: a kernel as returned with `return_kernels`, zero where the mask is false. -/
def fullKernel (msk : ℕ → ℕ → Prop) (fk : ℕ → ℕ → ℝ) (r c : ℕ) : ℝ := if msk r c then fk r c else 0

/-! ## Caches -/

/-- `functools.lru_cache` and its switch: the entries, latest first.  `prepsfmom.py:16-40, 500-525, 579-591, 732-744`. -/
structure Cache (K V : Type) where
  on : Bool
  entries : List (K × V)

/-- `prepsfmom.py:20-40`: requests and switches. -/
inductive CacheOp (K : Type)
  | turnOn
  | turnOff
  | request (k : K)

/-- `prepsfmom.py:510-519`, `:557-591`, `:710-744`: with caching on, an entry present is returned and moved to the front,
otherwise the function is called and its result, if it did not raise, stored; at most 128 are kept.  Turning off clears. -/
def cacheStep {K V : Type} (f : K → Except PyErr V) (c : Cache K V) : CacheOp K → Cache K V × Option (Except PyErr V)
  | .turnOn => ({ c with on := true }, none)
  | .turnOff => (⟨false, []⟩, none)
  | .request k =>
      if c.on then
        match c.entries.find? fun e => decide (e.1 = k) with
        | some e => ({ c with entries := e :: c.entries.filter fun e => decide (e.1 ≠ k) }, some (.ok e.2))
        | none =>
            match f k with
            | .error x => (c, some (.error x))
            | .ok v => ({ c with entries := ((k, v) :: c.entries).take 128 }, some (.ok v))
      else (c, some (f k))

/-- A history: the answers to its requests.  `prepsfmom.py:16-40, 510-525, 557-577`. -/
def cacheRun {K V : Type} (f : K → Except PyErr V) : Cache K V → List (CacheOp K) → List (Option (Except PyErr V))
  | _, [] => []
  | c, op :: ops => (cacheStep f c op).2 :: cacheRun f (cacheStep f c op).1 ops

end

end Ngmix
