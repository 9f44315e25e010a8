import Verif.Model.GMix
import Verif.Model.Fl
import Verif.Model.Flags
import Verif.Model.Priors

/-!
# Model of `/repo/ngmix/em/em.py` and `em_nb.py`

The four runners `em_run`, `em_run_fixcen`, `em_run_fixcov`, `em_run_fluxonly` have the same text except for
which sums they keep and which fields of the mixture they update; here they are one definition with a `kind`.
Sums that a variant does not have are computed and not read.  The mixtures and pixels that the runner works on
are private copies of the fitter (`em.py:276-281`), so nothing is observable when it raises, and exceptions
carry no state.  numba raises `ZeroDivisionError` on a division by zero.
-/

namespace Ngmix

noncomputable section

/-- The four fitters, `em.py:210-447`. -/
inductive EMKind
  | free | fixcen | fixcov | fluxonly
  deriving DecidableEq

/-- `em.py:450-457` `_em_conf_dtype`. -/
structure EMConf where
  tol : ℝ
  miniter : ℤ
  maxiter : ℤ
  sky : ℝ
  varySky : Bool

/-- One element of the sums array, `em.py:459-482` (and the smaller ones, `:485-531`). -/
structure EMSums where
  gi : ℝ
  tvsum : ℝ
  tusum : ℝ
  tu2sum : ℝ
  tuvsum : ℝ
  tv2sum : ℝ
  pnew : ℝ
  vsum : ℝ
  usum : ℝ
  u2sum : ℝ
  uvsum : ℝ
  v2sum : ℝ

/-- `np.zeros` element.  `em.py:329-333`. -/
def EMSums.zero : EMSums := ⟨0, 0, 0, 0, 0, 0, 0, 0, 0, 0, 0, 0⟩

/-- `em_nb.py:131-157` `clear_sums` (and `:679-698`, `:820-838`, `:1245-1257`). -/
def clearSums (sums : List EMSums) : List EMSums :=
  sums.map fun _ => ⟨0, 0, 0, 0, 0, 0, 0, 0, 0, 0, 0, 0⟩

/-- `absolute value` of a double.  `em_nb.py:116`. -/
def Fl.abs : Fl → Fl
  | .nan => .nan
  | .pinf => .pinf
  | .ninf => .pinf
  | .fin x => .fin |x|

/-- `em_nb.py:659-675` `set_logtau_logdet`: `(logtau, logdet)` of each gaussian. -/
def logtauLogdet (conv : List Gauss) : List (Fl × Fl) :=
  conv.map fun g => (logFl (.fin g.p), logFl (.fin g.det))

/-- The chi squared of one gaussian at a pixel; NaN while the norms are.  `em_nb.py:222, 532, 900, 1160`. -/
def emChi2 (g : Gauss) (px : Pixel) : Fl :=
  match g.d with
  | none => .nan
  | some d => .fin (gaussChi2 g d px.v px.u)

/-- Body of the inner loop of `do_scratch_sums`, `em_nb.py:208-239` (the same lines in `:518-546`, `:886-913`,
`:1147-1168`).  The value is that of `gauss2d_eval_pixel_fast`, whose text it repeats. -/
def scratchGauss (px : Pixel) (acc : EMSums × ℝ × Fl) (gt : Gauss × Fl × Fl) : EMSums × ℝ × Fl :=
  let g := gt.1
  let vdiff := px.v - g.row
  let udiff := px.u - g.col
  let val := gaussEvalFast g px.v px.u px.area
  let s := acc.1
  ({ s with gi := s.gi + val, tvsum := s.tvsum + px.v * val, tusum := s.tusum + px.u * val,
            tv2sum := s.tv2sum + vdiff * vdiff * val, tuvsum := s.tuvsum + udiff * vdiff * val,
            tu2sum := s.tu2sum + udiff * udiff * val },
    acc.2.1 + val,
    acc.2.2 + .fin val * (gt.2.1 - .fin 0.5 * gt.2.2 - .fin 0.5 * emChi2 g px))

/-- Start of the outer loop body, `em_nb.py:197-203`. -/
def resetScratch (s : EMSums) : EMSums :=
  { s with gi := 0, tvsum := 0, tusum := 0, tv2sum := 0, tuvsum := 0, tu2sum := 0 }

/-- The outer loop of `do_scratch_sums`, `em_nb.py:196-239`: element `ii` of the sums belongs to the gaussians
`ii*npsf, ..., (ii+1)*npsf - 1` of the convolved mixture.  Carries `gsum` and `logL`. -/
def scratchAll (npsf : ℕ) (px : Pixel) : List EMSums → List (Gauss × Fl × Fl) → ℝ → Fl → List EMSums × ℝ × Fl
  | [], _, gsum, logL => ([], gsum, logL)
  | s :: ss, conv, gsum, logL =>
      let r := (conv.take npsf).foldl (scratchGauss px) (resetScratch s, gsum, logL)
      let q := scratchAll npsf px ss (conv.drop npsf) r.2.1 r.2.2
      (r.1 :: q.1, q.2)

/-- `em_nb.py:161-246` `do_scratch_sums`: the sums, `gsum` and `logL`. -/
def doScratchSums (npsf : ℕ) (px : Pixel) (sums : List EMSums) (conv : List (Gauss × Fl × Fl)) :
    List EMSums × ℝ × Fl :=
  let r := scratchAll npsf px sums conv 0 (.fin 0)
  (r.1, r.2.1, open Classical in if r.2.1 = 0 then .fin 0 else r.2.2 * .fin (1 / r.2.1))

/-- `em_nb.py:250-281` `do_sums` (and `:557-584`, `:924-951`, `:1174-1197`). -/
def doSums (px : Pixel) (gtot : ℝ) (sums : List EMSums) : List EMSums :=
  let factor := px.val / gtot
  sums.map fun s =>
    { s with pnew := s.pnew + s.gi * factor, usum := s.usum + s.tusum * factor,
             vsum := s.vsum + s.tvsum * factor, u2sum := s.u2sum + s.tu2sum * factor,
             uvsum := s.uvsum + s.tuvsum * factor, v2sum := s.v2sum + s.tv2sum * factor }

/-- The loop over pixels, `em_nb.py:83-98` (`:425-440`, `:772-787`, `:1068-1079`): sums, `elogL`, `skysum`. -/
def pixelLoop (npsf : ℕ) (conv : List (Gauss × Fl × Fl)) (sky : ℝ) :
    List Pixel → List EMSums × Fl × ℝ → Except PyErr (List EMSums × Fl × ℝ)
  | [], st => .ok st
  | px :: pxs, st =>
      let r := doScratchSums npsf px st.1 conv
      let gtot := r.2.1 + sky
      open Classical in
      if gtot = 0 then .error .gmixRange
      else pixelLoop npsf conv sky pxs
        (doSums px gtot r.1, st.2.1 + r.2.2, st.2.2 + sky * px.val / gtot)

/-- `em_nb.py:1261-1294` `gmix_get_moms`: `(irr, irc, icc)`. -/
def emGetMoms (gm : List Gauss) : Except PyErr (ℝ × ℝ × ℝ) :=
  (gmixGetCen gm).bind fun c =>
    let s := gm.foldl (fun (acc : ℝ × ℝ × ℝ) g =>
      let rowdiff := g.row - c.1
      let coldiff := g.col - c.2.1
      (acc.1 + g.p * (g.irr + rowdiff ^ 2), acc.2.1 + g.p * (g.irc + rowdiff * coldiff),
        acc.2.2 + g.p * (g.icc + coldiff ^ 2))) (0, 0, 0)
    if c.2.2 = 0 then .error .zeroDiv
    else .ok (s.1 / c.2.2, s.2.1 / c.2.2, s.2.2 / c.2.2)

/-- The pre-psf covariance of `em_nb.py:315-342` (`:618-643`): subtract the psf, force positive sizes and a
non-degenerate determinant. -/
def emCov (psf : ℝ × ℝ × ℝ) (s : EMSums) : ℝ × ℝ × ℝ :=
  let pinv := 1 / s.pnew
  let irr := s.v2sum * pinv - psf.1
  let irc := s.uvsum * pinv - psf.2.1
  let icc := s.u2sum * pinv - psf.2.2
  open Classical in
  let m : ℝ × ℝ × ℝ := if irr < 0 ∨ icc < 0 then (1.0e-4, 0, 1.0e-4) else (irr, irc, icc)
  if m.1 * m.2.2 - m.2.1 ^ 2 < gmixLowDetval then
    ((m.1 + m.2.2) / 2, 0, (m.1 + m.2.2) / 2)
  else m

/-- The loop bodies of `gmix_set_from_sums` `em_nb.py:309-351`, `_fixcen` `:612-652`, `_fixcov` `:977-997`,
`_fluxonly` `:1223-1238`.  `psf` are the moments of the psf, used by the first two. -/
def setGaussFromSums (kind : EMKind) (psf : ℝ × ℝ × ℝ) (g : Gauss) (s : EMSums) : Except PyErr Gauss :=
  open Classical in
  match kind with
  | .free =>
      if s.pnew = 0 then .error .zeroDiv
      else
        let c := emCov psf s
        .ok (gauss2dSet s.pnew (s.vsum * (1 / s.pnew)) (s.usum * (1 / s.pnew)) c.1 c.2.1 c.2.2)
  | .fixcen =>
      if s.pnew = 0 then .error .zeroDiv
      else
        let c := emCov psf s
        .ok (gauss2dSet s.pnew g.row g.col c.1 c.2.1 c.2.2)
  | .fixcov =>
      if s.pnew = 0 then .error .zeroDiv
      else .ok (gauss2dSet s.pnew (s.vsum * (1 / s.pnew)) (s.usum * (1 / s.pnew)) g.irr g.irc g.icc)
  | .fluxonly => .ok (gauss2dSet s.pnew g.row g.col g.irr g.irc g.icc)

/-- The loop over the gaussians.  `em_nb.py:285-354, 588-655, 955-1000, 1201-1241`. -/
def setFromSumsLoop (kind : EMKind) (psf : ℝ × ℝ × ℝ) : List Gauss → List EMSums → Except PyErr (List Gauss)
  | g :: gs, s :: ss => (setGaussFromSums kind psf g s).bind fun g' =>
      (setFromSumsLoop kind psf gs ss).map fun gs' => g' :: gs'
  | _, _ => .ok []

/-- `em_nb.py:285-354` `gmix_set_from_sums` and its variants `:588-655`, `:955-1000`, `:1201-1241`: the new
mixture and the new convolved mixture, with norms. -/
def setFromSums (kind : EMKind) (gmix psf : List Gauss) (sums : List EMSums) :
    Except PyErr (List Gauss × List Gauss) :=
  (match kind with
    | .free => emGetMoms psf
    | .fixcen => emGetMoms psf
    | _ => .ok (0, 0, 0)).bind fun m =>
  (setFromSumsLoop kind m gmix sums).bind fun gmix' =>
  (gmixConvolve gmix' psf).bind fun conv =>
    match gmixSetNorms conv with
    | (_, .error e) => .error e
    | (conv', .ok _) => .ok (gmix', conv')

/-- `em_nb.py:1298-1315` `fill_zero_weight_pixels`. -/
def fillZeroWeight (conv : List Gauss) (sky : ℝ) (pixels : List Pixel) : List Pixel :=
  open Classical in
  pixels.map fun px => if px.ierr ≤ 0 then { px with val := sky + gmixEvalFast conv px.v px.u px.area } else px

/-- What the runner carries from one iteration to the next: `last` is `elogL_last` or `p_last`, `frac` is
`frac_diff`, `none` while it was never assigned.  `em_nb.py:72-120`. -/
structure EMState where
  gmix : List Gauss
  conv : List Gauss
  sums : List EMSums
  pixels : List Pixel
  sky : ℝ
  last : Fl
  frac : Option Fl

/-- The convergence test of `em_nb.py:110-118` (`:452-460`, `:799-807`), and `:1091-1096` for the fluxes:
`frac_diff`.  `cur` is `elogL`, or the total flux. -/
def emFrac (kind : EMKind) (cur last : Fl) : Except PyErr Fl :=
  open Classical in
  match kind with
  | .fluxonly =>
      -- `psum/p_last` with numba division
      if last.isZero then .error .zeroDiv else .ok (Fl.abs (cur / last - .fin 1))
  | _ => if cur.isZero then .error .gmixRange else .ok (Fl.abs ((cur - last) / cur))

/-- `if conf['vary_sky']: sky = skysum/npix`, `em_nb.py:107-108` (`:449-450`, `:796-797`, `:1086-1087`). -/
def emNewSky (varySky : Bool) (npix : ℕ) (skysum sky : ℝ) : Except PyErr ℝ :=
  if varySky then (if npix = 0 then .error .zeroDiv else .ok (skysum / npix)) else .ok sky

/-- The quantity whose change is tested: `elogL`, or for the fluxes `psum`.  `em_nb.py:110-120, 1091-1099`. -/
def emCur (kind : EMKind) (gmix : List Gauss) (elogL : Fl) : Fl :=
  match kind with
  | .fluxonly => .fin (psum gmix)
  | _ => elogL

/-- End of a pass, `em_nb.py:110-120`: the boolean says `break`. -/
def emTest (kind : EMKind) (conf : EMConf) (numiter : ℤ) (st : EMState) (cur : Fl) :
    Except PyErr (EMState × Bool) :=
  if numiter ≥ conf.miniter then
    (emFrac kind cur st.last).map fun f =>
      open Classical in
      if Fl.lt f (.fin conf.tol) then ({ st with frac := some f }, true)
      else ({ st with frac := some f, last := cur }, false)
  else .ok ({ st with last := cur }, false)

/-- One pass of the loop, `em_nb.py:72-120` (`:414-462`, `:761-809`, `:1061-1098`); `numiter` is `i+1`. -/
def emIter (kind : EMKind) (conf : EMConf) (psf : List Gauss) (fillZero : Bool) (numiter : ℤ)
    (st : EMState) : Except PyErr (EMState × Bool) :=
  let pixels := if fillZero then fillZeroWeight st.conv st.sky st.pixels else st.pixels
  let taus := logtauLogdet st.conv
  (pixelLoop psf.length (st.conv.zip taus) st.sky pixels (clearSums st.sums, .fin 0, 0)).bind fun r =>
  (setFromSums kind st.gmix psf r.1).bind fun gm =>
  (emNewSky conf.varySky pixels.length r.2.2 st.sky).bind fun sky =>
    emTest kind conf numiter ⟨gm.1, gm.2, r.1, pixels, sky, st.last, st.frac⟩ (emCur kind gm.1 r.2.1)

/-- The loop: `k` passes are left, `i` have been done.  Result: the state and `numiter`.  `em_nb.py:72-123, 414-465, 761-812,
1061-1101`. -/
def emLoop (kind : EMKind) (conf : EMConf) (psf : List Gauss) (fillZero : Bool) :
    ℕ → ℕ → EMState → Except PyErr (EMState × ℕ)
  | 0, i, st => .ok (st, i)
  | k + 1, i, st =>
      (emIter kind conf psf fillZero ((i : ℤ) + 1) st).bind fun r =>
        if r.2 then .ok (r.1, i + 1) else emLoop kind conf psf fillZero k (i + 1) r.1

/-- What the runner returns and leaves in the arrays.  `em_nb.py:122-127`. -/
structure EMRun where
  numiter : ℕ
  frac : Option Fl
  sky : ℝ
  gmix : List Gauss
  conv : List Gauss
  pixels : List Pixel

/-- `em_nb.py:16-127` `em_run` (`:358-469`, `:703-816`, `:1006-1106`).  With `maxiter <= 0` the variable
`numiter` is returned without having been assigned: the source has an `UnboundLocalError` there, which is
what the model gives (the compiled code returns an arbitrary number). -/
def emRun (kind : EMKind) (conf : EMConf) (pixels : List Pixel) (gmix psf conv : List Gauss)
    (fillZero : Bool) : Except PyErr EMRun :=
  match gmixSetNorms conv with
  | (_, .error e) => .error e
  | (conv, .ok _) =>
      if conf.maxiter ≤ 0 then .error .unbound
      else
        let last : Fl := match kind with
          | .fluxonly => .fin (psum gmix)
          | _ => .fin (-9999.9e9)
        (emLoop kind conf psf fillZero conf.maxiter.toNat 0
          ⟨gmix, conv, List.replicate gmix.length EMSums.zero, pixels, conf.sky, last, none⟩).map
          fun r => ⟨r.2, r.1.frac, r.1.sky, r.1.gmix.map fun g => { g with normSet := false }, r.1.conv, r.1.pixels⟩

/-! ### `em.py` -/

/-- The pixel values of an image in row-major order.  `em.py:105-130`. -/
def imVals (im : Image) : List ℝ :=
  (List.range im.nrow).flatMap fun r => (List.range im.ncol).map fun c => im.get r c

/-- `ndarray.min`, `ValueError` for an empty array.  `em.py:122`. -/
def imMin (im : Image) : Except PyErr ℝ :=
  match imVals im with
  | [] => .error .value
  | x :: xs => .ok (xs.foldl min x)

/-- `ndarray.max`.  `em.py:123`. -/
def imMax (im : Image) : Except PyErr ℝ :=
  match imVals im with
  | [] => .error .value
  | x :: xs => .ok (xs.foldl max x)

/-- `em.py:105-130` `prep_image`. -/
def prepImage (im : Image) : Except PyErr (Image × ℝ) :=
  (imMin im).bind fun mn => (imMax im).bind fun mx =>
    let desired := 0.001 * (mx - mn)
    let sky := desired - mn
    .ok (⟨im.nrow, im.ncol, fun r c => im.get r c + sky⟩, sky)

/-- What EM reads from an Observation: image, Jacobian, `pixels` (`none` with `store_pixels=False`), and the
mixture of the psf (`none` without psf or when the psf has no mixture, `em.py:266-268`). -/
structure EMObs where
  image : Image
  jac : Jacobian
  pixels : Option (List Pixel)
  psf : Option GMixObj

/-- `em.py:74-102` `prep_obs`: a new observation, with unit weights (the weights of the original are not
passed on), so that every pixel of the image is used. -/
def prepObs (obs : EMObs) : Except PyErr (EMObs × ℝ) :=
  (prepImage obs.image).bind fun r =>
  (makePixels r.1 ⟨r.1.nrow, r.1.ncol, fun _ _ => 1⟩ obs.jac true).map fun px =>
    (⟨r.1, obs.jac, some px, obs.psf⟩, r.2)

/-- `em.py:265-271`: the psf mixture, with unit flux.  `none`: its flux is zero and `set_flux` leaves NaN. -/
def emPsf (obs : EMObs) : Option (Except PyErr GMixObj) :=
  match obs.psf with
  | none => some (newGMixModel [0, 0, 0, 0, 0, 1] (.str "gauss"))
  | some g =>
      -- the getter returns a copy
      match copyGMix g with
      | .error e => some (.error e)
      | .ok c => (setFluxObj c 1).map .ok

/-- The result dictionary and mixtures of `EMResult`, `em.py:133-162`. -/
structure EMResult where
  flags : ℕ
  numiter : Option ℕ
  fdiff : Option Fl
  sky : Option ℝ
  gmix : Option GMixObj
  conv : Option GMixObj

/-- `em.py:292-327`: the `try` block and its handler. -/
def emFinish (maxiter : ℤ) (run : Except PyErr EMRun) : Except PyErr EMResult :=
  match (run.bind fun r =>
    (newGMix none (some (getFullPars r.gmix))).bind fun gm =>
    (newGMix none (some (getFullPars r.conv))).map fun conv => (r, gm, conv)) with
  | .ok (r, gm, conv) =>
      .ok ⟨if (r.numiter : ℤ) ≥ maxiter then Flags.EM_MAXITER else 0, some r.numiter, r.frac, some r.sky,
        some gm, some conv⟩
  | .error .gmixRange => .ok ⟨Flags.EM_RANGE_ERROR, none, none, none, none, none⟩
  | .error .zeroDiv => .ok ⟨Flags.EM_RANGE_ERROR, none, none, none, none, none⟩
  | .error e => .error e

/-- The arguments of the fitters' constructor, `em.py:226-236`. -/
structure EMFitter where
  kind : EMKind
  miniter : ℤ
  maxiter : ℤ
  tol : ℝ
  varySky : Bool

/-- `em.py:258-261`: the observation that is used and the starting sky. -/
def emStart (obs : EMObs) (sky : Option ℝ) : Except PyErr (EMObs × ℝ) :=
  match sky with
  | none => prepObs obs
  | some s => .ok (obs, s)

/-- `em.py:283-286` `np.any(pixels['ierr'] <= 0)`. -/
def anyZeroWeight (pixels : List Pixel) : Bool :=
  open Classical in pixels.any fun p => decide (p.ierr ≤ 0)

/-- `em.py:238-327` `EMFitter.go` on an Observation.  `none`: the psf has zero flux, and the computation goes
on with NaN fluxes (not modelled). -/
def emGo (f : EMFitter) (obs : EMObs) (guess : GMixObj) (sky : Option ℝ) : Option (Except PyErr EMResult) :=
  match emStart obs sky with
  | .error e => some (.error e)
  | .ok (o, s) =>
      (emPsf o).map fun p => p.bind fun psf =>
        (copyGMix guess).bind fun gm =>
        (convolveObj gm psf).bind fun conv =>
          match o.pixels with
          | none => .error .attribute
          | some px =>
              emFinish f.maxiter
                (emRun f.kind ⟨f.tol, f.miniter, f.maxiter, s, f.varySky⟩ px gm.data psf.data conv.data
                  (anyZeroWeight px))

/-- `em.py:164-177` `get_gmix` and `:179-192` `get_convolved_gmix`. -/
def EMResult.getGmix (r : EMResult) : Except PyErr GMixObj :=
  match r.gmix with
  | none => .error .runtime
  | some g => copyGMix g

end

end Ngmix
