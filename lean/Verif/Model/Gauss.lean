import Verif.Model.FastExp
import Verif.Model.Moments
import Verif.Model.Pixels
import Mathlib.Analysis.SpecialFunctions.Pow.Real

/-!
# Model of `/repo/ngmix/gmix/gmix_nb.py` and `render_nb.py`

Doubles are real numbers.  Where the code can leave the reals (NaN norms, division by zero in numpy)
the model has an explicit `none` or exception.
-/

namespace Ngmix

noncomputable section

/-- The lazily evaluated fields of a gaussian, `gmix.py:1171-1176`. -/
@[ext] structure Norms where
  drr : ℝ
  drc : ℝ
  dcc : ℝ
  norm : ℝ
  pnorm : ℝ

/-- One element of the mixture array, `_gauss2d_dtype` `gmix.py:1163-1177`.  `d = none` means that the
lazily evaluated fields are NaN. -/
@[ext] structure Gauss where
  p : ℝ
  row : ℝ
  col : ℝ
  irr : ℝ
  irc : ℝ
  icc : ℝ
  det : ℝ
  normSet : Bool
  d : Option Norms

/-- A zeroed element (`np.zeros`).  `gmix.py:789`. -/
def Gauss.zero : Gauss := ⟨0, 0, 0, 0, 0, 0, 0, false, some ⟨0, 0, 0, 0, 0⟩⟩

/-- `gmix_nb.py:9` -/
def gmixLowDetval : ℝ := 1e-200

/-- `gmix_nb.py:212-231` `gauss2d_set`. -/
def gauss2dSet (p row col irr irc icc : ℝ) : Gauss :=
  { p := p, row := row, col := col, irr := irr, irc := irc, icc := icc,
    det := irr * icc - irc * irc, normSet := false, d := none }

/-- `gmix_nb.py:181-209` `gauss2d_set_norm`: the element left behind and the outcome. -/
def gauss2dSetNorm (g : Gauss) : Gauss × Except PyErr Unit :=
  if g.det < gmixLowDetval then (g, .error .gmixRange)
  else
    let T := g.irr + g.icc
    if T ≤ gmixLowDetval then (g, .error .gmixRange)
    else
      let idet := 1 / g.det
      let norm := 1 / (2 * Real.pi * Real.sqrt g.det)
      ({ g with d := some ⟨g.irr * idet, g.irc * idet, g.icc * idet, norm, g.p * norm⟩
                normSet := true }, .ok ())

/-- `gmix_nb.py:167-178` `gmix_set_norms` (`gmix.py:361-367`): stops at the first failure, elements before it keep their
new norms. -/
def gmixSetNorms : List Gauss → List Gauss × Except PyErr Unit
  | [] => ([], .ok ())
  | g :: gs =>
      match gauss2dSetNorm g with
      | (g', .error e) => (g' :: gs, .error e)
      | (g', .ok _) =>
          match gmixSetNorms gs with
          | (gs', r) => (g' :: gs', r)

/-- `if gmix["norm_set"][0] == 0: gmix_set_norms(gmix)` (`gmix_nb.py:841-842, 883-884, 914-915`,
`render_nb.py:26-27`, `gmix.py:369-376`).  For an empty mixture numba reads past the end; the model
then does nothing. -/
def setNormsIfNeeded : List Gauss → List Gauss × Except PyErr Unit
  | [] => ([], .ok ())
  | g :: gs => if g.normSet then (g :: gs, .ok ()) else gmixSetNorms (g :: gs)

/-- The chi-squared of `gmix_nb.py:44-48, 74-78`. -/
def gaussChi2 (g : Gauss) (d : Norms) (v u : ℝ) : ℝ :=
  let vdiff := v - g.row
  let udiff := u - g.col
  d.dcc * vdiff * vdiff + d.drr * udiff * udiff - 2 * d.drc * vdiff * udiff

/-- `gmix_nb.py:27-53` `gauss2d_eval_pixel_fast`.  With NaN norms the range test fails and the value
is 0. -/
def gaussEvalFast (g : Gauss) (v u area : ℝ) : ℝ :=
  match g.d with
  | none => 0
  | some d =>
      let chi2 := gaussChi2 g d v u
      open Classical in
      if chi2 < fastexpMaxChi2 ∧ chi2 ≥ 0 then d.pnorm * fexp (-0.5 * chi2) * area else 0

/-- `gmix_nb.py:57-83` `gauss2d_eval_pixel`; `none` is NaN. -/
def gaussEval (g : Gauss) (v u area : ℝ) : Option ℝ :=
  g.d.map fun d => d.pnorm * Real.exp (-0.5 * gaussChi2 g d v u) * area

/-- `gmix_nb.py:12-23` `gmix_eval_pixel_fast`. -/
def gmixEvalFast (gm : List Gauss) (v u area : ℝ) : ℝ :=
  gm.foldl (fun acc g => acc + gaussEvalFast g v u area) 0

/-- `gmix_nb.py:86-96` `gmix_eval_pixel`. -/
def gmixEval (gm : List Gauss) (v u area : ℝ) : Option ℝ :=
  gm.foldl (fun acc g => acc.bind fun a => (gaussEval g v u area).map fun b => a + b) (some 0)

/-- `gmix_nb.py:99-121` `gmix_get_cen`: `(row, col, psum)`.  numba raises `ZeroDivisionError` on
division by zero. -/
def gmixGetCen (gm : List Gauss) : Except PyErr (ℝ × ℝ × ℝ) :=
  let s := gm.foldl (fun (acc : ℝ × ℝ × ℝ) g =>
    (acc.1 + g.p * g.row, acc.2.1 + g.p * g.col, acc.2.2 + g.p)) (0, 0, 0)
  if s.2.2 = 0 then .error .zeroDiv else .ok (s.1 / s.2.2, s.2.1 / s.2.2, s.2.2)

/-- Loop of `gmix_nb.py:141-155`: `(irr_sum, irc_sum, icc_sum, psum)`. -/
def e1e2TSums (row col : ℝ) (gm : List Gauss) : ℝ × ℝ × ℝ × ℝ :=
  gm.foldl (fun (acc : ℝ × ℝ × ℝ × ℝ) g =>
    let rowdiff := g.row - row
    let coldiff := g.col - col
    (acc.1 + g.p * (g.irr + rowdiff * rowdiff), acc.2.1 + g.p * (g.irc + rowdiff * coldiff),
      acc.2.2.1 + g.p * (g.icc + coldiff * coldiff), acc.2.2.2 + g.p)) (0, 0, 0, 0)

/-- `gmix_nb.py:124-164` `gmix_get_e1e2T`. -/
def gmixGetE1e2T (gm : List Gauss) : Except PyErr (ℝ × ℝ × ℝ) :=
  (gmixGetCen gm).bind fun c =>
    let psum0 := c.2.2
    if psum0 = 0 then .error .gmixRange
    else
      let s := e1e2TSums c.1 c.2.1 gm
      let Tsum := s.1 + s.2.2.1
      if s.2.2.2 = 0 then .error .zeroDiv
      else
        let T := Tsum / s.2.2.2
        if Tsum ≤ 0 then .error .gmixRange
        else .ok ((s.2.2.1 - s.1) / Tsum, 2 * s.2.1 / Tsum, T)

/-! ### The model tables, `gmix_nb.py:234-295`; the decimal literals are taken exactly. -/

/-- `gmix_nb.py:234-243` `_pvals_exp`. -/
def pvalsExp : List ℝ := [0.00061601229677880041, 0.0079461395724623237, 0.053280454055540001,
  0.21797364640726541, 0.45496740582554868, 0.26521634184240478]

/-- `gmix_nb.py:245-254` `_fvals_exp`. -/
def fvalsExp : List ℝ := [0.002467115141477932, 0.018147435573256168, 0.07944063151366336,
  0.27137669897479122, 0.79782256866993773, 2.1623306025075739]

/-- `gmix_nb.py:256-269` `_pvals_dev`. -/
def pvalsDev : List ℝ := [6.5288960012625658e-05, 0.00044199216814302695, 0.0020859587871659754,
  0.0075913681418996841, 0.02260266219257237, 0.056532254390212859, 0.11939049233042602,
  0.20969545753234975, 0.29254151133139222, 0.28905301416582552]

/-- `gmix_nb.py:271-284` `_fvals_dev`. -/
def fvalsDev : List ℝ := [2.9934935706271918e-07, 3.4651596338231207e-06, 2.4807910570562753e-05,
  1.4307404300535354e-04, 7.2753169298239500e-04, 3.4582464394427260e-03, 1.6086645440719100e-02,
  7.7006776775654429e-02, 4.1012562102501476e-01, 2.9812509778548648]

/-- `gmix_nb.py:286-288` `_pvals_turb`. -/
def pvalsTurb : List ℝ := [0.596510042804182, 0.4034898268889178, 1.303069003078001e-07]

/-- `gmix_nb.py:290-292` `_fvals_turb`. -/
def fvalsTurb : List ℝ := [0.5793612389470884, 1.621860687127999, 7.019347162356363]

/-- `gmix_nb.py:294` `_pvals_gauss`. -/
def pvalsGauss : List ℝ := [1]

/-- `gmix_nb.py:295` `_fvals_gauss`. -/
def fvalsGauss : List ℝ := [1]

/-- `gmix_nb.py:643-669` `g1g2_to_e1e2` (a private copy of the one in shape.py, with a different
clipping value). -/
def g1g2ToE1E2nb (g1 g2 : ℝ) : Except PyErr (ℝ × ℝ) :=
  let g := Real.sqrt (g1 * g1 + g2 * g2)
  if g ≥ 1 then .error .gmixRange
  else if g = 0 then .ok (0, 0)
  else
    let eta := 2 * Real.artanh g
    let e := Real.tanh eta
    let e := if e ≥ 1 then 0.99999999 else e
    let fac := e / g
    .ok (fac * g1, fac * g2)

/-- One gaussian of a coelliptical model: the `gauss2d_set` calls of `gmix_nb.py:322-331, 387-396,
448-457, 494-503, 540-549`. -/
def coGauss (flux row col T2 e1 e2 : ℝ) : Gauss :=
  gauss2dSet flux row col (T2 * (1 - e1)) (T2 * e2) (T2 * (1 + e1))

/-- `gmix_nb.py:298-331` `gmix_fill_simple`, called with the tables of a model at `:335-363` (`fvals`, `pvals` are the tables; the array has as many
elements as they). -/
def fillSimple (fvals pvals : List ℝ) (row col g1 g2 T flux : ℝ) : Except PyErr (List Gauss) :=
  (g1g2ToE1E2nb g1 g2).map fun e =>
    (fvals.zip pvals).map fun fp => coGauss (flux * fp.2) row col (0.5 * T * fp.1) e.1 e.2

/-- `gmix_nb.py:366-396` `gmix_fill_coellip`, `TF` are the pairs `(pars[4+i], pars[4+n+i])`. -/
def fillCoellip (row col g1 g2 : ℝ) (TF : List (ℝ × ℝ)) : Except PyErr (List Gauss) :=
  (g1g2ToE1E2nb g1 g2).map fun e =>
    TF.map fun tf => coGauss tf.2 row col (0.5 * tf.1) e.1 e.2

/-- `gmix_nb.py:399-418` `gmix_fill_full`: six parameters per gaussian. -/
def fillFull : List ℝ → List Gauss
  | p :: row :: col :: irr :: irc :: icc :: rest =>
      gauss2dSet p row col irr irc icc :: fillFull rest
  | _ => []

/-- The 16-step loop shared by `gmix_nb.py:437-457, 484-503, 530-549`. -/
def fillComposite (row col e1 e2 T flux fracdev TdByTe : ℝ) : List Gauss :=
  let ifracdev := 1 - fracdev
  (List.range 16).map fun i =>
    let p := if i < 6 then pvalsExp.getD i 0 * ifracdev else pvalsDev.getD (i - 6) 0 * fracdev
    let f := if i < 6 then fvalsExp.getD i 0 else fvalsDev.getD (i - 6) 0 * TdByTe
    coGauss (flux * p) row col (0.5 * T * f) e1 e2

/-- `gmix_nb.py:552-584` `get_cm_Tfactor`, before the final inversion. -/
def cmTsum (fracdev TdByTe : ℝ) : ℝ :=
  let ifracdev := 1 - fracdev
  let a := (List.range 6).foldl (fun s i => s + pvalsExp.getD i 0 * ifracdev * fvalsExp.getD i 0) 0
  (List.range 10).foldl (fun s i => s + pvalsDev.getD i 0 * fracdev * (fvalsDev.getD i 0 * TdByTe)) a

/-- `gmix_nb.py:552-584` `get_cm_Tfactor`; `ZeroDivisionError` from numba when the sum is zero. -/
def getCmTfactor (fracdev TdByTe : ℝ) : Except PyErr ℝ :=
  if cmTsum fracdev TdByTe = 0 then .error .zeroDiv else .ok (1 / cmTsum fracdev TdByTe)

/-- `gmix_nb.py:421-457` `gmix_fill_cm`. -/
def fillCm (fracdev TdByTe Tfactor row col g1 g2 T flux : ℝ) : Except PyErr (List Gauss) :=
  (g1g2ToE1E2nb g1 g2).map fun e =>
    fillComposite row col e.1 e.2 (T * Tfactor) flux fracdev TdByTe

/-- `gmix_nb.py:460-503` `gmix_fill_bd`. -/
def fillBd (row col g1 g2 T lTrat fracdev flux : ℝ) : Except PyErr (List Gauss) :=
  let TdByTe := (10 : ℝ) ^ lTrat
  (getCmTfactor fracdev TdByTe).bind fun Tfactor =>
    (g1g2ToE1E2nb g1 g2).map fun e =>
      fillComposite row col e.1 e.2 (T * Tfactor) flux fracdev TdByTe

/-- `gmix_nb.py:506-549` `gmix_fill_bdf`. -/
def fillBdf (row col g1 g2 T fracdev flux : ℝ) : Except PyErr (List Gauss) :=
  (getCmTfactor fracdev 1).bind fun Tfactor =>
    (g1g2ToE1E2nb g1 g2).map fun e =>
      fillComposite row col e.1 e.2 (T * Tfactor) flux fracdev 1

/-- `gmix_nb.py:600-640` `gmix_convolve_fill`: the object loop outside, the psf loop inside. -/
def gmixConvolve (gm psf : List Gauss) : Except PyErr (List Gauss) :=
  (gmixGetCen psf).map fun c =>
    let ipsum := 1 / c.2.2
    gm.flatMap fun o => psf.map fun q =>
      gauss2dSet (o.p * q.p * ipsum) (o.row + (q.row - c.1)) (o.col + (q.col - c.2.1))
        (o.irr + q.irr) (o.irc + q.irc) (o.icc + q.icc)

/-! ### Likelihood sums -/

/-- The four numbers of `get_loglike`.  `gmix_nb.py:865`. -/
structure LogLike where
  loglike : ℝ
  numer : ℝ
  denom : ℝ
  npix : ℕ

/-- Loop of `gmix_nb.py:848-863`. -/
def loglikeLoop (gm : List Gauss) (pixels : List Pixel) : LogLike :=
  pixels.foldl (fun (a : LogLike) px =>
    let model := gmixEvalFast gm px.v px.u px.area
    let ivar := px.ierr * px.ierr
    let diff := model - px.val
    ⟨a.loglike + diff * diff * ivar, a.numer + px.val * model * ivar,
      a.denom + model * model * ivar, a.npix + 1⟩) ⟨0, 0, 0, 0⟩

/-- `gmix_nb.py:815-865` `get_loglike`: mixture left behind and outcome. -/
def getLoglike (gm : List Gauss) (pixels : List Pixel) : List Gauss × Except PyErr LogLike :=
  match setNormsIfNeeded gm with
  | (gm', .error e) => (gm', .error e)
  | (gm', .ok _) =>
      let a := loglikeLoop gm' pixels
      (gm', .ok ⟨a.loglike * (-0.5), a.numer, a.denom, a.npix⟩)

/-- Loop of `gmix_nb.py:886-891`: writes `fdiff[start + i]`. -/
def fdiffLoop (gm : List Gauss) (pixels : List Pixel) (start : ℕ) (fdiff : List ℝ) : List ℝ :=
  (pixels.foldl (fun (st : ℕ × List ℝ) px =>
    let model := gmixEvalFast gm px.v px.u px.area
    (st.1 + 1, st.2.set (start + st.1) ((model - px.val) * px.ierr))) ((0 : ℕ), fdiff)).2

/-- `gmix_nb.py:868-891` `fill_fdiff`. -/
def fillFdiffNb (gm : List Gauss) (pixels : List Pixel) (start : ℕ) (fdiff : List ℝ) :
    List Gauss × Except PyErr (List ℝ) :=
  match setNormsIfNeeded gm with
  | (gm', .error e) => (gm', .error e)
  | (gm', .ok _) => (gm', .ok (fdiffLoop gm' pixels start fdiff))

/-- `gmix_nb.py:894-928` `get_model_s2n_sum`. -/
def modelS2nSum (gm : List Gauss) (pixels : List Pixel) : List Gauss × Except PyErr ℝ :=
  match setNormsIfNeeded gm with
  | (gm', .error e) => (gm', .error e)
  | (gm', .ok _) => (gm', .ok (pixels.foldl (fun s px =>
      let model := gmixEvalFast gm' px.v px.u px.area
      s + model * model * (px.ierr * px.ierr)) 0))

/-- `render_nb.py:9-36` `render`, with the exact exponential (`none` is a NaN pixel) or the fast one;
`image` is the raveled image the values are added to. -/
def render (gm : List Gauss) (coords : List Coord) (image : List (Option ℝ)) (fast : Bool) :
    List Gauss × Except PyErr (List (Option ℝ)) :=
  match setNormsIfNeeded gm with
  | (gm', .error e) => (gm', .error e)
  | (gm', .ok _) =>
      (gm', .ok ((coords.foldl (fun (st : ℕ × List (Option ℝ)) c =>
        let val := if fast then some (gmixEvalFast gm' c.v c.u c.area) else gmixEval gm' c.v c.u c.area
        (st.1 + 1, st.2.modify st.1 fun x => x.bind fun a => val.map fun b => a + b))
        ((0 : ℕ), image)).2))

end

end Ngmix
