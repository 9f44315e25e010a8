import Verif.Model.GMix
import Verif.Model.JointPrior

/-!
# Model of `/repo/ngmix/fitting/results.py`, `FitModel` and `CoellipFitModel`

An observation is its pixel array and its psf mixture.  The mutable part of the object (the mixtures
`_gmix_all0`, `_gmix_all`, filled in place at each evaluation) is an explicit state.
-/

namespace Ngmix

noncomputable section

/-- What the fit uses of one observation: `obs.pixels` and `obs.psf.gmix` (the exception when there is no psf
or the psf has no mixture).  `results.py:219-236`. -/
structure Img where
  pixels : List Pixel
  psf : Except PyErr GMixObj

/-- `obs.has_psf_gmix()`, `observation.py:586-593`. -/
def Img.hasPsfGmix (i : Img) : Bool :=
  match i.psf with
  | .ok _ => true
  | .error _ => false

/-- `FitModel` for a named model, or `CoellipFitModel`.  `results.py:13, 488`. -/
inductive FMKind
  | std (name : String)
  | coellip (ngauss : ℕ)

/-- The immutable part of the object.  `results.py:28-43`; the lists of pixels and of mixtures over bands and
observations, `results.py:410-437`, are references to it and to the state; `bounds` copies, `results.py:213-217`. -/
structure FitModel where
  kind : FMKind
  prior : Option JointPrior
  obs : List (List Img)
  dopsf : Bool

/-- The mutable part: for each band and observation the mixtures `_gmix_all0[band][i]`, `_gmix_all[band][i]`. 
`results.py:261-298`. -/
abbrev FMState := List (List (GMixObj × GMixObj))

/-- `numpy` slice assignment `band_pars[0:k] = pars[0:k]` followed by `band_pars[k] = pars[k + band]`, where
`band_pars` has length `k + 1` (`results.py:799-809`).  A one element slice broadcasts, then the index fails. -/
def takeBand (k : ℕ) (pars : List ℝ) (band : ℕ) : Except PyErr (List ℝ) :=
  if pars.length < k then (if pars.length = 1 then .error .index else .error .value)
  else
    match pars[k + band]? with
    | some F => .ok (pars.take k ++ [F])
    | none => .error .index

/-- `results.py:777-811` `get_band_pars(model, pars, band)`.  For the other six parameter models the array is
complete; for `bdc`, of eight, the last two stay zero. -/
def getBandPars (model : String) (pars : List ℝ) (band : ℕ) : Except PyErr (List ℝ) :=
  (getModelNpars (.str model)).bind fun num =>
    if model = "coellip" then .error .assertion
    else if model = "bd" then takeBand 7 pars band
    else if model = "bdf" then takeBand 6 pars band
    else (takeBand 5 pars band).map fun l => l ++ List.replicate (num - 6) 0

/-- The method: `results.py:125-140`, `:529-534`. -/
def FMKind.bandPars (k : FMKind) (pars : List ℝ) (band : ℕ) : Except PyErr (List ℝ) :=
  match k with
  | .std name => getBandPars name pars band
  | .coellip _ => .ok pars

/-- `results.py:814-840` `get_lm_n_prior_pars`. -/
def getLmNPriorPars (model : String) (nband : ℕ) : Except PyErr ℕ :=
  if model = "bd" then .ok (1 + 1 + 1 + 1 + 1 + 1 + nband)
  else if model = "bdf" then .ok (1 + 1 + 1 + 1 + 1 + nband)
  else if model ∈ ["exp", "dev", "gauss", "turb"] then .ok (1 + 1 + 1 + 1 + 1 + nband)
  else .error .value

/-- `_set_n_prior_pars`, `results.py:377-384`, `:514-521`. -/
def FMKind.nPriorPars (k : FMKind) (prior : Option JointPrior) (nband : ℕ) : Except PyErr ℕ :=
  match k, prior with
  | .std _, none => .ok 0
  | .std name, some _ => getLmNPriorPars name nband
  | .coellip ngauss, prior =>
    if nband ≠ 1 then .error .assertion
    else
      match prior with
      | none => .ok 0
      | some _ => .ok (1 + 1 + 1 + ngauss + ngauss)

/-- `_set_npars`, `results.py:250-255`, `:523-527`. -/
def FMKind.npars (k : FMKind) (nband : ℕ) : Except PyErr ℕ :=
  match k with
  | .std name => (getModelNpars (.str name)).map fun n => n + nband - 1
  | .coellip ngauss => .ok (4 + 2 * ngauss)

/-- The model number passed to `make_gmix_model`.  `results.py:257-259`. -/
def FMKind.arg : FMKind → ModelArg
  | .std name => .str name
  | .coellip _ => .num 7

/-- `_set_totpix`, `results.py:238-248`. -/
def FitModel.totpix (fm : FitModel) : ℕ := ((fm.obs.flatten).map fun i => i.pixels.length).sum

/-- The body of the loop of `_init_gmix_all`, `results.py:283-292`, with `_convolve_gmix`, `results.py:300-304`. -/
def initOne (kind : FMKind) (dopsf : Bool) (bp : List ℝ) (i : Img) : Except PyErr (GMixObj × GMixObj) :=
  (makeGmixModel bp kind.arg).bind fun gm0 =>
    if dopsf then i.psf.bind fun q => (convolveObj gm0 q).map fun gm => (gm0, gm)
    else (copyGMix gm0).map fun gm => (gm0, gm)

/-- One band of `_init_gmix_all`.  `results.py:274-298`. -/
def initBand (kind : FMKind) (dopsf : Bool) (bp : List ℝ) : List Img → Except PyErr (List (GMixObj × GMixObj))
  | [] => .ok []
  | i :: is => (initOne kind dopsf bp i).bind fun g => (initBand kind dopsf bp is).map fun gs => g :: gs

/-- `_init_gmix_all`, `results.py:261-298`, from band `b` on. -/
def initAll (kind : FMKind) (dopsf : Bool) (pars : List ℝ) : ℕ → List (List Img) → Except PyErr FMState
  | _, [] => .ok []
  | b, is :: obs => (kind.bandPars pars b).bind fun bp => (initBand kind dopsf bp is).bind fun g =>
      (initAll kind dopsf pars (b + 1) obs).map fun gs => g :: gs

/-- The constructor, `results.py:28-45`: checks in order; the guess sets up the mixtures, and a
`ZeroDivisionError` there becomes `GMixRangeError` (`:359-375`). -/
def newFitModel (kind : FMKind) (prior : Option JointPrior) (obs : List (List Img)) (guess : List ℝ) :
    Except PyErr (FitModel × FMState) :=
  (kind.npars obs.length).bind fun npars =>
  (kind.nPriorPars prior obs.length).bind fun _ =>
    if guess.length ≠ npars then .error .assertion
    else
      match obs with
      | (i :: _) :: _ =>
        match initAll kind i.hasPsfGmix guess 0 obs with
        | .ok st => .ok (⟨kind, prior, obs, i.hasPsfGmix⟩, st)
        | .error .zeroDiv => .error .gmixRange
        | .error e => .error e
      | _ => .error .index

/-- `gm._fill(band_pars)`, `gmix.py:396-412`: `self._pars[:] = pars` needs the right length (a single parameter,
which numpy would broadcast, is not modelled). -/
def fillGm (gm : GMixObj) (bp : List ℝ) : GMixObj × Except PyErr Unit :=
  if bp.length ≠ gm.npars then (gm, .error .value) else fillObj gm bp

/-- The body of the loops of `_fill_gmix_all` and `_fill_gmix_all_nopsf`, `results.py:322-331`, `:343-347`. -/
def fillOne (dopsf : Bool) (bp : List ℝ) (i : Img) (g : GMixObj × GMixObj) :
    (GMixObj × GMixObj) × Except PyErr Unit :=
  if dopsf then
    match i.psf with
    | .error e => (g, .error e)
    | .ok q =>
      match fillGm g.1 bp with
      | (g0, .error e) => ((g0, g.2), .error e)
      | (g0, .ok _) =>
        match gmixConvolve g0.data q.data with
        | .error e => ((g0, g.2), .error e)
        | .ok d => ((g0, { g.2 with data := d }), .ok ())
  else
    match fillGm g.2 bp with
    | (g', r) => ((g.1, g'), r)

/-- One band: stops at the first exception.  `results.py:306-347`. -/
def fillBand (dopsf : Bool) (bp : List ℝ) :
    List Img → List (GMixObj × GMixObj) → List (GMixObj × GMixObj) × Except PyErr Unit
  | [], gs => (gs, .ok ())
  | _ :: _, [] => ([], .error .index)
  | i :: is, g :: gs =>
    match fillOne dopsf bp i g with
    | (g', .error e) => (g' :: gs, .error e)
    | (g', .ok _) =>
      match fillBand dopsf bp is gs with
      | (gs', r) => (g' :: gs', r)

/-- `_fill_gmix_all`, `results.py:306-347`, from band `b` on. -/
def fillAll (kind : FMKind) (dopsf : Bool) (pars : List ℝ) :
    ℕ → List (List Img) → FMState → FMState × Except PyErr Unit
  | _, [], st => (st, .ok ())
  | _, _ :: _, [] => ([], .error .index)
  | b, is :: obs, gs :: st =>
    match kind.bandPars pars b with
    | .error e => (gs :: st, .error e)
    | .ok bp =>
      match fillBand dopsf bp is gs with
      | (gs', .error e) => (gs' :: st, .error e)
      | (gs', .ok _) =>
        match fillAll kind dopsf pars (b + 1) obs st with
        | (st', r) => (gs' :: st', r)

/-- `fill_fdiff` of `gmix_nb.py:869-891` on an array of doubles that may hold infinities (the loop of
`fdiffLoop`). -/
def fdiffLoopFl (gm : List Gauss) (pixels : List Pixel) (start : ℕ) (fdiff : List Fl) : List Fl :=
  (pixels.foldl (fun (st : ℕ × List Fl) px =>
    let model := gmixEvalFast gm px.v px.u px.area
    (st.1 + 1, st.2.set (start + st.1) (.fin ((model - px.val) * px.ierr)))) ((0 : ℕ), fdiff)).2

/-- The call with the norms set if needed.  `gmix_nb.py:868-891` `fill_fdiff`. -/
def fillFdiffFl (gm : List Gauss) (pixels : List Pixel) (start : ℕ) (fdiff : List Fl) :
    List Gauss × Except PyErr (List Fl) :=
  match setNormsIfNeeded gm with
  | (gm', .error e) => (gm', .error e)
  | (gm', .ok _) => (gm', .ok (fdiffLoopFl gm' pixels start fdiff))

/-- The pixel loop of `calc_fdiff`, `results.py:456-461`, one band of it. -/
def fdiffBand : List Img → List (GMixObj × GMixObj) → List Fl → ℕ →
    List (GMixObj × GMixObj) × Except PyErr (List Fl × ℕ)
  | i :: is, g :: gs, fdiff, start =>
    match fillFdiffFl g.2.data i.pixels start fdiff with
    | (d, .error e) => ((g.1, { g.2 with data := d }) :: gs, .error e)
    | (d, .ok fdiff') =>
      match fdiffBand is gs fdiff' (start + i.pixels.length) with
      | (gs', r) => ((g.1, { g.2 with data := d }) :: gs', r)
  | _, gs, fdiff, start => (gs, .ok (fdiff, start))

/-- The pixel loop of `calc_fdiff` over all the bands.  `results.py:456-461`. -/
def fdiffAll : List (List Img) → FMState → List Fl → ℕ → FMState × Except PyErr (List Fl × ℕ)
  | is :: obs, gs :: st, fdiff, start =>
    match fdiffBand is gs fdiff start with
    | (gs', .error e) => (gs' :: st, .error e)
    | (gs', .ok (fdiff', start')) =>
      match fdiffAll obs st fdiff' start' with
      | (st', r) => (gs' :: st', r)
  | _, st, fdiff, start => (st, .ok (fdiff, start))

/-- `_fill_priors`, `results.py:468-485`. -/
def fillPriors (prior : Option JointPrior) (pars : List ℝ) (fdiff : List Fl) : Except PyErr (List Fl × ℕ) :=
  match prior with
  | none => .ok (fdiff, 0)
  | some p => p.fillFdiff pars fdiff

/-- `fdiff_size`, `results.py:386-387` (the constructor has accepted `n_prior_pars`). -/
def FitModel.fdiffSize (fm : FitModel) : ℕ :=
  fm.totpix + match fm.kind.nPriorPars fm.prior fm.obs.length with
    | .ok n => n
    | .error _ => 0

/-- The body of the `try` of `calc_fdiff`.  `results.py:450-461`. -/
def calcFdiffTry (fm : FitModel) (st : FMState) (pars : List ℝ) : FMState × Except PyErr (List Fl) :=
  match fillAll fm.kind fm.dopsf pars 0 fm.obs st with
  | (st1, .error e) => (st1, .error e)
  | (st1, .ok _) =>
    match fillPriors fm.prior pars (List.replicate fm.fdiffSize (.fin 0)) with
    | .error e => (st1, .error e)
    | .ok (fdiff, start) =>
      match fdiffAll fm.obs st1 fdiff start with
      | (st2, .error e) => (st2, .error e)
      | (st2, .ok (fdiff', _)) => (st2, .ok fdiff')

/-- `calc_fdiff`, `results.py:439-466`: `GMixRangeError` fills the array with `LOWVAL`, minus infinity. -/
def calcFdiff (fm : FitModel) (st : FMState) (pars : List ℝ) : FMState × Except PyErr (List Fl) :=
  match calcFdiffTry fm st pars with
  | (st', .error .gmixRange) => (st', .ok (List.replicate fm.fdiffSize .ninf))
  | r => r

/-- The dictionary returned by `calc_lnprob(more=True)`.  `results.py:204-209`. -/
structure LnprobRes where
  lnprob : Fl
  numer : ℝ
  denom : ℝ
  npix : ℕ

/-- The loop over the observations of one band in `calc_lnprob`, `results.py:181-192`. -/
def loglikeBand : List Img → List (GMixObj × GMixObj) → LogLike →
    List (GMixObj × GMixObj) × Except PyErr LogLike
  | i :: is, g :: gs, acc =>
    match getLoglike g.2.data i.pixels with
    | (d, .error e) => ((g.1, { g.2 with data := d }) :: gs, .error e)
    | (d, .ok r) =>
      match loglikeBand is gs ⟨acc.loglike + r.loglike, acc.numer + r.numer, acc.denom + r.denom,
          acc.npix + r.npix⟩ with
      | (gs', r') => ((g.1, { g.2 with data := d }) :: gs', r')
  | _, gs, acc => (gs, .ok acc)

/-- The loop over the bands.  `results.py:181-192`. -/
def loglikeAll : List (List Img) → FMState → LogLike → FMState × Except PyErr LogLike
  | is :: obs, gs :: st, acc =>
    match loglikeBand is gs acc with
    | (gs', .error e) => (gs' :: st, .error e)
    | (gs', .ok acc') =>
      match loglikeAll obs st acc' with
      | (st', r) => (gs' :: st', r)
  | _, st, acc => (st, .ok acc)

/-- `_get_priors`, `results.py:349-357`. -/
def getPriors (prior : Option JointPrior) (pars : List ℝ) : Except PyErr Fl :=
  match prior with
  | none => .ok (.fin 0)
  | some p => p.lnprob pars

/-- The body of the `try` of `calc_lnprob`.  `results.py:165-197`. -/
def calcLnprobTry (fm : FitModel) (st : FMState) (pars : List ℝ) : FMState × Except PyErr LnprobRes :=
  match getPriors fm.prior pars with
  | .error e => (st, .error e)
  | .ok lnp =>
    match fillAll fm.kind fm.dopsf pars 0 fm.obs st with
    | (st1, .error e) => (st1, .error e)
    | (st1, .ok _) =>
      match loglikeAll fm.obs st1 ⟨0, 0, 0, 0⟩ with
      | (st2, .error e) => (st2, .error e)
      | (st2, .ok a) => (st2, .ok ⟨.fin a.loglike + lnp, a.numer, a.denom, a.npix⟩)

/-- `calc_lnprob(pars, more=True)`, `results.py:142-210`; `BIGVAL = 9999.0e47` (`defaults.py:15`). -/
def calcLnprob (fm : FitModel) (st : FMState) (pars : List ℝ) : FMState × Except PyErr LnprobRes :=
  match calcLnprobTry fm st pars with
  | (st', .error .gmixRange) => (st', .ok ⟨.ninf, 0, 9999.0e47, 0⟩)
  | r => r

end

end Ngmix
