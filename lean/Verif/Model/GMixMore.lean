import Verif.Model.Admom
import Verif.Model.EM

/-!
# Images and convenience methods of mixtures and of moment and EM results

`/repo/ngmix/gmix/gmix.py`, `/repo/ngmix/admom/admom.py`, `/repo/ngmix/em/em.py`.  Images are raveled; `none` is a NaN
pixel.
-/

namespace Ngmix

noncomputable section

/-- `gmix.py:596-600`: without a jacobian, pixels of unit size about the centre of the image. -/
def imageJacobian (nrow ncol : ℕ) : Option Jacobian → Except PyErr Jacobian
  | some j => .ok j
  | none => Jacobian.unit (Kw.ofList [("row", ((nrow : ℝ) - 1) / 2), ("col", ((ncol : ℝ) - 1) / 2)])

/-- `gmix.py:510-530` `make_image(dims, jacobian, fast_exp)` with `_fill_image`, `:586-610`: the mixture left
behind (rendering sets its norms) and the image.  `np.zeros` raises `ValueError` for a negative dimension. -/
def gmixMakeImage (gm : List Gauss) (dims : List ℤ) (jac : Option Jacobian) (fast : Bool) :
    List Gauss × Except PyErr (List (Option ℝ)) :=
  match dims with
  | [nrow, ncol] =>
      if nrow < 0 ∨ ncol < 0 then (gm, .error .value)
      else
        match imageJacobian nrow.toNat ncol.toNat jac with
        | .error e => (gm, .error e)
        | .ok j =>
            let coords := makeCoords nrow.toNat ncol.toNat j
            render gm coords (coords.map fun _ => some 0) fast
  | _ => (gm, .error .value)

/-- `np.sqrt(T / 2.0)`, NaN for a negative size.  `gmix.py:208, 251, 263`. -/
def sigmaOf (T : ℝ) : Option ℝ := open Classical in if T / 2 < 0 then none else some (Real.sqrt (T / 2))

/-- `gmix.py:203-208` `get_sigma`; `none` is NaN. -/
def gmGetSigma (gm : List Gauss) : Option ℝ := (gmGetT gm).bind sigmaOf

/-- `gmix.py:243-252` `get_e1e2sigma`; the inner `none` is a NaN sigma. -/
def gmGetE1e2sigma (gm : List Gauss) : Option (ℝ × ℝ × Option ℝ) :=
  (gmGetE1e2T gm).map fun e => (e.1, e.2.1, sigmaOf e.2.2)

/-- `gmix.py:254-264` `get_g1g2sigma`. -/
def gmGetG1g2sigma (gm : List Gauss) : Option (Except PyErr (ℝ × ℝ × Option ℝ)) :=
  (gmGetE1e2T gm).map fun e => (e1e2ToG1G2 e.1 e.2.1).map fun g => (g.1, g.2, sigmaOf e.2.2)

/-- `gmix.py:743-762` `get_model_s2n`: mixture left behind and outcome. -/
def gmModelS2n (gm : List Gauss) (pixels : List Pixel) : List Gauss × Except PyErr ℝ :=
  match modelS2nSum gm pixels with
  | (gm', .error e) => (gm', .error e)
  | (gm', .ok s) => (gm', .ok (Real.sqrt s))

/-- What `get_loglike` returns: a number, or with `more=True` a dictionary.  `gmix.py:764-783`, `:1252-1259`. -/
inductive LoglikeRet
  | num (x : ℝ)
  | dict (d : List (String × ℝ))

/-- `gmix.py:1252-1259` `pack_to_dict`. -/
def packToDict (l : LogLike) : List (String × ℝ) :=
  [("loglike", l.loglike), ("s2n_numer", l.numer), ("s2n_denom", l.denom), ("npix", l.npix)]

/-- `gmix.py:764-783` `get_loglike(obs, more)`. -/
def gmGetLoglike (gm : List Gauss) (pixels : List Pixel) (more : Bool) : List Gauss × Except PyErr LoglikeRet :=
  match getLoglike gm pixels with
  | (gm', .error e) => (gm', .error e)
  | (gm', .ok l) => (gm', .ok (if more then .dict (packToDict l) else .num l.loglike))

/-- `gmix.py:1009-1014` `get_coellip_npars`. -/
def getCoellipNpars (ngauss : ℤ) : ℤ := 4 + 2 * ngauss

/-- `gmix.py:1017-1022` `get_coellip_ngauss`; python's floor division. -/
def getCoellipNgauss (npars : ℤ) : ℤ := (npars - 4) / 2

/-- `admom.py:255-277` `AdmomResult.make_image`: the sum of all the pixels of the image, whatever their weight, is
the flux.  `none`: `get_gmix` works on NaN. -/
def amMakeImage (o : AMOut) (image : Image) (jac : Jacobian) : Option (Except PyErr (List (Option ℝ))) :=
  if o.flags ≠ 0 then some (.error .runtime)
  else
    match amGetGmix o with
    | none => none
    | some (.error e) => some (.error e)
    | some (.ok gm) =>
        (setFluxObj gm (imVals image).sum).map fun gm' =>
          (gmixMakeImage gm'.data [image.nrow, image.ncol] (some jac) false).2

/-- `em.py:194-207` `EMResult.make_image`, with `get_convolved_gmix`, `:179-192`.  Image and jacobian are those of the
observation the caller fitted. -/
def EMResult.makeImage (r : EMResult) (obs : EMObs) : Except PyErr (List (Option ℝ)) :=
  match r.gmix, r.conv with
  | some _, some cv =>
      (copyGMix cv).bind fun gm =>
        (gmixMakeImage gm.data [obs.image.nrow, obs.image.ncol] (some obs.jac) false).2
  | _, _ => .error .runtime

/-- `em.py:23-67` `run_em`: which fitter is used. -/
def runEmKind (fixcen fixcov fluxonly : Bool) : EMKind :=
  if fixcen then .fixcen else if fixcov then .fixcov else if fluxonly then .fluxonly else .free

/-- `em.py:226-236, 425-438`: the defaults of the fitters. -/
def emDefaults (kind : EMKind) : EMFitter :=
  ⟨kind, match kind with | .fluxonly => 20 | _ => 40, 500, 1e-5, false⟩

/-- `em.py:23-67` `run_em` with the defaults of the fitters. -/
def runEm (obs : EMObs) (guess : GMixObj) (sky : Option ℝ) (fixcen fixcov fluxonly : Bool) :
    Option (Except PyErr EMResult) :=
  emGo (emDefaults (runEmKind fixcen fixcov fluxonly)) obs guess sky

end

end Ngmix
