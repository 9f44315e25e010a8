import Verif.Model.FitModel

/-!
# Specification of the evaluations of a fit model
-/

namespace Ngmix.Spec

open Ngmix

noncomputable section

/-- A mixture ready to be evaluated. -/
def ready (d : List Gauss) : Except PyErr (List Gauss) :=
  match setNormsIfNeeded d with
  | (d', .ok _) => .ok d'
  | (_, .error e) => .error e

/-- The mixture one image is compared with: the model built afresh from the parameters of the band, convolved
with the psf of that image when psfs are used. -/
def modelFor (kind : FMKind) (dopsf : Bool) (bp : List ℝ) (i : Img) : Except PyErr (List Gauss) :=
  if dopsf then i.psf.bind fun q => (makeGmixModel bp kind.arg).bind fun gm0 =>
    (gmixConvolve gm0.data q.data).bind ready
  else (makeGmixModel bp kind.arg).bind fun gm0 => ready gm0.data

/-- `D[b][j]` is the mixture image `j` of band `b` is compared with, for all the images. -/
def IsModel (fm : FitModel) (pars : List ℝ) (D : List (List (List Gauss))) : Prop :=
  D.length = fm.obs.length ∧
  ∀ b is ds, fm.obs[b]? = some is → D[b]? = some ds →
    ∃ bp, fm.kind.bandPars pars b = .ok bp ∧
      List.Forall₂ (fun i d => modelFor fm.kind fm.dopsf bp i = .ok d) is ds

/-- The images, each with its mixture, in the order of bands and observations. -/
def pairs (fm : FitModel) (D : List (List (List Gauss))) : List (Img × List Gauss) :=
  fm.obs.flatten.zip D.flatten

/-- `(model - data) / error` for all the pixels in order. -/
def residuals (fm : FitModel) (D : List (List (List Gauss))) : List ℝ :=
  (pairs fm D).flatMap fun x => x.1.pixels.map fun px =>
    (gmixEvalFast x.2 px.v px.u px.area - px.val) * px.ierr

/-- The calls a user or the minimiser makes on the object. -/
inductive Call
  | fdiff (pars : List ℝ)
  | lnprob (pars : List ℝ)

/-- The state left behind by one call. -/
def runCall (fm : FitModel) (st : FMState) : Call → FMState
  | .fdiff pars => (calcFdiff fm st pars).1
  | .lnprob pars => (calcLnprob fm st pars).1

/-- The state left behind by a history of calls, whether or not they raised. -/
def runCalls (fm : FitModel) (st : FMState) (calls : List Call) : FMState := calls.foldl (runCall fm) st

end

end Ngmix.Spec
