import Verif.Model.WSums
import Verif.Model.Admom
import Verif.Model.EM
import Verif.Model.FitModel

/-!
# Specification: the same pixels with other weights
-/

namespace Ngmix.Spec

open Ngmix

noncomputable section

/-- The same pixel with another inverse error; both are masked or neither is. -/
def Reweighted (p p' : Pixel) : Prop :=
  p'.u = p.u ∧ p'.v = p.v ∧ p'.area = p.area ∧ p'.val = p.val ∧ (p'.ierr = 0 ↔ p.ierr = 0) ∧ (0 < p'.ierr ↔ 0 < p.ierr)

/-- All inverse errors `k` times as large: all weights `k²` times as large. -/
def tighter (k : ℝ) (p : Pixel) : Pixel := { p with ierr := k * p.ierr }

/-- The same measurement, except for errors, covariances and signal to noise. -/
structure SameButErrors (r r' : MomRes) : Prop where
  flags : r'.flags = r.flags
  fluxFlags : r'.fluxFlags = r.fluxFlags
  TFlags : r'.TFlags = r.TFlags
  flux : r'.flux = r.flux
  T : r'.T = r.T
  e1 : r'.e1 = r.e1
  e2 : r'.e2 = r.e2
  pars : r'.pars = r.pars
  sums : r'.sums = r.sums
  sumsNorm : r'.sumsNorm = r.sumsNorm
  named : r'.named.map (fun x => (x.1, x.2.1)) = r.named.map fun x => (x.1, x.2.1)

/-- Outcomes of Gaussian weighted moments. -/
def SameEstimates : Except PyErr WMom → Except PyErr WMom → Prop
  | .ok w, .ok w' => SameButErrors w.res w'.res ∧ w'.wsum = w.wsum ∧ w'.npix = w.npix
  | .error e, .error e' => e = e'
  | _, _ => False

/-- The result with errors `c` times as large, covariances `c²` times as large, and signal to noise divided by `c`. -/
def errorsTimes (c : ℝ) (r : MomRes) : MomRes :=
  { r with
    fluxErr := .fin c * r.fluxErr
    s2n := .fin (1 / c) * r.s2n
    Terr := .fin c * r.Terr
    eErr := (.fin c * r.eErr.1, .fin c * r.eErr.2)
    eCovDiag := (.fin (c ^ 2) * r.eCovDiag.1, .fin (c ^ 2) * r.eCovDiag.2)
    sumsErr := r.sumsErr.map fun x => .fin c * x
    sumsCov := ⟨r.sumsCov.n, r.sumsCov.m, fun i j => .fin (c ^ 2) * r.sumsCov.get i j⟩
    named := r.named.map fun x => (x.1, x.2.1, .fin c * x.2.2) }

/-- The same adaptive moments, except for errors, covariances and signal to noise. -/
structure SameAdmom (o o' : AMOut) : Prop where
  flags : o'.flags = o.flags
  numiter : o'.numiter = o.numiter
  npix : o'.npix = o.npix
  fluxFlags : o'.fluxFlags = o.fluxFlags
  TFlags : o'.TFlags = o.TFlags
  rho4Flags : o'.rho4Flags = o.rho4Flags
  wsum : o'.wsum = o.wsum
  sums : o'.sums = o.sums
  pars : o'.pars = o.pars
  flux : o'.flux = o.flux
  fluxMean : o'.fluxMean = o.fluxMean
  T : o'.T = o.T
  rho4 : o'.rho4 = o.rho4
  e1 : o'.e1 = o.e1
  e2 : o'.e2 = o.e2

/-- Outcomes of adaptive moments. -/
def SameAdmomOutcome : Except PyErr AMOut → Except PyErr AMOut → Prop
  | .ok o, .ok o' => SameAdmom o o'
  | .error e, .error e' => e = e'
  | _, _ => False

/-- The result with errors `c` times as large, covariances `c²` times as large, and signal to noise divided by `c`. -/
def admomErrorsTimes (c : ℝ) (o : AMOut) : AMOut :=
  { o with
    fluxErr := .fin c * o.fluxErr
    s2n := .fin (1 / c) * o.s2n
    Terr := .fin c * o.Terr
    rho4Err := .fin c * o.rho4Err
    e1err := .fin c * o.e1err
    e2err := .fin c * o.e2err
    sumsCov := fun i j => c ^ 2 * o.sumsCov i j }

/-- An observation for EM with other weights. -/
def ReweightedEM (o o' : EMObs) : Prop :=
  o'.image = o.image ∧ o'.jac = o.jac ∧ o'.psf = o.psf ∧
    match o.pixels, o'.pixels with
    | some px, some px' => List.Forall₂ Reweighted px px'
    | none, none => True
    | _, _ => False

/-- All images of a fit with all weights `k²` times as large. -/
def tighterObs (k : ℝ) (obs : List (List Img)) : List (List Img) :=
  obs.map (List.map fun i => { i with pixels := i.pixels.map (tighter k) })

/-- Outcomes of `calc_lnprob` with all weights `k²` times as large: the log likelihood and the sums of the signal to noise are
`k²` times as large; where the model is out of range, the log likelihood is minus infinity in both. -/
def TighterLnprob (k : ℝ) : Except PyErr LnprobRes → Except PyErr LnprobRes → Prop
  | .ok r, .ok r' => r'.lnprob = .fin (k ^ 2) * r.lnprob ∧ r'.numer = k ^ 2 * r.numer ∧ r'.npix = r.npix ∧
      (r'.denom = k ^ 2 * r.denom ∨ r.lnprob = .ninf ∧ r'.lnprob = .ninf ∧ r'.denom = r.denom)
  | .error e, .error e' => e = e'
  | _, _ => False

end

end Ngmix.Spec
