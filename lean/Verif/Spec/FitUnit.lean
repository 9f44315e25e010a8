import Verif.Spec.FitSetup
import Verif.Spec.EMUnit

/-!
# Specification: the same model fit with other units of brightness

Every band can have its own unit: what has brightness `x` in band `b` has brightness `k b * x` in the new unit.
-/

namespace Ngmix.Spec

open Ngmix

noncomputable section

/-- How many parameters of a model are not fluxes; these come first. -/
def notFluxes : FMKind → ℕ
  | .std name => if name = "bd" then 7 else if name = "bdf" then 6 else 5
  | .coellip ngauss => 4 + ngauss

/-- The parameters of a galaxy with its fluxes in the new units: one flux for each band, or the fluxes of the coelliptical
gaussians, which are fitted in one band only. -/
def inUnits (kind : FMKind) (k : ℕ → ℝ) (pars : List ℝ) : List ℝ :=
  pars.take (notFluxes kind) ++ match kind with
    | .std _ => (pars.drop (notFluxes kind)).mapIdx fun b F => k b * F
    | .coellip _ => (pars.drop (notFluxes kind)).map fun F => k 0 * F

/-- The pixel with its value and its error in the new unit. -/
def UnitPixel (k : ℝ) (x x' : Pixel) : Prop :=
  x'.v = x.v ∧ x'.u = x.u ∧ x'.area = x.area ∧ x'.val = k * x.val ∧ x'.ierr = x.ierr / k

/-- The same psf with another flux; or no psf in both. -/
def UnitPsf (q q' : Except PyErr GMixObj) : Prop :=
  match q, q' with
  | .error e, .error e' => e = e'
  | .ok q, .ok q' => q'.ngauss = q.ngauss ∧ ∃ c : ℝ, c ≠ 0 ∧ List.Forall₂ (fun g g' : Gauss => g'.p = c * g.p ∧
      g'.row = g.row ∧ g'.col = g.col ∧ g'.irr = g.irr ∧ g'.irc = g.irc ∧ g'.icc = g.icc) q.data q'.data
  | _, _ => False

/-- The same image in the new unit, with the same psf, which may have any other flux. -/
def UnitImg (k : ℝ) (i i' : Img) : Prop :=
  List.Forall₂ (UnitPixel k) i.pixels i'.pixels ∧ UnitPsf i.psf i'.psf

/-- The same images in the new units, from band `b` on. -/
def UnitObs (k : ℕ → ℝ) : ℕ → List (List Img) → List (List Img) → Prop
  | _, [], [] => True
  | b, is :: obs, is' :: obs' => List.Forall₂ (UnitImg (k b)) is is' ∧ UnitObs k (b + 1) obs obs'
  | _, _, _ => False

/-- Two priors, of which the second says about the parameters `pars'` what the first says about `pars`; or no prior. -/
def UnitPrior (prior prior' : Option JointPrior) (pars pars' : List ℝ) : Prop :=
  match prior, prior' with
  | none, none => True
  | some p, some p' => p'.lnprob pars' = p.lnprob pars ∧ ∀ fdiff, p'.fillFdiff pars' fdiff = p.fillFdiff pars fdiff
  | _, _ => False

/-- The same prior of a flux, in the new unit: everything given to its constructor is in the new unit. -/
def fluxPriorInUnit (k : ℝ) : Prior1 → Prior1
  | .flat a b => .flat (k * a) (k * b)
  | .erf2 a wa b wb => .erf2 (k * a) (k * wa) (k * b) (k * wb)
  | .normal m s b => .normal (k * m) (k * s) (b.map fun b => (k * b.1, k * b.2))
  | .lmBounds a b => .lmBounds (k * a) (k * b)
  | .bounded a b => .bounded (k * a) (k * b)
  | .lognormal m s sh => .lognormal (k * m) (k * s) (sh.map fun x => k * x)
  | .sinh m s => .sinh (k * m) (k * s)
  | .trunc m s a b => .trunc (k * m) (k * s) (k * a) (k * b)

/-- A log normal prior has a positive mean; its constructor raises otherwise. -/
def MeanPositive : Prior1 → Prop
  | .lognormal m _ _ => 0 < m
  | _ => True

/-- The same joint prior, with the prior of the flux of each band in the new unit of the band. -/
def priorInUnits (k : ℕ → ℝ) (p : JointPrior) : JointPrior :=
  { p with fs := p.fs.mapIdx fun b F => fluxPriorInUnit (k b) F }

/-- The class of joint priors written for the parameters of the model. -/
def ClassFor : FMKind → JClass → Prop
  | .std name, cls => (name = "bd" ∧ cls = .bd) ∨ (name = "bdf" ∧ cls = .bdf) ∨
      (name ∈ ["exp", "dev", "gauss", "turb"] ∧ cls = .simple)
  | .coellip ngauss, cls => cls = .coellip ngauss

end

end Ngmix.Spec
