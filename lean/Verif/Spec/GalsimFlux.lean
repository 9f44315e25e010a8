import Verif.Model.GalsimFlux
import Verif.Spec.PSFFlux

/-!
# Specification vocabulary for template fluxes with GalSim
-/

namespace Ngmix.Spec

open Ngmix

noncomputable section

/-- The position `off` relative to the middle of the image is the centre of the jacobian: `(column, row)`. -/
def AtCentre (nrow ncol : ℕ) (j : Jacobian) (off : ℝ × ℝ) : Prop :=
  ((ncol : ℝ) - 1) / 2 + off.1 = j.col0 ∧ ((nrow : ℝ) - 1) / 2 + off.2 = j.row0

/-- The wcs of a jacobian. -/
def WcsOf (j : Jacobian) (w : Wcs) : Prop :=
  w.dudx = j.dudcol ∧ w.dudy = j.dudrow ∧ w.dvdx = j.dvdcol ∧ w.dvdy = j.dvdrow

/-- `obj` is the psf of the observation: its psf image at unit flux, centred where the psf jacobian says. -/
def PsfObject (L : GPLib) (o : GPObs) (obj : L.Obj) : Prop :=
  ∃ p w off, o.psf = some p ∧ WcsOf p.jac w ∧ AtCentre p.nrow p.ncol p.jac off ∧ p.data.sum ≠ 0 ∧
    L.interp p.nrow p.ncol (p.data.map fun x => .fin (x / p.data.sum)) w off = .ok obj

/-- `t` is the template of the observation: the model at unit flux convolved with the psf, or the psf itself, drawn on
the pixels of the image at the centre of its jacobian. -/
def GPTemplate (L : GPLib) (model : Option L.Obj) (o : GPObs) (t : List ℝ) : Prop :=
  ∃ psf obj w off, PsfObject L o psf ∧
    (model = none → obj = psf) ∧
    (∀ m, model = some m → ∃ m1, L.unitFlux m = .ok m1 ∧ L.convolve m1 psf = .ok obj) ∧
    WcsOf o.img.jac w ∧ AtCentre o.img.nrow o.img.ncol o.img.jac off ∧
    L.draw obj o.img.ncol o.img.nrow w off = .ok t

/-- The pixels `(template, data, weight)`. -/
def gpPixels (obs : List GPObs) (ts : List (List ℝ)) : List (ℝ × ℝ × ℝ) :=
  (obs.zip ts).flatMap fun ot => ot.2.zip (ot.1.img.data.zip ot.1.weight)

/-- A template scaled to unit sum. -/
def unitSum (t : List ℝ) : List ℝ := t.map fun x => x / t.sum

/-- What the fit reports: the flux is that of the pixels `px`, while chi squared is that of the pixels `qx`. -/
structure MixedOutcome (px qx : List (ℝ × ℝ × ℝ)) (totpix : ℕ) (r : PFResult) : Prop where
  dof : r.dof = tDof px
  noPower : tPower px = 0 → r.flux = .fin pfPDEF ∧ r.fluxErr = .fin pfCDEF ∧ r.flags = Flags.DIV_ZERO ∧
    r.chi2per = .fin 0
  fit : tPower px ≠ 0 → ∃ f, r.flux = .fin f ∧ f * tPower px = tCorr px ∧
    r.chi2per = .fin (tChi2 qx f / tDof px) ∧
    (totpix = 1 → r.flags = Flags.DIV_ZERO ∧ r.fluxErr = .fin pfCDEF) ∧
    (totpix ≠ 1 → 0 ≤ tChi2 qx f / tPower px / ((totpix : ℝ) - 1) →
      r.flags = 0 ∧ r.fluxErr = .fin (Real.sqrt (tChi2 qx f / tPower px / ((totpix : ℝ) - 1)))) ∧
    (totpix ≠ 1 → tChi2 qx f / tPower px / ((totpix : ℝ) - 1) < 0 →
      r.flags = Flags.BAD_VAR ∧ r.fluxErr = .fin pfCDEF)

end

end Ngmix.Spec
