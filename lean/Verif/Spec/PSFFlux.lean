import Verif.Model.PSFFlux
import Verif.Spec.GMix
import Mathlib.Analysis.SpecialFunctions.Pow.Real
import Mathlib.Algebra.BigOperators.Group.List.Basic

/-!
# Specification vocabulary for template flux fits

A pixel is `(m, y, w)`: value of the template of unit flux, data value, weight.
-/

namespace Ngmix.Spec

open Ngmix

noncomputable section

/-- the weighted squared distance of the data from the template at flux `f` -/
def tChi2 (px : List (ℝ × ℝ × ℝ)) (f : ℝ) : ℝ := (px.map fun p => p.2.2 * (f * p.1 - p.2.1) ^ 2).sum

/-- the weighted power of the template -/
def tPower (px : List (ℝ × ℝ × ℝ)) : ℝ := (px.map fun p => p.2.2 * p.1 ^ 2).sum

/-- the weighted correlation of the template and the data -/
def tCorr (px : List (ℝ × ℝ × ℝ)) : ℝ := (px.map fun p => p.2.2 * (p.1 * p.2.1)).sum

/-- number of pixels with positive weight -/
def nPositive (px : List (ℝ × ℝ × ℝ)) : ℕ := open Classical in (px.filter fun p => decide (0 < p.2.2)).length

/-- degrees of freedom -/
def tDof (px : List (ℝ × ℝ × ℝ)) : ℝ := if nPositive px ≤ 1 then 1e-6 else (nPositive px : ℝ) - 1

/-- The pixels of observations with unit-flux template images `ms`. -/
def pixelsOf (obs : List PFObs) (ms : List (List ℝ)) : List (ℝ × ℝ × ℝ) :=
  (obs.zip ms).flatMap fun om => om.2.zip (om.1.image.zip om.1.weight)

/-- What the fit reports for these pixels, `totpix` being the number of stored pixels. -/
structure Outcome (px : List (ℝ × ℝ × ℝ)) (totpix : ℕ) (r : PFResult) : Prop where
  dof : r.dof = tDof px
  /-- no power: nothing is fitted -/
  noPower : tPower px = 0 → r.flux = .fin pfPDEF ∧ r.fluxErr = .fin pfCDEF ∧ r.flags = Flags.DIV_ZERO ∧
    r.chi2per = .fin 0
  /-- otherwise the flux solves the normal equation, chi-squared is that of the reported flux -/
  fit : tPower px ≠ 0 → ∃ f, r.flux = .fin f ∧ f * tPower px = tCorr px ∧
    r.chi2per = .fin (tChi2 px f / tDof px) ∧
    (totpix = 1 → r.flags = Flags.DIV_ZERO ∧ r.fluxErr = .fin pfCDEF) ∧
    (totpix ≠ 1 → 0 ≤ tChi2 px f / tPower px / ((totpix : ℝ) - 1) →
      r.flags = 0 ∧ r.fluxErr = .fin (Real.sqrt (tChi2 px f / tPower px / ((totpix : ℝ) - 1)))) ∧
    (totpix ≠ 1 → tChi2 px f / tPower px / ((totpix : ℝ) - 1) < 0 →
      r.flags = Flags.BAD_VAR ∧ r.fluxErr = .fin pfCDEF)

/-- the profile of a gaussian of unit flux at a pixel -/
def kern (g : Gauss) (c : Coord) : ℝ :=
  1 / (2 * Real.pi * Real.sqrt (g.irr * g.icc - g.irc * g.irc)) *
    Real.exp (-0.5 * ((g.icc * (c.v - g.row) ^ 2 + g.irr * (c.u - g.col) ^ 2 -
      2 * g.irc * (c.v - g.row) * (c.u - g.col)) / (g.irr * g.icc - g.irc * g.irc))) * c.area

/-- image of the mixture, pixel by pixel -/
def imageOf (gm : List Gauss) (coords : List Coord) : List ℝ :=
  coords.map fun c => (gm.map fun g => g.p * kern g c).sum

/-- The images of all observations multiplied by `c`. -/
def scaleImages (c : ℝ) (obs : List PFObs) : List PFObs :=
  obs.map fun o => { o with image := o.image.map fun y => c * y }

/-- The observations in another unit of brightness, and with another normalisation of the weights: images multiplied by `c`,
weights by `j`. -/
def inUnit (c j : ℝ) (obs : List PFObs) : List PFObs :=
  obs.map fun o => { o with image := o.image.map fun y => c * y, weight := o.weight.map fun w => j * w }

/-- The result of a template fit in another unit of brightness: the flux times `c`, its error times `|c|`, the chi-squared
per degree of freedom times `c ^ 2 * j`; flags and degrees of freedom the same.  Without power both report nothing. -/
def InUnit (c j : ℝ) (r r' : PFResult) : Prop :=
  r'.flags = r.flags ∧ r'.dof = r.dof ∧
  ((r.flux = .fin pfPDEF ∧ r.fluxErr = .fin pfCDEF ∧ r.flags = Flags.DIV_ZERO ∧ r.chi2per = .fin 0 ∧ r' = r) ∨
    ∃ f x : ℝ, r.flux = .fin f ∧ r'.flux = .fin (c * f) ∧ r.chi2per = .fin x ∧ r'.chi2per = .fin (c ^ 2 * j * x) ∧
      ((r.flags ≠ 0 ∧ r.fluxErr = .fin pfCDEF ∧ r'.fluxErr = .fin pfCDEF) ∨
        ∃ e, r.flags = 0 ∧ r.fluxErr = .fin e ∧ r'.fluxErr = .fin (|c| * e)))

/-- The template attributes of all observations and their psfs multiplied by `k`. -/
def scaleTemplates (k : ℝ) (obs : List PFObs) : List PFObs :=
  let s := fun t : PFTmplSrc => { t with template := t.template.map fun l => l.map fun x => k * x }
  obs.map fun o => { o with self := s o.self, psf := o.psf.map s }

/-- A mixture in order: stored determinants are right, and either no gaussian claims to have norms or all
have the right ones and can be normalised. -/
def Settled (gm : List Gauss) : Prop :=
  (∀ g ∈ gm, DetCurrent g) ∧ ((∀ g ∈ gm, g.normSet = false) ∨
    ∀ g ∈ gm, g.normSet = true ∧ NormsCurrent g ∧
      gmixLowDetval ≤ g.irr * g.icc - g.irc * g.irc ∧ gmixLowDetval < g.irr + g.icc)

end

end Ngmix.Spec
