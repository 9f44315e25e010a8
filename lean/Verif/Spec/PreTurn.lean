import Verif.Model.PrePSF
import Verif.Spec.Coords
import Verif.Spec.GaussTurn
import Verif.Spec.Layout

/-!
# Specification: pre-psf moments of the same sky in other coordinates and in another array (C110)
-/

namespace Ngmix.Spec

open Ngmix

noncomputable section

/-- Two Jacobians of an image: the same pixel is the origin, positions differ by the change of coordinates. -/
def TurnedJac (k theta eps : ℝ) (j j' : Jacobian) : Prop :=
  j'.row0 = j.row0 ∧ j'.col0 = j.col0 ∧ SameSky (simMap k theta eps 0 0) j j'

/-- The same images with the Jacobians of the new coordinates. -/
def TurnedPre (k theta eps : ℝ) (o o' : PreObs) : Prop :=
  o'.image = o.image ∧ o'.weight = o.weight ∧ TurnedJac k theta eps o.jac o'.jac ∧
    match o.psf, o'.psf with
    | none, none => True
    | some p, some p' => p'.1 = p.1 ∧ TurnedJac k theta eps p.2 p'.2
    | _, _ => False

/-- The settings with lengths in a unit `1/k` as long. -/
def cfgInLength (k : ℝ) (cfg : PreCfg) : PreCfg := { cfg with fwhm := k * cfg.fwhm, fwhmSmooth := k * cfg.fwhmSmooth }

/-- How the moments in the new coordinates are made of the old ones: 2 and 3 are the two of the shape, 4 the size, 5 the flux. -/
def turnEntry (k theta eps : ℝ) : ℕ → ℕ → ℝ
  | 2, 2 => k ^ 2 * Real.cos (2 * theta)
  | 2, 3 => k ^ 2 * Real.sin (2 * theta)
  | 3, 2 => -(eps * (k ^ 2 * Real.sin (2 * theta)))
  | 3, 3 => eps * (k ^ 2 * Real.cos (2 * theta))
  | 4, 4 => k ^ 2
  | 5, 5 => 1
  | _, _ => 0

/-- The moments of the same object in the new coordinates: same flux, the size in the new unit of area, the shape moments
turned by twice the angle, and the covariance that goes with this. -/
def TurnedMoments (k theta eps : ℝ) (m m' : KMoments) : Prop :=
  m'.mf = m.mf ∧ m'.mr = k ^ 2 * m.mr ∧
  (⟨m'.mp, m'.mc⟩ : ℂ) = ((k ^ 2 : ℝ) : ℂ) * turnedSpin theta eps 2 ⟨m.mp, m.mc⟩ ∧
  ∀ i ∈ Finset.Ico 2 6, ∀ j ∈ Finset.Ico 2 6,
    m'.cov i j = ∑ a ∈ Finset.Ico 2 6, ∑ b ∈ Finset.Ico 2 6, turnEntry k theta eps i a * turnEntry k theta eps j b * m.cov a b

/-- The result in the new coordinates: everything about the flux the same, the size and its error in the new unit. -/
def SameButLength (k : ℝ) (r r' : MomRes) : Prop :=
  r'.flux = r.flux ∧ r'.fluxErr = r.fluxErr ∧ r'.s2n = r.s2n ∧ r'.fluxFlags = r.fluxFlags ∧ r'.TFlags = r.TFlags ∧
  r'.T = .fin (k ^ 2) * r.T ∧ r'.Terr = .fin (k ^ 2) * r.Terr

/-- The shape of the result turned. -/
def TurnedShape (theta eps : ℝ) (r r' : MomRes) : Prop :=
  ∃ e1 e2, r.e1 = .fin e1 ∧ r.e2 = .fin e2 ∧ r'.e1 = .fin (simShape theta eps e1 e2).1 ∧ r'.e2 = .fin (simShape theta eps e1 e2).2

/-- The outcomes of the two measurements correspond. -/
def TurnedGo (k theta eps : ℝ) (x x' : Except PyErr (Option MomRes × Kernels)) : Prop :=
  match x, x' with
  | .error e, .error e' => e' = e
  | .ok (none, _), .ok (none, _) => True
  | .ok (some r, _), .ok (some r', _) => SameButLength k r r' ∧ (r.flags = 0 → r'.flags = 0 → TurnedShape theta eps r r')
  | _, _ => False

/-- An observation with rows and columns exchanged everywhere. -/
def preTransposed (o : PreObs) : PreObs :=
  ⟨transposed o.image, transposed o.weight, jacTransposed o.jac, o.psf.map fun p => (transposed p.1, jacTransposed p.2)⟩

/-- The psf image, if there is one, has as many rows as columns. -/
def SquarePsf (o : PreObs) : Prop := ∀ p, o.psf = some p → p.1.nrow = p.1.ncol

end

end Ngmix.Spec
