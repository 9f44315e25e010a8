import Verif.Spec.Guessers
import Verif.Spec.GMix

/-!
# Specification vocabulary for guesses of psf fits

The ranges of the numbers of each gaussian for a given total flux and size.
-/

namespace Ngmix.Spec

noncomputable section

/-- Ranges for a gaussian: flux, position, covariance. -/
structure GaussRange where
  flux : ℝ × ℝ
  pos : ℝ × ℝ
  var : ℝ × ℝ
  cross : ℝ × ℝ

/-- A gaussian is within ranges. -/
def GaussIn (b : GaussRange) (g : Gauss) : Prop :=
  Between b.flux.1 b.flux.2 g.p ∧ Between b.pos.1 b.pos.2 g.row ∧ Between b.pos.1 b.pos.2 g.col ∧
    Between b.var.1 b.var.2 g.irr ∧ Between b.cross.1 b.cross.2 g.irc ∧ Between b.var.1 b.var.2 g.icc

/-- Fractions of the flux and of the size for two to five gaussians. -/
def psfFractions : ℕ → List (ℝ × ℝ)
  | 2 => [(0.596510042804182, 0.5793612389470884), (0.4034898268889178, 1.621860687127999)]
  | 3 => [(0.596510042804182, 0.5793612389470884), (0.4034898268889178, 1.621860687127999), (1.303069003078001e-07, 7.019347162356363)]
  | 4 => [(0.596510042804182, 0.5793612389470884), (0.4034898268889178, 1.621860687127999), (1.303069003078001e-07, 7.019347162356363),
          (1.303069003078001e-07, 7.019347162356363)]
  | 5 => [(0.59453032, 0.5), (0.35671819, 1.0), (0.03567182, 3.0), (0.03567182, 3.0), (0.03567182, 3.0)]
  | _ => []

/-- The ranges of the guesses with `n` gaussians for flux `F` and size `T`. -/
def psfRanges (n : ℕ) (F T : ℝ) : List GaussRange :=
  match n with
  | 1 => [⟨tenPercent F, (-0.1, 0.1), tenPercent (T / 2), (-0.2 * (T / 2), 0.2 * (T / 2))⟩]
  | 2 => (psfFractions 2).map fun c => ⟨(c.1 * F, c.1 * F), (-0.1, 0.1), tenPercent (c.2 * (T / 2)), (0, 0)⟩
  | n => (psfFractions n).map fun c => ⟨tenPercent (c.1 * F), (-0.1, 0.1), tenPercent (c.2 * (T / 2)), (-0.01, 0.01)⟩

/-- A covariance is positive definite. -/
def PosDef (g : Gauss) : Prop := 0 < g.irr ∧ 0 < g.icc ∧ g.irc ^ 2 < g.irr * g.icc

/-- Fractions of the flux and of the size for coelliptical guesses. -/
def coellipFractions : ℕ → List (ℝ × ℝ)
  | 1 => [(1, 1)]
  | 2 => [(0.5, 0.48955064), (0.5, 1.50658978)]
  | 3 => [(0.27559669, 0.36123609), (0.55817131, 0.8426139), (0.166232, 2.58747785)]
  | 4 => [(0.44534, 0.541019), (0.366951, 1.19701), (0.10506, 0.282176), (0.0826497, 3.51086)]
  | 5 => [(0.57874897, 0.27831284), (0.32273483, 0.9959897), (0.03327272, 5.86989779), (0.0341253, 5.63590429),
          (0.03111819, 4.17285878)]
  | _ => []

/-- The ranges of a coelliptical guess: centre, shape, sizes, fluxes; `around` is the range about a number. -/
def coellipRanges (n : ℕ) (rel : ℝ → ℝ × ℝ) (F T : ℝ) : List (ℝ × ℝ) :=
  [(-0.01, 0.01), (-0.01, 0.01), (-0.05, 0.05), (-0.05, 0.05)] ++
    (coellipFractions n).map (fun c => rel (T * c.2)) ++ (coellipFractions n).map (fun c => rel (F * c.1))

end

end Ngmix.Spec
