import Verif.Model.GMix

/-!
# Specification vocabulary for gaussian mixtures
-/

namespace Ngmix.Spec

open Ngmix

noncomputable section

/-- Total flux. -/
def Flux (gm : List Gauss) : ℝ := (gm.map fun g => g.p).sum

/-- `(r, c)` is the centroid: the flux-weighted displacements from it cancel, and the flux is not
zero, so that it is unique. -/
def Centroid (gm : List Gauss) (r c : ℝ) : Prop :=
  Flux gm ≠ 0 ∧ (gm.map fun g => g.p * (g.row - r)).sum = 0 ∧ (gm.map fun g => g.p * (g.col - c)).sum = 0

/-- `(rr, rc, cc)` are the flux-weighted second moments of the whole mixture about its centroid. -/
def SecondMoments (gm : List Gauss) (rr rc cc : ℝ) : Prop :=
  ∃ r c, Centroid gm r c ∧
    (gm.map fun g => g.p * (g.irr + (g.row - r) * (g.row - r))).sum = Flux gm * rr ∧
    (gm.map fun g => g.p * (g.irc + (g.row - r) * (g.col - c))).sum = Flux gm * rc ∧
    (gm.map fun g => g.p * (g.icc + (g.col - c) * (g.col - c))).sum = Flux gm * cc

/-- Same six defining numbers. -/
def SameGauss (a b : Gauss) : Prop :=
  a.p = b.p ∧ a.row = b.row ∧ a.col = b.col ∧ a.irr = b.irr ∧ a.irc = b.irc ∧ a.icc = b.icc

/-- The stored determinant is the determinant of the stored covariance. -/
def DetCurrent (g : Gauss) : Prop := g.det = g.irr * g.icc - g.irc * g.irc

/-- The lazily evaluated numbers are those of the stored parameters. -/
def NormsCurrent (g : Gauss) : Prop :=
  ∃ d, g.d = some d ∧ 0 < g.irr * g.icc - g.irc * g.irc ∧
    d.drr = g.irr / (g.irr * g.icc - g.irc * g.irc) ∧
    d.drc = g.irc / (g.irr * g.icc - g.irc * g.irc) ∧
    d.dcc = g.icc / (g.irr * g.icc - g.irc * g.irc) ∧
    d.norm = 1 / (2 * Real.pi * Real.sqrt (g.irr * g.icc - g.irc * g.irc)) ∧
    d.pnorm = g.p / (2 * Real.pi * Real.sqrt (g.irr * g.icc - g.irc * g.irc))

/-- A gaussian at `(row, col)` of size `irr + icc = T` and reduced-shear shape `(g1, g2)`: the
ellipticity `(icc - irr, 2 irc) / T` is `2 g / (1 + |g|^2)`. -/
def HasShape (g : Gauss) (row col g1 g2 T : ℝ) : Prop :=
  g.row = row ∧ g.col = col ∧ g.irr + g.icc = T ∧
    g.icc - g.irr = T * (2 * g1 / (1 + (g1 ^ 2 + g2 ^ 2))) ∧
    2 * g.irc = T * (2 * g2 / (1 + (g1 ^ 2 + g2 ^ 2)))

/-- The flux-weighted mean of a list of `(size, flux)` pairs is `m`. -/
def FluxMean (l : List (ℝ × ℝ)) (m : ℝ) : Prop :=
  (l.map fun x => x.2).sum ≠ 0 ∧ (l.map fun x => x.2 * x.1).sum = (l.map fun x => x.2).sum * m

end

end Ngmix.Spec
