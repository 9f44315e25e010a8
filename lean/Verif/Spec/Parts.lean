import Verif.Spec.GMix
import Verif.Props.Norms

/-!
# Specification of mixtures made of parts (C115)
-/

namespace Ngmix.Spec

open Ngmix Ngmix.Props

noncomputable section

/-- A mixture as the methods leave it: determinants are those of the covariances, and norms are stored for none of the
gaussians, or for all of them and then right. -/
def UpToDate (gm : List Gauss) : Prop :=
  (∀ g ∈ gm, DetCurrent g) ∧
  ((∀ g ∈ gm, g.normSet = false) ∨ ∀ g ∈ gm, g.normSet = true ∧ NormsCurrent g ∧ Usable g)

/-- One gaussian of flux `p + p'` in the place of two with fluxes `p` and `p'`, with the same centre and covariance; `before`
and `after` are the other gaussians. -/
def Merged (before after : List Gauss) (p p' row col irr irc icc : ℝ) : List Gauss :=
  before ++ gauss2dSet (p + p') row col irr irc icc :: after

/-- The two gaussians. -/
def Split (before after : List Gauss) (p p' row col irr irc icc : ℝ) : List Gauss :=
  before ++ gauss2dSet p row col irr irc icc :: gauss2dSet p' row col irr irc icc :: after

end

end Ngmix.Spec
