import Verif.Model.FitModel
import Verif.Spec.GMix
import Verif.Spec.Shape

/-!
# Specification: which fits can be set up
-/

namespace Ngmix.Spec

open Ngmix

noncomputable section

/-- The models that can be fitted. -/
def CanFit : FMKind → Prop
  | .std name => name ∈ ["gauss", "turb", "exp", "dev", "bd", "bdf"]
  | .coellip _ => True

/-- How many numbers describe the galaxy in `nband` bands. -/
def guessLength : FMKind → ℕ → ℕ
  | .std name, nband => (if name = "bd" then 7 else if name = "bdf" then 6 else 5) + nband
  | .coellip ngauss, _ => 4 + 2 * ngauss

/-- The size of a disk of unit size plus a bulge of size `Td`, with bulge fraction `fd`, by the tables. -/
def sizeNorm (fd Td : ℝ) : ℝ :=
  (1 - fd) * ((fvalsExp.zip pvalsExp).map fun fp => fp.2 * fp.1).sum +
    fd * Td * ((fvalsDev.zip pvalsDev).map fun fp => fp.2 * fp.1).sum

/-- The parameters stand for a galaxy: the shape is inside the unit disk and the size of a bulge plus disk can be
normalised. -/
def Feasible (kind : FMKind) (pars : List ℝ) : Prop :=
  ∃ row col g1 g2 rest, pars = row :: col :: g1 :: g2 :: rest ∧ InDisk g1 g2 ∧
    (kind = .std "bd" → ∃ T lT fd Fs, rest = T :: lT :: fd :: Fs ∧ sizeNorm fd ((10 : ℝ) ^ (lT : ℝ)) ≠ 0) ∧
    (kind = .std "bdf" → ∃ T fd Fs, rest = T :: fd :: Fs ∧ sizeNorm fd 1 ≠ 0)

/-- The galaxy has no negative size: no size parameter is negative, and neither is the size of a bulge plus disk in
units of its disk. -/
def SizesNonneg (kind : FMKind) (pars : List ℝ) : Prop :=
  match kind with
  | .std name =>
    (∀ T, pars[4]? = some T → 0 ≤ T) ∧
    (name = "bd" → ∀ lT fd, pars[5]? = some lT → pars[6]? = some fd → 0 ≤ sizeNorm fd ((10 : ℝ) ^ (lT : ℝ))) ∧
    (name = "bdf" → ∀ fd, pars[5]? = some fd → 0 ≤ sizeNorm fd 1)
  | .coellip ngauss => ∀ T ∈ (pars.drop 4).take ngauss, 0 ≤ T

/-- A gaussian with positive definite covariance, not smaller than the threshold of the package. -/
def GoodPsf (q : Gauss) : Prop :=
  0 ≤ q.irr ∧ 0 ≤ q.icc ∧ 1e-200 ≤ q.irr * q.icc - q.irc * q.irc ∧ 1e-200 < q.irr + q.icc

/-- Why the psf of an image is refused: the exception met on reading its mixture, or a mixture of zero flux. -/
def psfRefusal (i : Img) : Option PyErr :=
  match i.psf with
  | .error .zeroDiv => some .gmixRange
  | .error e => some e
  | .ok q => open Classical in if Flux q.data = 0 then some .gmixRange else none

end

end Ngmix.Spec
