import Verif.Spec.WSums
import Verif.Spec.AdmomAxes

/-!
# Specification: gaussian weighted moments seen from turned axes

Positions are complex numbers, `u` real and `v` imaginary.  A quantity of spin `k` is multiplied by the `k`-th power of the
phase by which positions are multiplied.
-/

namespace Ngmix.Spec

open Ngmix

noncomputable section

/-- A quantity of spin `k` seen from axes turned by `theta`; with `eps = -1` the `u` axis is reversed after that. -/
def turnedSpin (theta eps : ℝ) (k : ℕ) (x : ℂ) : ℂ :=
  if eps = 1 then Complex.exp (-(k * theta * Complex.I)) * x
  else (-1) ^ k * (starRingEnd ℂ) (Complex.exp (-(k * theta * Complex.I)) * x)

/-- Two moments as one complex number. -/
def spinMoment (sigma : ℝ) (pixels : List Pixel) (i j : ℕ) : ℂ := ⟨gMoment sigma pixels i, gMoment sigma pixels j⟩

/-- The spin of the moments: numbers of the real part and of the imaginary part, and the spin. -/
def spinTable : List (ℕ × ℕ × ℕ) := [(1, 0, 1), (2, 3, 2), (6, 7, 1), (8, 9, 3), (11, 12, 2), (13, 14, 4)]

/-- The moments without spin. -/
def scalarTable : List ℕ := [4, 5, 10, 15, 16]

/-- Results of two successful measurements that agree in everything that has no direction. -/
def SameScalars (r r' : MomRes) : Prop :=
  r'.flux = r.flux ∧ r'.fluxErr = r.fluxErr ∧ r'.s2n = r.s2n ∧ r'.T = r.T ∧ r'.Terr = r.Terr

end

end Ngmix.Spec
