import Verif.Model.Admom
import Verif.Spec.GMix
import Verif.Spec.EM

/-!
# Specification: adaptive moments

The weight is a gaussian (the first of `w`; any others only add to the weight function).  One measurement moves
the weight to the weighted centroid and takes the weighted second moments about it.  Between measurements the
weight gets the covariance `(M⁻¹ - W⁻¹)⁻¹`.  The procedure stops at the first measurement that is close to the
one before, or when something is out of range.
-/

namespace Ngmix.Spec

open Ngmix

noncomputable section

/-- `Σ weight × image × f` over the pixels. -/
def wtSum (w : List Gauss) (pixels : List Pixel) (f : Pixel → ℝ) : ℝ :=
  (pixels.map fun px => predicted w px * px.val * f px).sum

/-- What one measurement gives. -/
structure Moms where
  e1 : ℝ
  e2 : ℝ
  T : ℝ

/-- The weight `w` with its lazily evaluated numbers up to date, all of them usable. -/
def Ready (w w' : AMWt) : Prop :=
  List.Forall₂ (fun g g' => SameGauss g g' ∧ DetCurrent g' ∧ NormsCurrent g' ∧ 1e-200 ≤ g'.det ∧
    1e-200 < g'.irr + g'.icc) w.list w'.list

/-- Some gaussian of the weight is out of range. -/
def Unusable (w : AMWt) : Prop :=
  ∃ g ∈ w.list, g.irr * g.icc - g.irc * g.irc < 1e-200 ∨ g.irr + g.icc ≤ 1e-200

/-- `w'` is `w` moved to the weighted centroid of the image; the weighted flux is positive. -/
def Recentred (pixels : List Pixel) (w w' : AMWt) : Prop :=
  0 < wtSum w.list pixels (fun _ => 1) ∧
  w'.g.row * wtSum w.list pixels (fun _ => 1) = wtSum w.list pixels Pixel.v ∧
  w'.g.col * wtSum w.list pixels (fun _ => 1) = wtSum w.list pixels Pixel.u ∧
  w' = { w with g := { w.g with row := w'.g.row, col := w'.g.col } }

/-- Both coordinates within `r` of the starting position. -/
def Near (r : ℝ) (orig : ℝ × ℝ) (w : AMWt) : Prop :=
  |w.g.row - orig.1| ≤ r ∧ |w.g.col - orig.2| ≤ r

/-- The moments of the image under the weight `w`, about its centre: size `T` and ellipticities. -/
def HasMoms (pixels : List Pixel) (w : AMWt) (m : Moms) : Prop :=
  0 < wtSum w.list pixels (fun _ => 1) ∧
  m.T * wtSum w.list pixels (fun _ => 1)
    = wtSum w.list pixels (fun px => (px.u - w.g.col) ^ 2 + (px.v - w.g.row) ^ 2) ∧
  m.e1 * m.T * wtSum w.list pixels (fun _ => 1)
    = wtSum w.list pixels (fun px => (px.u - w.g.col) ^ 2 - (px.v - w.g.row) ^ 2) ∧
  m.e2 * m.T * wtSum w.list pixels (fun _ => 1)
    = wtSum w.list pixels (fun px => 2 * (px.v - w.g.row) * (px.u - w.g.col)) ∧
  0 < m.T

/-- A measurement that is in range: the weight is made ready and recentred, and the moments are taken. -/
def Measured (shiftmax : ℝ) (orig : ℝ × ℝ) (pixels : List Pixel) (w w' : AMWt) (m : Moms) : Prop :=
  ∃ w1, Ready w w1 ∧ Recentred pixels w1 w' ∧ Near shiftmax orig w' ∧ HasMoms pixels w' m

/-- Entries of the covariance matrix that moments `m` describe: `(rr, rc, cc)`. -/
def Moms.cov (m : Moms) : ℝ × ℝ × ℝ :=
  (m.T * (1 - m.e1) / 2, m.T * m.e2 / 2, m.T * (1 + m.e1) / 2)

/-- Determinant of a symmetric 2 by 2 matrix `(rr, rc, cc)`. -/
def sdet (a : ℝ × ℝ × ℝ) : ℝ := a.1 * a.2.2 - a.2.1 ^ 2

/-- Inverse of a symmetric 2 by 2 matrix. -/
def sinv (a : ℝ × ℝ × ℝ) : ℝ × ℝ × ℝ := (a.2.2 / sdet a, -a.2.1 / sdet a, a.1 / sdet a)

/-- Covariance of a gaussian. -/
def gcov (g : Gauss) : ℝ × ℝ × ℝ := (g.irr, g.irc, g.icc)

/-- The deweighted covariance exists: all determinants are above `1e-200`. -/
def CanDeweight (m : Moms) (g : Gauss) : Prop :=
  1e-200 < sdet m.cov ∧ 1e-200 < sdet (gcov g) ∧ 1e-200 < sdet (sinv m.cov - sinv (gcov g))

/-- The weight for the next measurement. -/
def NextWeight (cenonly : Bool) (m : Moms) (w w' : AMWt) : Prop :=
  if cenonly then w' = w
  else CanDeweight m w.g ∧ sinv (gcov w'.g) = sinv m.cov - sinv (gcov w.g) ∧ sdet (gcov w'.g) ≠ 0 ∧
    DetCurrent w'.g ∧
    w' = { w with g := { w.g with irr := w'.g.irr, irc := w'.g.irc, icc := w'.g.icc, det := w'.g.det } }

/-- Two measurements within the tolerances. -/
def Close (etol Ttol : ℝ) (m m' : Moms) : Prop :=
  |m.e1 - m'.e1| < etol ∧ |m.e2 - m'.e2| < etol ∧ |m.T / m'.T - 1| < Ttol

/-- `History conf orig pixels w0 ms w`: starting with the weight `w0`, the measurements `ms` (most recent first),
no two consecutive ones close, lead to the weight `w` for the next one. -/
inductive History (conf : AMConf) (pixels : List Pixel) (w0 : AMWt) : List Moms → AMWt → Prop
  | start : History conf pixels w0 [] w0
  | step {ms w w' w'' m} : History conf pixels w0 ms w →
      Measured conf.shiftmax (w0.g.row, w0.g.col) pixels w w' m →
      (∀ m' ∈ ms.head?, ¬ Close conf.etol conf.Ttol m m') →
      NextWeight conf.cenonly m w' w'' → History conf pixels w0 (m :: ms) w''

/-- Why the procedure stops in the measurement with weight `w` after the measurements `ms`, the flag for it, and
the weight that is left. -/
inductive Stops (conf : AMConf) (pixels : List Pixel) (orig : ℝ × ℝ) (ms : List Moms) (w : AMWt) : ℕ → AMWt → Prop
  /-- the weight is degenerate -/
  | lowDet : w.g.det < 1e-200 → Stops conf pixels orig ms w Flags.LOW_DET w
  /-- no positive flux under the weight -/
  | noFlux {w1} : Ready w w1 → wtSum w1.list pixels (fun _ => 1) ≤ 0 → Stops conf pixels orig ms w Flags.NONPOS_FLUX w1
  /-- the centroid moved too far -/
  | shifted {w1 w'} : Ready w w1 → Recentred pixels w1 w' → ¬ Near conf.shiftmax orig w' →
      Stops conf pixels orig ms w Flags.CEN_SHIFT w'
  /-- no positive flux under the recentred weight -/
  | noFlux' {w1 w'} : Ready w w1 → Recentred pixels w1 w' → Near conf.shiftmax orig w' →
      wtSum w'.list pixels (fun _ => 1) ≤ 0 → Stops conf pixels orig ms w Flags.NONPOS_FLUX w'
  /-- no positive size -/
  | noSize {w1 w'} : Ready w w1 → Recentred pixels w1 w' → Near conf.shiftmax orig w' →
      0 < wtSum w'.list pixels (fun _ => 1) →
      wtSum w'.list pixels (fun px => (px.u - w'.g.col) ^ 2 + (px.v - w'.g.row) ^ 2) ≤ 0 →
      Stops conf pixels orig ms w Flags.NONPOS_SIZE w'
  /-- converged -/
  | converged {w' m m'} : Measured conf.shiftmax orig pixels w w' m → m' ∈ ms.head? →
      Close conf.etol conf.Ttol m m' → Stops conf pixels orig ms w 0 w'
  /-- the moments cannot be deweighted -/
  | degenerate {w' m} : Measured conf.shiftmax orig pixels w w' m →
      (∀ m' ∈ ms.head?, ¬ Close conf.etol conf.Ttol m m') → conf.cenonly = false → ¬ CanDeweight m w'.g →
      Stops conf pixels orig ms w Flags.LOW_DET w'

/-- Squared distance of a pixel from the centre of `g` in units of its covariance. -/
def dist2 (g : Gauss) (px : Pixel) : ℝ :=
  (g.icc * (px.v - g.row) ^ 2 + g.irr * (px.u - g.col) ^ 2 - 2 * g.irc * (px.v - g.row) * (px.u - g.col)) /
    (g.irr * g.icc - g.irc ^ 2)

/-- `Σ weight² × noise variance × f × h` over the pixels: the covariance of `wtSum f` and `wtSum h`. -/
def wtCov (w : List Gauss) (pixels : List Pixel) (f h : Pixel → ℝ) : ℝ :=
  (pixels.map fun px => predicted w px ^ 2 * (1 / px.ierr ^ 2) * f px * h px).sum

/-- The integrands: size, the two shapes, one, and squared squared distance. -/
def fT (g : Gauss) (px : Pixel) : ℝ := (px.u - g.col) ^ 2 + (px.v - g.row) ^ 2
def f1 (g : Gauss) (px : Pixel) : ℝ := (px.u - g.col) ^ 2 - (px.v - g.row) ^ 2
def f2 (g : Gauss) (px : Pixel) : ℝ := 2 * (px.v - g.row) * (px.u - g.col)
def fone (_ : Pixel) : ℝ := 1
def f4 (g : Gauss) (px : Pixel) : ℝ := dist2 g px ^ 2

/-- Error of the ratio `R` of two sums, by linear propagation of the noise of the pixels: the standard deviation of
`wtSum (f - R h) / wtSum h` with `R` held fixed. -/
def ratioErr (w : List Gauss) (pixels : List Pixel) (f h : Pixel → ℝ) : ℝ :=
  let R := wtSum w pixels f / wtSum w pixels h
  Real.sqrt (wtCov w pixels (fun px => f px - R * h px) (fun px => f px - R * h px) / wtSum w pixels h ^ 2)

end

end Ngmix.Spec
