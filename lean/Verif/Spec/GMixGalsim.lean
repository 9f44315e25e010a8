import Verif.Model.GMixGalsim
import Verif.Spec.GMix

/-!
# Specification: the surface brightness of a mixture and of a galsim object

`x` is the horizontal coordinate (columns, `u`), `y` the vertical one (rows, `v`).
-/

namespace Ngmix.Spec

open Ngmix

noncomputable section

/-- Surface brightness of a two dimensional normal distribution of flux `p`, centre `(row, col)` and
covariance `[[irr, irc], [irc, icc]]`. -/
def normal2 (p row col irr irc icc : ℝ) (v u : ℝ) : ℝ :=
  p / (2 * Real.pi * Real.sqrt (irr * icc - irc ^ 2)) *
    Real.exp (-((icc * (v - row) ^ 2 - 2 * irc * (v - row) * (u - col) + irr * (u - col) ^ 2) /
      (irr * icc - irc ^ 2)) / 2)

/-- Surface brightness of a mixture. -/
def mixBrightness (gm : List Gauss) (v u : ℝ) : ℝ :=
  (gm.map fun g => normal2 g.p g.row g.col g.irr g.irc g.icc v u).sum

/-- The meaning of the galsim expressions.  `Gaussian(flux, sigma)` is the round gaussian; `shear(g1, g2)`
moves the brightness at `q` to `S q`, with `S = [[1 + g1, g2], [g2, 1 - g1]] / sqrt (1 - g1^2 - g2^2)` (so the
value at a point is the one at its image under the inverse of `S`); `shift(dx, dy)` moves it by `(dx, dy)`. -/
def brightness {P : Type} : GSObj P → ℝ → ℝ → ℝ
  | .gaussian flux sigma _, x, y =>
      flux / (2 * Real.pi * sigma ^ 2) * Real.exp (-(x ^ 2 + y ^ 2) / (2 * sigma ^ 2))
  | .shear o g1 g2, x, y =>
      brightness o (((1 - g1) * x - g2 * y) / Real.sqrt (1 - g1 ^ 2 - g2 ^ 2))
        ((-g2 * x + (1 + g1) * y) / Real.sqrt (1 - g1 ^ 2 - g2 ^ 2))
  | .shift o dx dy, x, y => brightness o (x - dx) (y - dy)

/-- A sum of objects. -/
def sumBrightness {P : Type} (os : List (GSObj P)) (x y : ℝ) : ℝ := (os.map fun o => brightness o x y).sum

/-- The inverse used in `brightness` really is the inverse of the shear matrix. -/
theorem shear_inverse (g1 g2 a b : ℝ) (h : g1 ^ 2 + g2 ^ 2 < 1) :
    let s := Real.sqrt (1 - g1 ^ 2 - g2 ^ 2)
    let x := ((1 + g1) * a + g2 * b) / s
    let y := (g2 * a + (1 - g1) * b) / s
    ((1 - g1) * x - g2 * y) / s = a ∧ (-g2 * x + (1 + g1) * y) / s = b := by
  intro s x y
  have hs : s ^ 2 = 1 - g1 ^ 2 - g2 ^ 2 := Real.sq_sqrt (by linarith)
  have hs0 : s ≠ 0 := (Real.sqrt_pos.2 (by linarith)).ne'
  constructor
  · simp only [x, y]; field_simp; rw [hs]; ring
  · simp only [x, y]; field_simp; rw [hs]; ring

/-- The gsparams used by an object. -/
def paramsOf {P : Type} : GSObj P → Option P
  | .gaussian _ _ p => p
  | .shear o _ _ => paramsOf o
  | .shift o _ _ => paramsOf o

/-- The size of a component as the conversion sees it: a zero trace is replaced. -/
def traceOr (Tmin : ℝ) (g : Gauss) : ℝ := open Classical in if g.irr + g.icc = 0 then Tmin else g.irr + g.icc

end

end Ngmix.Spec
