import Verif.Model.PrePSF
import Mathlib.Analysis.Calculus.Deriv.Basic

/-! Specification vocabulary for the pre-psf moments (C59-C61, C71-C73). -/

namespace Ngmix.Spec

open Ngmix

noncomputable section

/-- Sum of all pixels. -/
def total (im : Image) : ℝ := ∑ x ∈ Finset.range im.nrow ×ˢ Finset.range im.ncol, im.get x.1 x.2

/-- `im` is the circular convolution of `obj` with `psf` on an `n` by `n` grid. -/
def CircConv (n : ℕ) (obj psf im : ℕ → ℕ → ℝ) : Prop :=
  ∀ r < n, ∀ c < n, im r c =
    ∑ y ∈ Finset.range n ×ˢ Finset.range n, obj y.1 y.2 * psf ((r + n - y.1) % n) ((c + n - y.2) % n)

/-- The image with a single pixel of value one at the origin. -/
def deltaImage : ℕ → ℕ → ℝ := fun r c => if r = 0 ∧ c = 0 then 1 else 0

/-- The weight function in real space of a kernel given on the modes `M`: its value at a displacement of `dr` rows and `dc`
columns. -/
def realWeight (n : ℕ) (M : Finset (ℕ × ℕ)) (kern : ℕ → ℕ → ℝ) (dr dc : ℝ) : ℝ :=
  (∑ k ∈ M, kern k.1 k.2 * Real.cos (2 * Real.pi * (fftfreq n k.1 * dr + fftfreq n k.2 * dc))) / (n : ℝ) ^ 2

/-- The weighted sum of an image with a weight function placed at `(cr, cc)`. -/
def weightedSum (n : ℕ) (im : ℕ → ℕ → ℝ) (w : ℝ → ℝ → ℝ) (cr cc : ℝ) : ℝ :=
  ∑ x ∈ Finset.range n ×ˢ Finset.range n, im x.1 x.2 * w (x.1 - cr) (x.2 - cc)

/-- Second derivatives of a function of `(u, v)`. -/
def d2uu (W : ℝ → ℝ → ℝ) (u v : ℝ) : ℝ := deriv (fun a => deriv (fun b => W b v) a) u
def d2vv (W : ℝ → ℝ → ℝ) (u v : ℝ) : ℝ := deriv (fun a => deriv (fun b => W u b) a) v
def d2uv (W : ℝ → ℝ → ℝ) (u v : ℝ) : ℝ := deriv (fun a => deriv (fun b => W a b) v) u

/-- The psf amplitude of no mode in `M` is at or below 1e-5 of its total flux. -/
def NotTruncated (M : Finset (ℕ × ℕ)) (kpsf : ℕ → ℕ → ℂ) : Prop :=
  ∀ k ∈ M, 1e-5 * ‖kpsf 0 0‖ < ‖kpsf k.1 k.2‖

open Classical in
/-- The sum of the variances of the pixels that have one: pixels with weight not above zero do not count. -/
def totalVariance (w : Image) : ℝ :=
  ∑ x ∈ Finset.range w.nrow ×ˢ Finset.range w.ncol, if 0 < w.get x.1 x.2 then 1 / w.get x.1 x.2 else 0

end

end Ngmix.Spec
