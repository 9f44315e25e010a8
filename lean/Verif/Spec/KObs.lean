import Verif.Model.KObs
import Mathlib.Order.Bounds.Basic

/-!
# Specification vocabulary for k space observations
-/

namespace Ngmix.Spec

open Ngmix

/-- Weight and psf have the pixels of the image. -/
structure KConsistent (o : KObs) : Prop where
  weight : o.weight.nrow = o.kimage.grid.nrow ∧ o.weight.ncol = o.kimage.grid.ncol
  psf : ∀ p, o.psf = some p → p.kimage.grid.nrow = o.kimage.grid.nrow ∧ p.kimage.grid.ncol = o.kimage.grid.ncol ∧
    |p.kimage.grid.scale - o.kimage.grid.scale| ≤ 1e-8 + 1e-5 * |o.kimage.grid.scale|

/-- The wave number zero is at the pixel `(nrow/2, ncol/2)`, rounded down, and the pixels have the scale of the
image. -/
def KCentered (o : KObs) : Prop :=
  (o.jacobian.getVU ((o.kimage.grid.nrow / 2 : ℕ) : ℝ) ((o.kimage.grid.ncol / 2 : ℕ) : ℝ) = (0, 0)) ∧
  ∀ r c : ℝ, o.jacobian.getVU (((o.kimage.grid.nrow / 2 : ℕ) : ℝ) + r) (((o.kimage.grid.ncol / 2 : ℕ) : ℝ) + c) =
    (o.kimage.grid.scale * r, o.kimage.grid.scale * c)

/-- The arguments are acceptable. -/
def KAcceptable (kimage : KImgArg) (weight : KWtArg) (psf : KPsfArg) (m : KMetaArg) : Prop :=
  ∃ k, kimage = .complex k ∧
    (weight = .none ∨ ∃ w, weight = .image w ∧ w.nrow = k.grid.nrow ∧ w.ncol = k.grid.ncol) ∧
    (psf = .none ∨ ∃ p, psf = .kobs p ∧ p.kimage.grid.nrow = k.grid.nrow ∧ p.kimage.grid.ncol = k.grid.ncol ∧
      |p.kimage.grid.scale - k.grid.scale| ≤ 1e-8 + 1e-5 * |k.grid.scale|) ∧
    m ≠ .other

/-- `x` is the first of the entries with the largest first component. -/
def FirstMax (l : List (ℕ × ℝ)) (x : ℕ × ℝ) : Prop :=
  ∃ pre post, l = pre ++ x :: post ∧ (∀ y ∈ pre, y.1 < x.1) ∧ ∀ y ∈ post, y.1 ≤ x.1

/-- The image with unit sum: all values times the same number; none (NaN) if the values sum to zero. -/
def UnitSum (im : List ℝ) : Option (List ℝ) → Prop
  | none => im.sum = 0
  | some l => l.sum = 1 ∧ ∃ c : ℝ, l = im.map fun x => c * x

/-- Size and spacing wanted by an observation: those of the interpolated psf, or image without one; and of the
image. -/
inductive KWanted (L : KLib) (o : RObs) : ℕ × ℝ → Prop
  | psf (p : RPsf) (n : Option (List ℝ)) (ii q : L.II) (hn : UnitSum p.image n) (hp : o.psf = some p) (hi : L.interp (some o.image) o.wcs = .ok ii)
      (hq : L.interp n p.wcs = .ok q) : KWanted L o (1 + L.goodSize q, L.stepk ii)
  | noPsf (ii : L.II) (hp : o.psf = none) (hi : L.interp (some o.image) o.wcs = .ok ii) :
      KWanted L o (1 + L.goodSize ii, L.stepk ii)

/-- The weight image: the same everywhere, adding up to half of the largest of the weights `w`. -/
def HalfMax (w : List ℝ) (dim : ℕ) (W : WImg) : Prop :=
  W.nrow = dim ∧ W.ncol = dim ∧ ∃ m c, IsGreatest {x | x ∈ w} m ∧ W.data = List.replicate (dim * dim) c ∧
    W.data.sum = m / 2

/-- The k space observation `k` is the observation `o` on `dim × dim` pixels of spacing `dk`. -/
structure KOf (L : KLib) (dim : ℕ) (dk : ℝ) (o : RObs) (k : KObs) : Prop where
  image : ∃ ii d, L.interp (some o.image) o.wcs = .ok ii ∧ L.drawK ii dim dk = .ok d ∧
    k.kimage = ⟨⟨dim, dim, dk⟩, List.ofFn d⟩
  weight : HalfMax o.weight dim k.weight
  noPsf : o.psf = none → k.psf = none
  psf : ∀ p, o.psf = some p → ∃ q n ii d, k.psf = some q ∧ UnitSum p.image n ∧ L.interp n p.wcs = .ok ii ∧
    L.drawK ii dim dk = .ok d ∧ q.kimage = ⟨⟨dim, dim, dk⟩, List.ofFn d⟩ ∧ HalfMax p.weight dim q.weight
  centered : KCentered k
  sameMeta : k.meta_ = o.meta_

end Ngmix.Spec
