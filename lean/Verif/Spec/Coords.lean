import Verif.Spec.FitSetup
import Verif.Spec.Shape
import Verif.Spec.GMix
import Verif.Model.FitModel

/-!
# Specification of a change of sky coordinates

Positions are pairs `(v, u)`: row direction first.
-/

namespace Ngmix.Spec

open Ngmix

noncomputable section

/-- A change of coordinates of the sky: `(v, u)` becomes `(a v + b u + s, c v + d u + t)`. -/
structure SkyMap where
  a : ℝ
  b : ℝ
  c : ℝ
  d : ℝ
  s : ℝ
  t : ℝ

/-- The new coordinates of a point. -/
def SkyMap.point (M : SkyMap) (x : ℝ × ℝ) : ℝ × ℝ := (M.a * x.1 + M.b * x.2 + M.s, M.c * x.1 + M.d * x.2 + M.t)

/-- By how much areas grow, with sign. -/
def SkyMap.det (M : SkyMap) : ℝ := M.a * M.d - M.b * M.c

/-- The two Jacobians give every point of the image positions that differ by the change of coordinates. -/
def SameSky (M : SkyMap) (j j' : Jacobian) : Prop := ∀ r c : ℝ, j'.getVU r c = M.point (j.getVU r c)

/-- `g'` is the gaussian `g` in the new coordinates: same flux, the centre moved, the covariance `M C Mᵀ`. -/
def Moved (M : SkyMap) (g g' : Gauss) : Prop :=
  g'.p = g.p ∧ (g'.row, g'.col) = M.point (g.row, g.col) ∧
  g'.irr = M.a ^ 2 * g.irr + 2 * M.a * M.b * g.irc + M.b ^ 2 * g.icc ∧
  g'.irc = M.a * M.c * g.irr + (M.a * M.d + M.b * M.c) * g.irc + M.b * M.d * g.icc ∧
  g'.icc = M.c ^ 2 * g.irr + 2 * M.c * M.d * g.irc + M.d ^ 2 * g.icc

/-- The same pixel in the new coordinates: same value and error, the position moved, the area in the new units. -/
def MovedPixel (M : SkyMap) (x x' : Pixel) : Prop :=
  (x'.v, x'.u) = M.point (x.v, x.u) ∧ x'.area = |M.det| * x.area ∧ x'.val = x.val ∧ x'.ierr = x.ierr

/-- A similarity: the axes turned by `theta`, the unit of length divided by `k`, the `u` axis reversed if
`eps = -1`, the origin moved. -/
def simMap (k theta eps s t : ℝ) : SkyMap :=
  ⟨k * Real.cos theta, -(k * Real.sin theta), eps * (k * Real.sin theta), eps * (k * Real.cos theta), s, t⟩

/-- The shape `(g1, g2)` seen from axes turned by `theta`, the `u` axis reversed if `eps = -1`. -/
def simShape (theta eps : ℝ) (g1 g2 : ℝ) : ℝ × ℝ :=
  ((spin2 theta (toC (g1, g2))).re, eps * (spin2 theta (toC (g1, g2))).im)

/-- The parameters of a galaxy in the new coordinates: the centre moved, the shape turned, the sizes times `k²`, all
others kept. -/
def simPars (kind : FMKind) (k theta eps s t : ℝ) : List ℝ → List ℝ
  | row :: col :: g1 :: g2 :: rest =>
    let x := (simMap k theta eps s t).point (row, col)
    let g := simShape theta eps g1 g2
    x.1 :: x.2 :: g.1 :: g.2 :: match kind with
      | .std _ => (rest.take 1).map (fun T => k ^ 2 * T) ++ rest.drop 1
      | .coellip ngauss => (rest.take ngauss).map (fun T => k ^ 2 * T) ++ rest.drop ngauss
  | l => l

/-- Outcomes in the two coordinate systems correspond: the same exception, or the mixture, moved. -/
def SimOut (M : SkyMap) (r r' : Except PyErr (List Gauss)) : Prop :=
  match r, r' with
  | .error e, .error e' => e = e'
  | .ok d, .ok d' => List.Forall₂ (Moved M) d d'
  | _, _ => False

/-- The same psf in the new coordinates, with respect to an origin of its own; or no psf in both. -/
def MovedPsf (M : SkyMap) (q q' : Except PyErr GMixObj) : Prop :=
  match q, q' with
  | .error e, .error e' => e = e'
  | .ok q, .ok q' => ∃ N : SkyMap, (M.a = N.a ∧ M.b = N.b ∧ M.c = N.c ∧ M.d = N.d) ∧
      List.Forall₂ (Moved N) q.data q'.data
  | _, _ => False

/-- The same image of the same part of the sky in the new coordinates. -/
def MovedImg (M : SkyMap) (i i' : Img) : Prop :=
  List.Forall₂ (MovedPixel M) i.pixels i'.pixels ∧ MovedPsf M i.psf i'.psf

/-- The shear `(s1, s2)` of the sky about the point `(r, c)`: areas are kept. -/
def shearMap (s1 s2 r c : ℝ) : SkyMap :=
  let q := Real.sqrt (1 - (s1 ^ 2 + s2 ^ 2))
  ⟨(1 - s1) / q, s2 / q, s2 / q, (1 + s1) / q,
    r - ((1 - s1) / q * r + s2 / q * c), c - (s2 / q * r + (1 + s1) / q * c)⟩

end

end Ngmix.Spec
