import Verif.Spec.PSFFlux
import Verif.Spec.GalsimFlux
import Verif.Spec.WSums

/-!
# Specification: images added (C122)
-/

namespace Ngmix.Spec

open Ngmix

noncomputable section

/-- `a` times one image plus `b` times another, pixel by pixel. -/
def addImages (a b : ℝ) (x y : List ℝ) : List ℝ := List.zipWith (fun s t => a * s + b * t) x y

/-- Three observations alike but for their images, of which the third is `a` times the first plus `b` times the second. -/
structure AddedObs (a b : ℝ) (o1 o2 o3 : PFObs) : Prop where
  second : o2 = { o1 with image := o2.image }
  third : o3 = { o1 with image := addImages a b o1.image o2.image }
  size : o2.image.length = o1.image.length

/-- The same for the galsim fitter. -/
structure AddedGP (a b : ℝ) (o1 o2 o3 : GPObs) : Prop where
  second : o2 = { o1 with img := { o1.img with data := o2.img.data } }
  third : o3 = { o1 with img := { o1.img with data := addImages a b o1.img.data o2.img.data } }
  size : o2.img.data.length = o1.img.data.length

/-- The same for pixels. -/
def AddedPixel (a b : ℝ) (x1 x2 x3 : Pixel) : Prop :=
  x2 = { x1 with val := x2.val } ∧ x3 = { x1 with val := a * x1.val + b * x2.val }

/-- Element by element in three lists of one length. -/
def All3 {α : Type} (R : α → α → α → Prop) (l1 l2 l3 : List α) : Prop :=
  List.Forall₂ (fun x (y : α × α) => R x y.1 y.2) l1 (l2.zip l3) ∧ l2.length = l1.length ∧ l3.length = l1.length

/-- Fluxes of three fits: the third is `a` times the first plus `b` times the second, or nothing can be fitted in all of them. -/
def FluxesAdd (a b : ℝ) (r1 r2 r3 : PFResult) : Prop :=
  r2.dof = r1.dof ∧ r3.dof = r1.dof ∧
  ((∃ f g, r1.flux = .fin f ∧ r2.flux = .fin g ∧ r3.flux = .fin (a * f + b * g)) ∨
    ∀ r ∈ [r1, r2, r3], r.flux = .fin pfPDEF ∧ r.fluxErr = .fin pfCDEF ∧ r.flags = Flags.DIV_ZERO)

/-- The sums `x` and flux of a gaussian weighted measurement; those of a flagged one are multiplied by the pixel area. -/
def SumsOf (area : ℝ) (n : ℕ) (x : ℕ → ℝ) (m : WMom) : Prop :=
  (m.res.flags = 0 → m.res.flux = .fin (x 5) ∧ m.res.sums = (List.range n).map fun i => .fin (x i)) ∧
  (m.res.flags ≠ 0 → m.res.flux = .fin (area * x 5) ∧ m.res.sums = (List.range n).map fun i => .fin (area * x i))

/-- Errors of two measurements, as far as neither is flagged. -/
def SameErrors (n : ℕ) (m m' : WMom) : Prop :=
  m.res.flags = 0 → m'.res.flags = 0 → m'.res.fluxErr = m.res.fluxErr ∧ m'.res.sumsErr = m.res.sumsErr ∧
    ∀ i < n, ∀ j < n, m'.res.sumsCov.get i j = m.res.sumsCov.get i j

end

end Ngmix.Spec
