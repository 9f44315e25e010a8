import Verif.Spec.Coords
import Verif.Spec.EM

/-!
# Specification: the same EM fit with other sky axes and another unit of brightness

Positions are changed by a `SkyMap` that keeps distances, brightnesses are multiplied by `k`.
-/

namespace Ngmix.Spec

open Ngmix

noncomputable section

/-- The change of coordinates keeps distances: its matrix is orthogonal. -/
def SkyMap.Iso (M : SkyMap) : Prop :=
  M.a ^ 2 + M.b ^ 2 = 1 ∧ M.c ^ 2 + M.d ^ 2 = 1 ∧ M.a * M.c + M.b * M.d = 0

/-- Each axis becomes an axis: only the origin, the names and the directions of the axes are changed. -/
def SkyMap.Axes (M : SkyMap) : Prop := (M.b = 0 ∧ M.c = 0) ∨ (M.a = 0 ∧ M.d = 0)

/-- The gaussian in the new coordinates, with its flux in the new unit. -/
def Brighter (k : ℝ) (M : SkyMap) (g g' : Gauss) : Prop := Moved M { g with p := k * g.p } g'

/-- The pixel in the new coordinates, with its value in the new unit; masked in both or in none. -/
def BrighterPixel (k : ℝ) (M : SkyMap) (x x' : Pixel) : Prop :=
  (x'.v, x'.u) = M.point (x.v, x.u) ∧ x'.area = x.area ∧ x'.val = k * x.val ∧ (x'.ierr ≤ 0 ↔ x.ierr ≤ 0)

/-- Two computations raise the same exception, or return results that correspond. -/
def SameOutcome {α β : Type} (R : α → β → Prop) : Except PyErr α → Except PyErr β → Prop
  | .error e, .error e' => e = e'
  | .ok a, .ok b => R a b
  | _, _ => False

/-- Two optional things: both there and corresponding, or none there. -/
def SameOption {α β : Type} (R : α → β → Prop) : Option α → Option β → Prop
  | none, none => True
  | some a, some b => R a b
  | _, _ => False

/-- The results of two fits: mixtures, convolved mixtures and skies correspond. -/
def SameFit (k : ℝ) (M : SkyMap) (r r' : EMResult) : Prop :=
  SameOption (fun s s' => s' = k * s) r.sky r'.sky ∧
  SameOption (fun g g' : GMixObj => List.Forall₂ (Brighter k M) g.data g'.data) r.gmix r'.gmix ∧
  SameOption (fun g g' : GMixObj => List.Forall₂ (Brighter k M) g.data g'.data) r.conv r'.conv

end

end Ngmix.Spec
