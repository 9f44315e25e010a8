import Verif.Model.Pixels
import Verif.Model.FitModel
import Verif.Model.PSFFlux
import Verif.Model.EM

/-!
# Specification: the same light stored in another array (C108)
-/

namespace Ngmix.Spec

open Ngmix

/-- The places of an array that are used: all of them, or those of positive weight. -/
def Used (ignore : Bool) (im w : Image) : Set (ℕ × ℕ) :=
  {p | p.1 < im.nrow ∧ p.2 < im.ncol ∧ (ignore = true → 0 < w.get p.1 p.2)}

/-- Two images with weights and Jacobians that show the same sky: their used pixels correspond one to one, with the same place
on the sky, value and weight, and pixels cover the same area. -/
def SameScene (ignore : Bool) (im w : Image) (j : Jacobian) (im' w' : Image) (j' : Jacobian) : Prop :=
  j'.area = j.area ∧ ∃ f : ℕ × ℕ → ℕ × ℕ, Set.BijOn f (Used ignore im w) (Used ignore im' w') ∧
    ∀ p ∈ Used ignore im w, im'.get (f p).1 (f p).2 = im.get p.1 p.2 ∧ w'.get (f p).1 (f p).2 = w.get p.1 p.2 ∧
      j'.getVU (f p).1 (f p).2 = j.getVU p.1 p.2

/-- Rows and columns exchanged. -/
def transposed (im : Image) : Image := ⟨im.ncol, im.nrow, fun r c => im.get c r⟩

/-- The Jacobian that goes with it. -/
noncomputable def jacTransposed (j : Jacobian) : Jacobian :=
  Jacobian.finishInit j.col0 j.row0 j.dvdcol j.dvdrow j.dudcol j.dudrow

/-- Last row first. -/
def flipped (im : Image) : Image := ⟨im.nrow, im.ncol, fun r c => im.get (im.nrow - 1 - r) c⟩

/-- The Jacobian that goes with it, for an image of `n` rows. -/
noncomputable def jacFlipped (n : ℕ) (j : Jacobian) : Jacobian :=
  Jacobian.finishInit ((n : ℝ) - 1 - j.row0) j.col0 (-j.dvdrow) j.dvdcol (-j.dudrow) j.dudcol

/-- `im` is what is left of `big` when everything but a rectangle that begins at row `a` and column `b` is cut away. -/
def CutFrom (a b : ℕ) (big im : Image) : Prop :=
  a + im.nrow ≤ big.nrow ∧ b + im.ncol ≤ big.ncol ∧ ∀ r < im.nrow, ∀ c < im.ncol, im.get r c = big.get (a + r) (b + c)

/-- The Jacobian that goes with it. -/
noncomputable def jacCut (a b : ℕ) (j : Jacobian) : Jacobian :=
  Jacobian.finishInit (j.row0 - a) (j.col0 - b) j.dvdrow j.dvdcol j.dudrow j.dudcol

/-- A Jacobian as the constructors make it. -/
def JacMade (j : Jacobian) : Prop :=
  j = Jacobian.finishInit j.row0 j.col0 j.dvdrow j.dvdcol j.dudrow j.dudcol

/-- Images of a fit: same psf, the same pixels in any order. -/
def PermImg (i i' : Img) : Prop := i'.psf = i.psf ∧ i.pixels.Perm i'.pixels

/-- All images of all bands. -/
def PermImgs (obs obs' : List (List Img)) : Prop := List.Forall₂ (List.Forall₂ PermImg) obs obs'

/-- Element `i` of the new list is element `idx[i]` of the old one. -/
def reindex (idx : List ℕ) (l : List Fl) : List Fl := idx.map fun i => l.getD i .nan

/-- Observations for EM of the same sky. -/
def PermEM (o o' : EMObs) : Prop :=
  o'.psf = o.psf ∧
    match o.pixels, o'.pixels with
    | some px, some px' => px.Perm px'
    | none, none => True
    | _, _ => False

/-- Observations for a flux with mixtures: the same mixtures, and the same pixels (place on the sky, value, weight) in any
order. -/
def PermFlux (o o' : PFObs) : Prop :=
  o'.self = o.self ∧ o'.psf = o.psf ∧ o'.npixels = o.npixels ∧
  o'.coords.length = o'.image.length ∧ o'.weight.length = o'.image.length ∧
  (o.coords.zip (o.image.zip o.weight)).Perm (o'.coords.zip (o'.image.zip o'.weight))

end Ngmix.Spec
