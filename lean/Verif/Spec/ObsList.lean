import Verif.Model.ObsList
import Verif.Spec.Observation

/-! Specification vocabulary for observation lists. -/

namespace Ngmix

open Ngmix.Spec

variable {G M : Type}

/-- An ObsList that exists in the heap. -/
def ObsListRef.Ok (s : Store G M) (l : ObsListRef) : Prop := l.md < s.nDict ∧ ∀ o ∈ l.items, o < s.nObs

/-- A MultiBandObsList that exists in the heap. -/
def MbRef.Ok (s : Store G M) (m : MbRef) : Prop := m.md < s.nDict ∧ ∀ l ∈ m.items, l.Ok s

/-- The observations of an input in reading order. -/
def ObsIn.flat {O MD : Type} : ObsIn O MD → List O
  | .obs o => [o]
  | .list _ l => l
  | .mb _ l => (l.map Prod.snd).flatten
  | .other => []

namespace Spec

/-- What it means for one ObsList to be a deep copy of another: same length and order, each member a
deep copy, equal metadata in a new dictionary. -/
def ObsListCopy (gcopy : G → G) (lo s : Store G M) (fuel : ℕ) (l l' : ObsListRef) : Prop :=
  List.Forall₂ (CopyOf gcopy lo s fuel) l.items l'.items ∧
  lo.nDict ≤ l'.md ∧ l'.md < s.nDict ∧ s.dict l'.md = s.dict l.md

/-- The image in other units. -/
noncomputable def scaleImage (k : ℝ) (im : Image) : Image := { im with get := fun r c => k * im.get r c }

end Spec

end Ngmix
