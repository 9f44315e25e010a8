import Verif.Spec.EMUnit
import Verif.Spec.FitModel
import Verif.Spec.PSFFlux

/-!
# Specification of mixtures with their gaussians in another order (C113)
-/

namespace Ngmix.Spec

open Ngmix

noncomputable section

/-- Two mixture objects whose copies have the same gaussians, in any order. -/
def Shuffled (o o' : GMixObj) : Prop := ∃ c c', copyGMix o = .ok c ∧ copyGMix o' = .ok c' ∧ c.data.Perm c'.data

/-- The norms of all the gaussians are stored, or of none. -/
def EvenNorms (gm : List Gauss) : Prop := (∀ g ∈ gm, g.normSet = false) ∨ ∀ g ∈ gm, g.normSet = true

/-- Two results of EM: the same flags and numbers, mixtures with the same gaussians. -/
def SameEMOrd (r r' : EMResult) : Prop :=
  r.flags = r'.flags ∧ r.numiter = r'.numiter ∧ r.fdiff = r'.fdiff ∧ r.sky = r'.sky ∧
  SameOption (fun g g' : GMixObj => g.data.Perm g'.data) r.gmix r'.gmix ∧
  SameOption (fun g g' : GMixObj => g.data.Perm g'.data) r.conv r'.conv

/-- The same image, its psf mixture with the gaussians in any order. -/
def ShuffledPsf (i i' : Img) : Prop :=
  i.pixels = i'.pixels ∧ SameOutcome (fun q q' : GMixObj => q.data.Perm q'.data) i.psf i'.psf

/-- Two operations: the same exception, or results that correspond and arguments left behind with the same gaussians. -/
def SameUse {α : Type} (x x' : List Gauss × Except PyErr α) : Prop := x.2 = x'.2 ∧ ∀ a, x.2 = .ok a → x.1.Perm x'.1

end

end Ngmix.Spec
