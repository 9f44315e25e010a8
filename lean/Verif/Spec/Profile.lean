import Verif.Spec.Parts
import Verif.Spec.GaussOrder

/-!
# Specification of psf mixtures with the same profile (C119)
-/

namespace Ngmix.Spec

open Ngmix

noncomputable section

/-- The same gaussian, with its flux multiplied by `k` and moved by `(dr, dc)`; determinant and stored norms do not matter. -/
def PsfMoved (k dr dc : ℝ) (g g' : Gauss) : Prop :=
  g'.p = k * g.p ∧ g'.row = g.row + dr ∧ g'.col = g.col + dc ∧ g'.irr = g.irr ∧ g'.irc = g.irc ∧ g'.icc = g.icc

/-- Mixtures that describe one profile up to flux and position: everything that can be reached by moving all the gaussians by
one offset and multiplying all the fluxes by one number that is not zero, by listing the gaussians in another order, and by
replacing a gaussian by two with the same centre and covariance that share its flux (or two such gaussians by one). -/
inductive SameProfile : List Gauss → List Gauss → Prop
  | moved {q q' : List Gauss} (k dr dc : ℝ) (hk : k ≠ 0) (h : List.Forall₂ (PsfMoved k dr dc) q q') : SameProfile q q'
  | order {q q' : List Gauss} (h : q.Perm q') : SameProfile q q'
  | split (before after : List Gauss) (p p' row col irr irc icc : ℝ) :
      SameProfile (Merged before after p p' row col irr irc icc) (Split before after p p' row col irr irc icc)
  | symm {q q' : List Gauss} (h : SameProfile q q') : SameProfile q' q
  | trans {q q' q'' : List Gauss} (h : SameProfile q q') (h' : SameProfile q' q'') : SameProfile q q''

/-- The same pixels, and psf mixtures of the same profile (or the same exception when they are asked for). -/
def SameProfileImg (i i' : Img) : Prop :=
  i.pixels = i'.pixels ∧ SameOutcome (fun q q' : GMixObj => SameProfile q.data q'.data) i.psf i'.psf

/-- Two mixture objects whose copies have the same gaussians, moved and with their fluxes multiplied. -/
def MovedObj (k dr dc : ℝ) (o o' : GMixObj) : Prop :=
  ∃ c c', copyGMix o = .ok c ∧ copyGMix o' = .ok c' ∧ List.Forall₂ (PsfMoved k dr dc) c.data c'.data

end

end Ngmix.Spec
