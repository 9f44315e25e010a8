import Verif.Model.MomResult
import Verif.Model.WSums
import Verif.Model.PrePSF

/-!
# Specification: a result in another unit of brightness
-/

namespace Ngmix.Spec

open Ngmix

/-- Moment sums and their covariance in a unit `1/s` as large: the sums are `s` times, their covariance `s²` times as large.
An entry that is not measured (a NaN sum) may have any variance of the same sign. -/
structure Rescaled (s : ℝ) (sums sums' : List Fl) (cov cov' : CovMat) : Prop where
  length : sums'.length = sums.length
  rows : cov'.n = cov.n
  cols : cov'.m = cov.m
  sum : ∀ i, sums'.getD i .nan = .fin s * sums.getD i .nan
  entry : ∀ i j, 2 ≤ i → 2 ≤ j → cov'.get i j = .fin (s ^ 2) * cov.get i j
  centre : ∀ i, i < 2 → (sums.getD i .nan = .nan ∧ ((cov'.get i i).pos ↔ (cov.get i i).pos)) ∨
    ∀ j, cov'.get i j = .fin (s ^ 2) * cov.get i j

/-- The entry `pars`: two unnormalised centroid sums, shape, size, flux. -/
noncomputable def parsInUnit (s : ℝ) : List Fl → List Fl
  | [a, b, c, d, e, f] => [.fin s * a, .fin s * b, c, d, e, .fin s * f]
  | l => l

/-- The named moments: all are normalised by the flux sum except the flux sum itself. -/
noncomputable def namedInUnit (s : ℝ) (x : String × Fl × Fl) : String × Fl × Fl :=
  if x.1 = "MF" ∨ x.1 = "M00" then (x.1, .fin s * x.2.1, .fin s * x.2.2) else x

/-- `r'` is the result `r` in a unit `1/s` as large: flags, signal to noise, size, shape, their errors are the same, the flux
and its error are `s` times as large. -/
structure SameInUnit (s : ℝ) (r r' : MomRes) : Prop where
  flags : r'.flags = r.flags
  fluxFlags : r'.fluxFlags = r.fluxFlags
  TFlags : r'.TFlags = r.TFlags
  flux : r'.flux = .fin s * r.flux
  fluxErr : r'.fluxErr = .fin s * r.fluxErr
  s2n : r'.s2n = r.s2n
  T : r'.T = r.T
  Terr : r'.Terr = r.Terr
  e1 : r'.e1 = r.e1
  e2 : r'.e2 = r.e2
  eErr : r'.eErr = r.eErr
  eCovDiag : r'.eCovDiag = r.eCovDiag
  pars : r'.pars = r.pars.map (parsInUnit s)
  named : r'.named = r.named.map (namedInUnit s)

/-- Relation of two outcomes of the last steps. -/
def OutcomeInUnit (s : ℝ) : Except PyErr MomRes → Except PyErr MomRes → Prop
  | .ok r, .ok r' => SameInUnit s r r'
  | .error e, .error e' => e = e'
  | _, _ => False

/-- A pixel in another unit of brightness: the error changes with the value. -/
noncomputable def pixelInUnit (s : ℝ) (p : Pixel) : Pixel := { p with val := s * p.val, ierr := p.ierr / s }

/-- Relation of outcomes of weighted moments. -/
def MomentsInUnit (s : ℝ) : Except PyErr WMom → Except PyErr WMom → Prop
  | .ok w, .ok w' => SameInUnit s w.res w'.res ∧ w'.wsum = w.wsum ∧ w'.npix = w.npix
  | .error e, .error e' => e = e'
  | _, _ => False

/-- An observation in another unit of brightness: the weights change with the values. -/
noncomputable def preObsInUnit (s : ℝ) (o : PreObs) : PreObs :=
  { o with image := { o.image with get := fun r c => s * o.image.get r c }
           weight := { o.weight with get := fun r c => o.weight.get r c / s ^ 2 } }

/-- Relation of outcomes of pre-psf moments. -/
def PreInUnit (s : ℝ) : Except PyErr (Option MomRes × Kernels) → Except PyErr (Option MomRes × Kernels) → Prop
  | .ok (some r, K), .ok (some r', K') => SameInUnit s r r' ∧ r'.sumsNorm = r.sumsNorm ∧ K' = K
  | .ok (none, K), .ok (none, K') => K' = K
  | .error e, .error e' => e = e'
  | _, _ => False

open Classical in
/-- The transform of the image divided by that of the psf, with the object moved to the origin, at one mode. -/
noncomputable def deconvAt (n : ℕ) (kim kpsf : ℕ → ℕ → ℂ) (dr dc : ℝ) (r c : ℕ) : ℂ :=
  if dr ≠ 0 ∨ dc ≠ 0 then kim r c / psfUsed (kpsf r c) ‖kpsf 0 0‖ * cenPhase n dr dc r c
  else kim r c / psfUsed (kpsf r c) ‖kpsf 0 0‖

end Ngmix.Spec
