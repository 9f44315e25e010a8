import Verif.Spec.GaussTurn

/-!
# Specification: gaussian weighted moments in another unit of length (C120)
-/

namespace Ngmix.Spec

open Ngmix

noncomputable section

/-- The number of lengths in each of the seventeen moments: position, spin 2, size, flux, third and fourth order, and the radial
moments of order 6 and 8. -/
def lengthsIn : List ℕ := [1, 1, 2, 2, 2, 0, 3, 3, 3, 3, 4, 4, 4, 4, 4, 6, 8]

/-- Results of two unflagged measurements in units of length of which the second is `k` times smaller. -/
structure SameInLength (k : ℝ) (n : ℕ) (m m' : WMom) : Prop where
  npix : m'.npix = m.npix
  flux : m'.res.flux = m.res.flux ∧ m'.res.fluxErr = m.res.fluxErr ∧ m'.res.s2n = m.res.s2n
  /-- the size and its error are squared lengths -/
  size : ∃ T e, m.res.T = .fin T ∧ m'.res.T = .fin (k ^ 2 * T) ∧ m.res.Terr = .fin e ∧ m'.res.Terr = .fin (k ^ 2 * e)
  shape : m'.res.e1 = m.res.e1 ∧ m'.res.e2 = m.res.e2 ∧ m'.res.eErr = m.res.eErr
  /-- the sums by number -/
  sums : ∃ x : ℕ → ℝ, m.res.sums = (List.range n).map (fun i => .fin (x i)) ∧
    m'.res.sums = (List.range n).map fun i => .fin (k ^ lengthsIn.getD i 0 * x i)
  cov : ∀ i < n, ∀ j < n, ∃ c, m.res.sumsCov.get i j = .fin c ∧
    m'.res.sumsCov.get i j = .fin (k ^ (lengthsIn.getD i 0 + lengthsIn.getD j 0) * c)
  norm : m'.wsum = m.wsum ∧ m'.res.sumsNorm = m.res.sumsNorm

end

end Ngmix.Spec
