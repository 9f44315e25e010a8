import Verif.Spec.WSums

/-!
# Specification: measurements with and without moments of higher order (C123)
-/

namespace Ngmix.Spec

open Ngmix

noncomputable section

/-- Unflagged measurements with six moments, `m`, and with seventeen, `m'`: all that the first gives is the same in the second. -/
structure SameBasics (m m' : WMom) : Prop where
  flux : m'.res.flux = m.res.flux ∧ m'.res.fluxErr = m.res.fluxErr ∧ m'.res.s2n = m.res.s2n
  size : m'.res.T = m.res.T ∧ m'.res.Terr = m.res.Terr
  shape : m'.res.e1 = m.res.e1 ∧ m'.res.e2 = m.res.e2 ∧ m'.res.eErr = m.res.eErr
  pars : m'.res.pars = m.res.pars
  sums : m'.res.sums.take 6 = m.res.sums ∧ m'.res.sumsErr.take 6 = m.res.sumsErr
  cov : ∀ i < 6, ∀ j < 6, m'.res.sumsCov.get i j = m.res.sumsCov.get i j
  norm : m'.wsum = m.wsum ∧ m'.res.sumsNorm = m.res.sumsNorm

end

end Ngmix.Spec
