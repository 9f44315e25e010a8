import Mathlib.Analysis.SpecialFunctions.Exp
import Verif.Model.Basic

/-!
# Model of `/repo/ngmix/fastexp_nb.py`
-/

namespace Ngmix

noncomputable section

/-- `fastexp_nb.py:20` -/
def fastexpMaxChi2 : ℝ := 25

/-- `fastexp_nb.py:5-29`: the table of `exp(ivals)`, `ivals = -15, ..., 0`; `_EXP_I0 = -15`. -/
def expLookup : List ℝ := (List.range 16).map fun k : ℕ => Real.exp ((k : ℝ) - 15)

/-- Python/numba `int(x)` on a float: truncation toward zero.  `fastexp_nb.py:45`. -/
def pyInt (x : ℝ) : ℤ := if x < 0 then ⌈x⌉ else ⌊x⌋

/-- `_EXP_LOOKUP[index]`.  numba does no bounds check; an index outside the table reads foreign
memory, which is `none` here.  (Negative indices wrap round once in numba; also `none`.).  `fastexp_nb.py:48`. -/
def lookupAt (index : ℤ) : Option ℝ :=
  if 0 ≤ index then expLookup[index.toNat]? else none

/-- The shared shape of `exp3`, `exp4`, `exp5`: table value times polynomial in the fraction.  `fastexp_nb.py:45-51, 70-76,
95-101`. -/
def fastExp (poly : ℝ → ℝ) (x : ℝ) : Option ℝ :=
  let ival := pyInt (x - 0.5)
  let f := x - ival
  let index := ival - (-15)
  (lookupAt index).map fun expval => expval * poly f

/-- `fastexp_nb.py:30-51` `exp3`. -/
def exp3 : ℝ → Option ℝ := fastExp fun f => (6 + f * (6 + f * (3 + f))) * 0.16666666

/-- `fastexp_nb.py:54-76` `exp4`. -/
def exp4 : ℝ → Option ℝ := fastExp fun f => (24 + f * (24 + f * (12 + f * (4 + f)))) * 0.041666666

/-- `fastexp_nb.py:79-101` `exp5`. -/
def exp5 : ℝ → Option ℝ :=
  fastExp fun f => (120 + f * (120 + f * (60 + f * (20 + f * (5 + f))))) * 0.0083333333

/-- `fastexp_nb.py:104` `fexp = exp5` and `:107-109` `fexp_arr`, the same on arrays, where the table lookup is defined; `C26_defined` shows it is on
every argument the callers use. -/
def fexp (x : ℝ) : ℝ := (exp5 x).getD 0

end

end Ngmix
