import Verif.Model.Basic
import Mathlib.Data.Nat.Notation
import Mathlib.Data.Int.Notation

/-!
# Model of `/repo/ngmix/flags.py`
-/

namespace Ngmix

namespace Flags

/-! `flags.py:3-30`. -/

/-- `flags.py:3` -/
def NO_ATTEMPT : ℕ := 2 ^ 0
/-- `flags.py:4` -/
def CEN_SHIFT : ℕ := 2 ^ 1
/-- `flags.py:5` -/
def NONPOS_FLUX : ℕ := 2 ^ 2
/-- `flags.py:6` -/
def NONPOS_SIZE : ℕ := 2 ^ 3
/-- `flags.py:7` -/
def LOW_DET : ℕ := 2 ^ 4
/-- `flags.py:8` -/
def MAXITER : ℕ := 2 ^ 5
/-- `flags.py:9` -/
def NONPOS_VAR : ℕ := 2 ^ 6
/-- `flags.py:10` -/
def GMIX_RANGE_ERROR : ℕ := 2 ^ 7
/-- `flags.py:11` -/
def NONPOS_SHAPE_VAR : ℕ := 2 ^ 8
/-- `flags.py:14` -/
def LM_SINGULAR_MATRIX : ℕ := 2 ^ 9
/-- `flags.py:15` -/
def LM_NEG_COV_EIG : ℕ := 2 ^ 10
/-- `flags.py:16` -/
def LM_NEG_COV_DIAG : ℕ := 2 ^ 11
/-- `flags.py:17` -/
def LM_FUNC_NOTFINITE : ℕ := 2 ^ 12
/-- `flags.py:20` -/
def EIG_NOTFINITE : ℕ := 2 ^ 13
/-- `flags.py:22` -/
def DIV_ZERO : ℕ := 2 ^ 14
/-- `flags.py:23` -/
def ZERO_DOF : ℕ := 2 ^ 15
/-- `flags.py:26` -/
def EM_RANGE_ERROR : ℕ := GMIX_RANGE_ERROR
/-- `flags.py:27` -/
def EM_MAXITER : ℕ := MAXITER
/-- `flags.py:28` -/
def BAD_VAR : ℕ := NONPOS_VAR

/-- `flags.py:30-57` `NAME_MAP`, as an association list. -/
def NAME_MAP : List (ℕ × String) := [
  (NO_ATTEMPT, "no attempt"),
  (CEN_SHIFT, "center shifted too far"),
  (NONPOS_FLUX, "flux <= 0"),
  (NONPOS_SIZE, "T <= 0"),
  (LOW_DET, "determinant near zero"),
  (MAXITER, "max iterations reached"),
  (NONPOS_VAR, "non-positive (definite) variance"),
  (NONPOS_SHAPE_VAR, "non-positive shape variance"),
  (GMIX_RANGE_ERROR, "GMixRangeError raised"),
  (LM_SINGULAR_MATRIX, "singular matrix in LM"),
  (LM_NEG_COV_EIG, "negative covariance eigenvalue in LM"),
  (LM_NEG_COV_DIAG, "negative covariance diagional value in LM"),
  (LM_FUNC_NOTFINITE, "function not finite in LM"),
  (EIG_NOTFINITE, "eigenvalues of covariance cannot be found in LM"),
  (DIV_ZERO, "divide by zero"),
  (ZERO_DOF, "degrees of freedom for it is zero (no chi^2/dof possible)")]

/-- `"bit 2**%d" % pow`, `flags.py:96`. -/
def bitName (pow : ℕ) : String := "bit 2**" ++ toString pow

/-- Loop body of `flags.py:90-96`: append the name of bit `pow` when it is set. -/
def strStep (nameMap : List (ℕ × String)) (val : ℕ) (nstrs : List String) (pow : ℕ) :
    List String :=
  let fval := 2 ^ pow
  if val &&& fval ≠ 0 then
    match nameMap.lookup fval with
    | some s => nstrs ++ [s]
    | none => nstrs ++ [bitName pow]
  else nstrs

/-- `flags.py:60-97` `get_flags_str(val, name_map)`.  The `uint32` conversion of a value of
`2^32` or more is modelled as numpy >= 2 does it (`OverflowError`). -/
def getFlagsStr (val : ℤ) (nameMap : List (ℕ × String) := NAME_MAP) : Except PyErr String :=
  if val < 0 then .error .value
  else if val ≥ 2 ^ 32 then .error .overflow
  else .ok ("|".intercalate ((List.range 31).foldl (strStep nameMap val.toNat) []))

end Flags

end Ngmix
