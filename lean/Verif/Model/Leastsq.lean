import Verif.Model.Basic
import Verif.Model.Fl
import Verif.Model.Flags
import Mathlib.Analysis.SpecialFunctions.Trigonometric.Inverse
import Mathlib.Data.List.FinRange

/-!
# Model of `/repo/ngmix/fitting/leastsqbound.py`

Parameter values are `Option ℝ`: `none` is NaN (the only non finite value that the bound
transforms can produce from finite input).
-/

namespace Ngmix

noncomputable section

/-- A `(lower, upper)` pair, `None` where there is no bound.  `leastsqbound.py:217-231`. -/
abbrev Bound := Option ℝ × Option ℝ

/-- `leastsqbound.py:217-231` `_internal2external_lambda(bound)` applied to `x`. -/
def i2eLam (b : Bound) (x : ℝ) : ℝ :=
  match b with
  | (none, none) => x
  | (some lower, none) => lower - 1 + Real.sqrt (x * x + 1)
  | (none, some upper) => upper + 1 - Real.sqrt (x * x + 1)
  | (some lower, some upper) => lower + ((upper - lower) / 2) * (Real.sin x + 1)

/-- `numpy.sqrt` of a finite number; NaN for a negative one.  `leastsqbound.py:249-263`. -/
def sqrtNan (x : ℝ) : Option ℝ :=
  open Classical in if x < 0 then none else some (Real.sqrt x)

/-- `numpy.arcsin` of a finite number; NaN outside `[-1, 1]`.  `leastsqbound.py:263`. -/
def arcsinNan (x : ℝ) : Option ℝ :=
  open Classical in if x < -1 ∨ 1 < x then none else some (Real.arcsin x)

/-- `leastsqbound.py:249-263` `_external2internal_lambda(bound)` applied to `x`.  With
`lower == upper` the numpy division by zero gives inf or NaN, whose arcsin is NaN. -/
def e2iLam (b : Bound) (x : ℝ) : Option ℝ :=
  match b with
  | (none, none) => some x
  | (some lower, none) => sqrtNan ((x - lower + 1) ^ 2 - 1)
  | (none, some upper) => sqrtNan ((upper - x + 1) ^ 2 - 1)
  | (some lower, some upper) =>
    open Classical in
    if upper - lower = 0 then none
    else arcsinNan (2 * (x - lower) / (upper - lower) - 1)

/-- `leastsqbound.py:183-199` one entry of `_internal2external_grad(xi, bounds)`. -/
def i2eGrad (b : Bound) (v : ℝ) : ℝ :=
  match b with
  | (none, none) => 1
  | (some _, none) => v / Real.sqrt (v * v + 1)
  | (none, some _) => -v / Real.sqrt (v * v + 1)
  | (some lower, some upper) => (upper - lower) * Real.cos v / 2

/-- `leastsqbound.py:202-214` `convert_i2e(xi)`; NaN entries stay NaN.  The minimiser always
passes as many values as there are bounds. -/
def i2e (bounds : List Bound) (xi : List (Option ℝ)) : List (Option ℝ) :=
  (bounds.zip xi).map fun p => p.2.map (i2eLam p.1)

/-- `leastsqbound.py:234-246` `convert_e2i(xe)` (equal lengths). -/
def e2i (bounds : List Bound) (xe : List (Option ℝ)) : List (Option ℝ) :=
  (bounds.zip xe).map fun p => p.2.bind (e2iLam p.1)

/-- Exceptions seen by `run_leastsq`: a `ValueError` whose message mentions NaNs or infs is
treated apart from every other one (`leastsqbound.py:128-141`). -/
inductive LmErr
  | notFinite
  | py (e : PyErr)
  deriving DecidableEq

/-- What MINPACK returns: solution (internal parameters), the leading `n x n` block of the
transposed `fjac` (the `r` of the QR factorisation), the pivots `ipvt - 1`, the number of calls and
`info`.  `leastsqbound.py:469-520`. -/
structure MinpackOut (n : ℕ) where
  x : List (Option ℝ)
  r : Fin n → Fin n → Fl
  ipvt : Fin n → Fin n
  nfev : ℕ
  info : ℤ

/-- MINPACK's `lmdif` as an arbitrary interactive procedure: it evaluates the function at points
of its choice, each of which may depend on all earlier values, and finally returns.  (External
code: any such procedure is allowed.).  `leastsqbound.py:469-493`. -/
inductive Minpack (n : ℕ)
  | ret (o : MinpackOut n)
  | ask (x : List (Option ℝ)) (k : List Fl → Minpack n)

/-- Run the minimiser with the function `f`.  The first component is the list of points at which
`f` was called.  An exception raised by `f` aborts the minimiser and propagates.  `leastsqbound.py:469-493`. -/
def Minpack.run {n : ℕ} (f : List (Option ℝ) → Except LmErr (List Fl)) :
    Minpack n → List (List (Option ℝ)) × Except LmErr (MinpackOut n)
  | .ret o => ([], .ok o)
  | .ask x k =>
    match f x with
    | .error e => ([x], .error e)
    | .ok y => (x :: ((k y).run f).1, ((k y).run f).2)

/-- `numpy.dot` of two square matrices.  `leastsqbound.py:545-547`. -/
def flDot {n : ℕ} (A B : Fin n → Fin n → Fl) : Fin n → Fin n → Fl :=
  fun i k => (List.finRange n).foldl (fun a j => a + A i j * B j k) (.fin 0)

/-- `numpy.linalg.inv`: the inverse, or `none` for a `LinAlgError`.  External, and not constrained here on matrices
with NaN or infinities.  `leastsqbound.py:540-549`. -/
abbrev NpInv (n : ℕ) := (Fin n → Fin n → Fl) → Option (Fin n → Fin n → Fl)

/-- The gradient of one parameter at MINPACK's solution, NaN where that is NaN and the parameter bounded.
`leastsqbound.py:183-199, 534`. -/
def gradAt (bounds : List Bound) (x : List (Option ℝ)) (i : ℕ) : Fl :=
  match bounds[i]?, x[i]? with
  | some (none, none), _ => .fin 1
  | some b, some (some v) => .fin (i2eGrad b v)
  | _, _ => .nan

/-- `R = dot(triu(fjac.T[:n,:]), perm)`, the columns of `fjac.T` having been divided by the permuted gradient.
`leastsqbound.py:534-545`. -/
def covR {n : ℕ} (grad : Fin n → Fl) (r : Fin n → Fin n → Fl) (ipvt : Fin n → Fin n) : Fin n → Fin n → Fl :=
  flDot (fun i j => if i ≤ j then r i j / grad (ipvt j) else .fin 0) (fun j k => if k = ipvt j then .fin 1 else .fin 0)

/-- `leastsqbound.py:533-549`: `cov_x = inv(dot(R.T, R))`, `None` when `inv` refuses. -/
def covX {n : ℕ} (inv : NpInv n) (grad : Fin n → Fl) (r : Fin n → Fin n → Fl) (ipvt : Fin n → Fin n) :
    Option (Fin n → Fin n → Fl) :=
  let R := covR grad r ipvt
  inv (flDot (fun i j => R j i) R)

/-- The tuple returned by `leastsqbound(..., full_output=1)` (mesg left out).  `leastsqbound.py:68-70`. -/
structure LmTup (n : ℕ) where
  x : List (Option ℝ)
  cov : Option (Fin n → Fin n → Fl)
  nfev : ℕ
  info : ℤ

/-- `leastsqbound.py:289-552` `leastsqbound(func, x0, bounds=bounds, full_output=1)` (with `_check_func`, `leastsqbound.py:266-286`, which calls the function once and, with no shape to compare, returns its shape) with
`Dfun=None`.  `dflt` is `scipy.optimize.leastsq`, used without bounds.  The first component of the
result lists the points at which `func` has been called.  `minpack` gets the internal starting
point; `inv` is `numpy.linalg.inv`. -/
def leastsqbound (n : ℕ) (inv : NpInv n) (func : List (Option ℝ) → Except LmErr (List Fl))
    (dflt : List (List (Option ℝ)) × Except LmErr (LmTup n))
    (minpack : List (Option ℝ) → Minpack n) (x0 : List ℝ) (bounds : Option (List Bound)) :
    List (List (Option ℝ)) × Except LmErr (LmTup n) :=
  match bounds with
  | none => dflt
  | some bounds =>
    let x0e := x0.map some
    let i0 := e2i bounds x0e
    if bounds.length ≠ x0.length then ([], .error (.py .value))
    else
      -- `_check_func` calls the function with the *external* starting point
      match func x0e with
      | .error e => ([x0e], .error e)
      | .ok y0 =>
        if x0.length > y0.length then ([x0e], .error (.py .type))
        else
          let res := (minpack i0).run (fun x => func (i2e bounds x))
          (x0e :: (res.1.map (i2e bounds)),
            match res.2 with
            | .error e => .error e
            | .ok o =>
              if o.info < 0 ∨ 8 < o.info then .error (.py .key)
              else
                let cov :=
                  if 1 ≤ o.info ∧ o.info ≤ 4 then covX inv (fun i => gradAt bounds o.x i.val) o.r o.ipvt else none
                .ok ⟨i2e bounds o.x, cov, o.nfev, o.info⟩)

/-- `defaults.py:10` -/
def PDEF : ℝ := -9.999e9
/-- `defaults.py:11` -/
def CDEF : ℝ := 9.999e9

/-- The result dictionary of `run_leastsq`; `pars_err` and `ier` are missing in the two exception
branches.  `leastsqbound.py:118-126, 133-138, 146-152`. -/
structure LmResult (n : ℕ) where
  flags : ℕ
  nfev : ℤ
  ier : Option ℤ
  pars : List (Option ℝ)
  parsErr : Option (Fin n → Fl)
  parsCov0 : Option (Fin n → Fin n → Fl)
  parsCov : Fin n → Fin n → Fl

/-- `leastsqbound.py:158-162` `_get_def_stuff`. -/
def defPars (n : ℕ) : List (Option ℝ) := List.replicate n (some PDEF)
/-- `leastsqbound.py:158-162` `_get_def_stuff`. -/
def defCov (n : ℕ) : Fin n → Fin n → Fl := fun _ _ => .fin CDEF
/-- `leastsqbound.py:158-162` `_get_def_stuff`. -/
def defErr (n : ℕ) : Fin n → Fl := fun _ => .fin CDEF

/-- `leastsqbound.py:165-180` `_test_cov(pcov)`; `eig` is `numpy.linalg.eig`: the eigenvalues, or
`none` for a `LinAlgError`. -/
def testCov {n : ℕ} (eig : (Fin n → Fin n → Fl) → Option (List Fl)) (pcov : Fin n → Fin n → Fl) : ℕ :=
  match eig pcov with
  | none => Flags.EIG_NOTFINITE
  | some e =>
    open Classical in
    (if ∃ x ∈ e, Fl.lt x (.fin 0) then Flags.LM_NEG_COV_EIG else 0) |||
    (if ∃ i, Fl.lt (pcov i i) (.fin 0) then Flags.LM_NEG_COV_DIAG else 0)

/-- `(fdiff ** 2).sum()`.  `leastsqbound.py:105`. -/
def flSumSq (l : List Fl) : Fl := l.foldl (fun a x => a + Fl.sq x) (.fin 0)

/-- `leastsqbound.py:94-99`: the degrees of freedom. -/
def lmDof (size nPrior npars : ℕ) (kSpace : Bool) : ℤ :=
  if kSpace then ((size : ℤ) - nPrior) / 2 - npars else (size : ℤ) - nPrior - npars

/-- `leastsqbound.py:67-126`, the `try` block of `run_leastsq`, given the outcome of
`leastsqbound`. -/
def runLeastsqTry (n : ℕ) (func : List (Option ℝ) → Except LmErr (List Fl))
    (eig : (Fin n → Fin n → Fl) → Option (List Fl)) (nPrior : ℕ) (kSpace : Bool)
    (lm : Except LmErr (LmTup n)) : Except LmErr (LmResult n) :=
  match lm with
  | .error e => .error e
  | .ok t =>
    if t.info = 0 then .error (.py .value)
    else
      let pcov0 := t.cov
      if t.info > 4 then
        .ok ⟨2 ^ (t.info - 5).toNat, t.nfev, some t.info, defPars n, some (defErr n), pcov0, defCov n⟩
      else
        match t.cov with
        | none =>
          .ok ⟨Flags.LM_SINGULAR_MATRIX, t.nfev, some t.info, t.x, some (defErr n), pcov0, defCov n⟩
        | some c =>
          match func t.x with
          | .error e => .error e
          | .ok fdiff =>
            let dof := lmDof fdiff.length nPrior n kSpace
            if dof = 0 then
              .ok ⟨Flags.ZERO_DOF, t.nfev, some t.info, t.x, some (defErr n), pcov0, defCov n⟩
            else
              let ssq := flSumSq (fdiff.drop nPrior) / .fin (dof : ℝ)
              let pcov : Fin n → Fin n → Fl := fun i j => c i j * ssq
              let cflags := testCov eig pcov
              if cflags ≠ 0 then
                .ok ⟨cflags, t.nfev, some t.info, t.x, some (defErr n), pcov0, pcov⟩
              else
                .ok ⟨0, t.nfev, some t.info, t.x, some (fun i => Fl.sqrt (pcov i i)), pcov0, pcov⟩

/-- `leastsqbound.py:128-155`, the two `except` clauses of `run_leastsq`. -/
def runLeastsqCatch (n : ℕ) : Except LmErr (LmResult n) → Except PyErr (LmResult n)
  | .ok r => .ok r
  | .error .notFinite =>
    .ok ⟨Flags.LM_FUNC_NOTFINITE, -1, none, defPars n, none, some (defCov n), defCov n⟩
  | .error (.py .zeroDiv) =>
    .ok ⟨Flags.DIV_ZERO, -1, none, defPars n, none, some (defCov n), defCov n⟩
  | .error (.py e) => .error e

/-- `leastsqbound.py:33-155` `run_leastsq(func, guess, n_prior_pars, ...)` given the outcome of
`leastsqbound`. -/
def runLeastsq (n : ℕ) (func : List (Option ℝ) → Except LmErr (List Fl))
    (eig : (Fin n → Fin n → Fl) → Option (List Fl)) (nPrior : ℕ) (kSpace : Bool)
    (lm : Except LmErr (LmTup n)) : Except PyErr (LmResult n) :=
  runLeastsqCatch n (runLeastsqTry n func eig nPrior kSpace lm)

end

end Ngmix
