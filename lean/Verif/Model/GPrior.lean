import Verif.Model.Priors
import Verif.Model.Leastsq

/-!
# A `GPriorBA` object through its life, `/repo/ngmix/priors/shape.py`

The attributes that the methods read and change: amplitude, width, the inverse square of the width, and the remembered
maximum of the one dimensional probability.  Positions are finite; the parameters tried by a minimiser may be NaN.
-/

namespace Ngmix

noncomputable section

/-- The attributes of a `GPriorBA`, `shape.py:496-518`, `:302-303`; `maxval` is `none` while there is no attribute
`maxval1d`.  `sig2`, `sig4`, `sig4inv` are not read by any method. -/
structure BaState where
  A : Fl
  sigma : Fl
  sig2inv : Fl
  maxval : Option ℝ

namespace BaState

/-- `set_sigma`, `shape.py:509-518`: a Python number of value zero cannot be inverted, a numpy number (`np`) can.  The
attributes set before the exception stay. -/
def setSigma (np : Bool) (x : Fl) (s : BaState) : BaState × Except PyErr Unit :=
  open Classical in
  if np = false ∧ Fl.isZero x then ({ s with sigma := x }, .error .zeroDiv)
  else ({ s with sigma := x, sig2inv := .fin 1 / Fl.sq x }, .ok ())

/-- `set_pars`, `shape.py:494-507`. -/
def setPars (np : Bool) (pars : List Fl) (s : BaState) : BaState × Except PyErr Unit :=
  match pars with
  | [] => (s, .error .index)
  | [a] => ({ s with A := a }, .error .index)
  | a :: b :: _ => setSigma np b { s with A := a }

/-- `GPriorBA(sigma, rng, A)`, `shape.py:465-469`, with Python numbers. -/
def new (sigma A : ℝ) : Except PyErr BaState :=
  let r := setPars false [.fin A, .fin sigma] ⟨.fin 0, .fin 0, .fin 0, none⟩
  r.2.map fun _ => r.1

/-- `get_prob_scalar1d`, `shape.py:608-625`. -/
def prob1d (s : BaState) (g : ℝ) : Fl :=
  let gsq := g * g
  let omgsq := 1 - gsq
  open Classical in
  if omgsq > 0 then
    s.A * (.fin (omgsq * omgsq) * expFl (.fin (-0.5 * gsq) * s.sig2inv) * .fin (2 * Real.pi * g))
  else s.A * .fin 0

/-- An element of `get_prob_array1d`, `shape.py:149-158`, `:627-640`. -/
def prob1dElem (s : BaState) (g : ℝ) : Fl :=
  let gsq := g * g
  let omgsq := 1 - gsq
  open Classical in
  if omgsq > 0 then
    .fin (omgsq * omgsq) * expFl (.fin (-0.5 * gsq) * s.sig2inv) * (s.A * .fin (2 * Real.pi) * .fin g)
  else .fin 0

/-- An element of `get_prob_array2d`, `shape.py:131-141`, `:583-595`. -/
def prob2dElem (s : BaState) (g1 g2 : ℝ) : Fl :=
  let gsq := g1 * g1 + g2 * g2
  let omgsq := 1 - gsq
  open Classical in
  if omgsq > 0 then s.A * .fin (omgsq * omgsq) * expFl (.fin (-0.5 * gsq) * s.sig2inv) else .fin 0

/-- `get_prob_scalar2d`, `shape.py:566-581`. -/
def prob2d (s : BaState) (g1 g2 : ℝ) : Fl :=
  let gsq := g1 * g1 + g2 * g2
  let omgsq := 1 - gsq
  open Classical in
  s.A * (if omgsq > 0 then .fin (omgsq * omgsq) * expFl (.fin (-0.5 * gsq) * s.sig2inv) else .fin 0)

/-- `scipy.optimize.minimize` (external): from the function and the guess, the status and the least value found.
`shape.py:292-303`. -/
abbrev Minimise := (ℝ → Fl) → Fl → ℤ × ℝ

/-- `set_maxval1d`, `shape.py:286-303`, with `get_prob_scalar1d_neg`, `:305-309`.  (The position of the maximum is also
remembered but not read.) -/
def setMaxval (minimise : Minimise) (maxguess : Fl) (s : BaState) : BaState × Except PyErr Unit :=
  let r := minimise (fun g => -s.prob1d g) maxguess
  if r.1 ≠ 0 then (s, .error .runtime) else ({ s with maxval := some (-r.2) }, .ok ())

/-- The guess of `GPriorBA.sample1d`, `shape.py:489-490`; `u` is the value of `srandu`. -/
def maxGuess (s : BaState) (maxguess : Option ℝ) (u : ℝ) : Fl :=
  match maxguess with
  | some g => .fin g
  | none => s.sigma + .fin (0.0001 * u)

/-- `if not hasattr(self, "maxval1d")`, `shape.py:179-180`. -/
def ensureMax (minimise : Minimise) (maxguess : Fl) (s : BaState) : BaState × Except PyErr Unit :=
  match s.maxval with
  | some _ => (s, .ok ())
  | none => s.setMaxval minimise maxguess

/-- The test `h < pvals` of `shape.py:193-201`: `u` and `v` are the two uniforms of a trial, `m` is `self.maxval1d`. -/
def keeps (s : BaState) (m u v : ℝ) : Prop := Fl.lt (.fin (m * 1.1 * v)) (s.prob1dElem ((1 - 1.0e-4) * u))

/-- `sample1d`, `shape.py:160-209`, `:471-492`.  The answer is `none` while more batches of trials are needed. -/
def sample (minimise : Minimise) (maxguess : Option ℝ) (u0 : ℝ) (n : ℕ) (draws : ℕ → ℕ → List (ℝ × ℝ)) (fuel : ℕ)
    (s : BaState) : BaState × Except PyErr (Option (List ℝ)) :=
  match s.ensureMax minimise (s.maxGuess maxguess u0) with
  | (s, .error e) => (s, .error e)
  | (s, .ok ()) =>
      match s.maxval with
      | none => (s, .error .attribute)
      | some m =>
          open Classical in
          (s, .ok ((rejLoop (fun d : ℝ × ℝ => decide (s.keeps m d.1 d.2)) n draws fuel 0 (rejInit (0, 0) n)).map
            fun l => l.map fun d => (1 - 1.0e-4) * d.1))

/-- The test of `sample2d_brute`, `shape.py:274-284`, on a trial at `(g1, g2)` with uniform `v`. -/
def keeps2d (s : BaState) (g1 g2 v : ℝ) : Prop := Fl.lt (s.prob2d 0 0 * .fin v) (s.prob2dElem g1 g2)

/-- `srandu`: a uniform of `[0, 1)` taken to `[-1, 1)`.  `random.py:16-32`. -/
def cube (u : ℝ) : ℝ := -1.0 + (1.0 - -1.0) * u

/-- `sample2d_brute`, `shape.py:250-284`; a trial has three uniforms. -/
def sampleBrute2d (s : BaState) (n : ℕ) (draws : ℕ → ℕ → List (ℝ × ℝ × ℝ)) (fuel : ℕ) : Option (List (ℝ × ℝ)) :=
  open Classical in
  (rejLoop (fun d : ℝ × ℝ × ℝ => decide (s.keeps2d (cube d.1) (cube d.2.1) d.2.2)) n draws fuel 0
    (rejInit (0, 0, 0) n)).map fun l => l.map fun d => (cube d.1, cube d.2.1)

/-! ### The fit -/

/-- A parameter of MINPACK as a double.  `leastsqbound.py:67-70`. -/
def ofPar : Option ℝ → Fl
  | none => .nan
  | some x => .fin x

/-- `_calc_fdiff`, `shape.py:351-356`: the parameters are set, then the residuals of the kept data computed. -/
def calcFdiff (data : List (ℝ × ℝ)) (pars : List (Option ℝ)) (s : BaState) : BaState × Except LmErr (List Fl) :=
  match s.setPars true (pars.map ofPar) with
  | (s, .error e) => (s, .error (.py e))
  | (s, .ok ()) => (s, .ok (data.map fun d => (s.prob1dElem d.1 - .fin d.2) * .fin (1.0 / Real.sqrt d.2)))

/-- The state after the residuals have been computed at each of the points.  `shape.py:351-356`. -/
def after (data : List (ℝ × ℝ)) (trace : List (List (Option ℝ))) (s : BaState) : BaState :=
  trace.foldl (fun s p => (calcFdiff data p s).1) s

/-- `_get_guess`, `shape.py:642-662`: `u1`, `u2` are the values of `srandu`.  Fewer than two points raise IndexError. -/
def fitGuess (data : List (ℝ × ℝ)) (u1 u2 : ℝ) : Except PyErr (ℝ × ℝ) :=
  match data with
  | p0 :: p1 :: _ =>
      .ok (1.3 * (data.map Prod.snd).sum * (p1.1 - p0.1) * (1.0 + 0.2 * u1), 0.16 * (1.0 + 0.2 * u2))
  | _ => .error .index

/-- `scipy.optimize.leastsq` (external) on two parameters: the points at which the function has been evaluated, in
order, and the outcome.  `leastsqbound.py:68-70`. -/
abbrev Lsq := (List (Option ℝ) → Except LmErr (List Fl)) → ℝ × ℝ → List (List (Option ℝ)) × Except LmErr (LmTup 2)

/-- The points at which `run_leastsq` has evaluated the function: those of the minimiser, then the solution if a
covariance was found.  `leastsqbound.py:68-91`. -/
def lsqTrace (r : List (List (Option ℝ)) × Except LmErr (LmTup 2)) : List (List (Option ℝ)) :=
  match r.2 with
  | .error _ => r.1
  | .ok t => if t.info ≠ 0 ∧ t.info ≤ 4 ∧ t.cov.isSome then r.1 ++ [t.x] else r.1

/-- `fit(xdata, ydata, guess)`, `shape.py:311-349`, with a guess of two entries, and as many abscissae as ordinates:
the state left, the fitted parameters and covariance (`fit_pars`, `fit_pars_cov`) if they were set, and the outcome.
Nothing is returned. -/
def fit (lsq : Lsq) (eig : (Fin 2 → Fin 2 → Fl) → Option (List Fl)) (xy : List (ℝ × ℝ)) (guess : Option (ℝ × ℝ))
    (u1 u2 : ℝ) (s : BaState) : BaState × Option (List (Option ℝ)) × Except PyErr Unit :=
  open Classical in
  let data := xy.filter fun d => decide (d.2 > 0)
  match (match guess with | some g => Except.ok g | none => fitGuess data u1 u2) with
  | .error e => (s, none, .error e)
  | .ok g =>
      let func := fun pars => (calcFdiff data pars s).2
      let r := lsq func g
      let s := s.after data (lsqTrace r)
      match runLeastsq 2 func eig 0 false r.2 with
      | .error e => (s, none, .error e)
      | .ok res =>
          match res.parsErr with
          | none => (s, some res.pars, .error .key)
          | some _ => (s, some res.pars, .ok ())

end BaState

/-! ### Histories -/

/-- What a caller can do with a `GPriorBA` that changes it.  `shape.py:160-356`, `:471-518`. -/
inductive BaOp
  | setSigma (np : Bool) (x : Fl)
  | setPars (np : Bool) (pars : List Fl)
  | setMaxval (minimise : BaState.Minimise) (maxguess : Fl)
  | sample (minimise : BaState.Minimise) (maxguess : Option ℝ) (u0 : ℝ) (n : ℕ) (draws : ℕ → ℕ → List (ℝ × ℝ))
      (fuel : ℕ)
  | fit (lsq : BaState.Lsq) (eig : (Fin 2 → Fin 2 → Fl) → Option (List Fl)) (xy : List (ℝ × ℝ))
      (guess : Option (ℝ × ℝ)) (u1 u2 : ℝ)

/-- The state an operation leaves, whether it raises or not.  `shape.py:160-356`, `:471-518`. -/
def BaOp.step (s : BaState) : BaOp → BaState
  | .setSigma np x => (s.setSigma np x).1
  | .setPars np p => (s.setPars np p).1
  | .setMaxval mi g => (s.setMaxval mi g).1
  | .sample mi g u0 n d f => (s.sample mi g u0 n d f).1
  | .fit lsq eig xy g u1 u2 => (s.fit lsq eig xy g u1 u2).1

/-- A history of operations.  `shape.py:160-356`, `:471-518`. -/
def baRun (s : BaState) (ops : List BaOp) : BaState := ops.foldl BaOp.step s

end

end Ngmix
