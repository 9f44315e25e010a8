import Verif.Model.FitModel
import Verif.Model.Leastsq

/-!
# Model of `/repo/ngmix/fitting/fitters.py` (`Fitter`, `CoellipFitter`) and of the results they fill

`fitting/results.py`, the part of `FitModel` used after the minimisation: statistics, mixtures and images at the
fitted parameters.  The minimiser is an arbitrary interactive procedure, which evaluates the objective of the
object under construction; every evaluation changes the mutable part of that object.
-/

namespace Ngmix

noncomputable section

/-- A procedure which evaluates a function at points of its choice, each of which may depend on all the earlier
values, and then ends: `leastsqbound(func, guess, bounds=..., full_output=1)` of `leastsqbound.py:289-552`, or
`scipy.optimize.leastsq` in its place.  `leastsqbound.py:68`. -/
inductive Proc (α : Type)
  | ret (r : Except LmErr α)
  | ask (x : List (Option ℝ)) (k : List Fl → Proc α)

/-- Run with a function that has no state.  An exception of the function ends the procedure.  `leastsqbound.py:68`. -/
def Proc.run {α : Type} (f : List (Option ℝ) → Except LmErr (List Fl)) : Proc α → Except LmErr α
  | .ret r => r
  | .ask x k =>
    match f x with
    | .error e => .error e
    | .ok y => (k y).run f

/-- Run with a method of an object with a state, which every call may change.  `leastsqbound.py:68`,
`fitters.py:57-63`. -/
def Proc.runS {α σ : Type} (f : σ → List (Option ℝ) → σ × Except LmErr (List Fl)) :
    σ → Proc α → σ × Except LmErr α
  | s, .ret r => (s, r)
  | s, .ask x k =>
    match f s x with
    | (s', .error e) => (s', .error e)
    | (s', .ok y) => Proc.runS f s' (k y)

/-- MINPACK, then `fin` on what it returns.  `leastsqbound.py:469-552`. -/
def Minpack.toProc {n : ℕ} {α : Type} (conv : List (Option ℝ) → List (Option ℝ))
    (fin : MinpackOut n → Except LmErr α) : Minpack n → Proc α
  | .ret o => .ret (fin o)
  | .ask x k => .ask (conv x) fun y => (k y).toProc conv fin

/-- What `leastsqbound` makes of MINPACK's output.  `leastsqbound.py:495-552`. -/
def lmFinish {n : ℕ} (inv : NpInv n) (bounds : List Bound) (o : MinpackOut n) : Except LmErr (LmTup n) :=
  if o.info < 0 ∨ 8 < o.info then .error (.py .key)
  else
    let cov :=
      if 1 ≤ o.info ∧ o.info ≤ 4 then covX inv (fun i => gradAt bounds o.x i.val) o.r o.ipvt else none
    .ok ⟨i2e bounds o.x, cov, o.nfev, o.info⟩

/-- `leastsqbound` of `leastsqbound.py:289-552` as a procedure: `dflt` is `scipy.optimize.leastsq`, used without
bounds, `minpack` is MINPACK's `lmdif`. -/
def leastsqboundProc (n : ℕ) (inv : NpInv n) (dflt : Proc (LmTup n)) (minpack : List (Option ℝ) → Minpack n) (x0 : List ℝ)
    (bounds : Option (List Bound)) : Proc (LmTup n) :=
  match bounds with
  | none => dflt
  | some bounds =>
    if bounds.length ≠ x0.length then .ret (.error (.py .value))
    else .ask (x0.map some) fun y0 =>
      if x0.length > y0.length then .ret (.error (.py .type))
      else (minpack (e2i bounds (x0.map some))).toProc (i2e bounds) (lmFinish inv bounds)

/-- `leastsqbound` with the bounds of the joint prior.  `leastsqbound.py:440-460`, `fitters.py:57-63`. -/
def lmStd (inv : (n : ℕ) → NpInv n) (dflt : (guess : List ℝ) → Proc (LmTup guess.length))
    (minpack : (n : ℕ) → List (Option ℝ) → Minpack n) (guess : List ℝ) (bounds : Option (List BEntry)) :
    Proc (LmTup guess.length) :=
  match bounds with
  | none => dflt guess
  | some b =>
    match JointPrior.unpackBounds guess.length b with
    | .error e => .ret (.error (.py e))
    | .ok bs => leastsqboundProc guess.length (inv guess.length) (dflt guess) (minpack guess.length) guess (some bs)

/-- The parameters, when none is NaN.  `results.py:439`. -/
def allReal : List (Option ℝ) → Option (List ℝ)
  | [] => some []
  | none :: _ => none
  | some x :: l => (allReal l).map fun r => x :: r

/-- An exception seen by `run_leastsq`.  `leastsqbound.py:128-155`. -/
def toLm {α : Type} : Except PyErr α → Except LmErr α
  | .ok a => .ok a
  | .error e => .error (.py e)

/-- `fit_model.calc_fdiff` as called by the minimiser, `results.py:439-466`, `fitters.py:58`.  At parameters with
NaN entries the outcome is arbitrary (`nanEval`) and the mixtures are taken as left alone: every later evaluation
fills them anew. -/
def evalS (fm : FitModel) (nanEval : List (Option ℝ) → Except LmErr (List Fl)) (st : FMState)
    (x : List (Option ℝ)) : FMState × Except LmErr (List Fl) :=
  match allReal x with
  | none => (st, nanEval x)
  | some p =>
    match calcFdiff fm st p with
    | (st', r) => (st', toLm r)

/-- `_set_bounds`, `results.py:389-396`: every joint prior has the attribute, which may be `None`. -/
def fitBounds (prior : Option JointPrior) : Option (List BEntry) :=
  prior.bind fun p => p.bounds

/-- The indices `a:b` of an axis of length `n` (numpy clips).  `results.py:400-401, 868-870`. -/
def sliceIdx (n a b : ℕ) : List (Fin n) :=
  (List.range (b - a)).filterMap fun k => if h : a + k < n then some ⟨a + k, h⟩ else none

/-- Rows and columns `a:b` of a matrix.  `results.py:400, 870`. -/
def covSlice {n : ℕ} (c : Fin n → Fin n → Fl) (a b : ℕ) : List (List Fl) :=
  (sliceIdx n a b).map fun i => (sliceIdx n a b).map fun j => c i j

/-- Entries `a:b` of a vector.  `results.py:401`. -/
def vecSlice {n : ℕ} (c : Fin n → Fl) (a b : ℕ) : List Fl := (sliceIdx n a b).map c

/-- A diagonal entry, `IndexError` past the end.  `results.py:405, 867`. -/
def covDiag {n : ℕ} (c : Fin n → Fin n → Fl) (i : ℕ) : Except PyErr Fl :=
  if h : i < n then .ok (c ⟨i, h⟩ ⟨i, h⟩) else .error .index

/-- An entry of the parameters.  `results.py:404, 866`. -/
def parEntry (pars : List ℝ) (i : ℕ) : Except PyErr ℝ :=
  match pars[i]? with
  | some x => .ok x
  | none => .error .index

/-- The flux entries of the result: none for coelliptical mixtures, numbers for one band, arrays otherwise. 
`results.py:864-872`, `:504-508`. -/
inductive FluxRes
  | absent
  | one (flux : ℝ) (err : Fl)
  | many (flux : List ℝ) (cov : List (List Fl)) (err : List Fl)

/-- The entries that `set_fit_result` adds when the flags are zero.  `results.py:52-72`. -/
structure FitStats where
  lnprob : Fl
  s2nNumer : ℝ
  s2nDenom : ℝ
  npix : ℕ
  chi2per : Fl
  dof : ℤ
  s2nW : ℝ
  s2n : ℝ
  g : List ℝ
  gCov : List (List Fl)
  gErr : List Fl
  T : ℝ
  TErr : Fl
  flux : FluxRes

/-- The result: the entries of `run_leastsq` and, when its flags are zero, the statistics.  `results.py:45-72`. -/
structure FitResult (n : ℕ) where
  lm : LmResult n
  stats : Option FitStats

/-- Where the fluxes start.  `results.py:856-862`. -/
def fluxStart (model : String) : ℕ :=
  if model = "bd" then 7 else if model = "bdf" then 6 else 5

/-- `_set_flux`, `results.py:843-872`; `CoellipFitModel` does nothing (`:504-508`).  numpy's `sqrt` of a negative
variance is NaN. -/
def fitSetFlux {n : ℕ} (kind : FMKind) (nband : ℕ) (pars : List ℝ) (cov : Fin n → Fin n → Fl) : Except PyErr FluxRes :=
  match kind with
  | .coellip _ => .ok .absent
  | .std model =>
    if model = "coellip" then .error .assertion
    else
      let start := fluxStart model
      if nband = 1 then
        (parEntry pars start).bind fun F => (covDiag cov start).map fun v => .one F v.sqrt
      else
        .ok (.many (pars.drop start) (covSlice cov start n)
          (vecSlice (fun i => (cov i i).sqrt) start n))

/-- The statistics, `results.py:52-72`, with `_set_g` `:398-401` and `_set_T` `:403-405`, from the output of
`calc_lnprob`.  A zero number of degrees of freedom is a `ZeroDivisionError` when the
log probability is a python float (a numpy one gives a warning and infinity or NaN); the fitter does not come here then,
`run_leastsq` having set `ZERO_DOF`. -/
def fitStats {n : ℕ} (kind : FMKind) (nband npars : ℕ) (pars : List ℝ) (err : Fin n → Fl) (cov : Fin n → Fin n → Fl)
    (c : LnprobRes) : Except PyErr FitStats :=
  let s2n := open Classical in if 0 < c.denom then c.numer / Real.sqrt c.denom else 0
  let chi2 := c.lnprob / .fin (-0.5)
  let dof : ℤ := (c.npix : ℤ) - npars
  if dof = 0 then .error .zeroDiv
  else
    let chi2per := chi2 / .fin (dof : ℝ)
    (parEntry pars 4).bind fun T => (covDiag cov 4).bind fun vT => (fitSetFlux kind nband pars cov).map fun flux =>
      { lnprob := c.lnprob, s2nNumer := c.numer, s2nDenom := c.denom, npix := c.npix, chi2per := chi2per, dof := dof,
        s2nW := s2n, s2n := s2n, g := (pars.drop 2).take 2, gCov := covSlice cov 2 4, gErr := vecSlice err 2 4,
        T := T, TErr := vT.sqrt, flux := flux }

/-- `set_fit_result`, `results.py:45-72`, on an object without earlier results.  The outcome at parameters with NaN
entries (`nanStats`) is arbitrary.  With flags zero `pars_err` is there. -/
def setFitResult {n : ℕ} (fm : FitModel) (nanStats : Except PyErr FitStats) (st : FMState) (r : LmResult n) :
    FMState × Except PyErr (FitResult n) :=
  if r.flags = 0 then
    match allReal r.pars with
    | none => (st, nanStats.map fun s => ⟨r, some s⟩)
    | some p =>
      match calcLnprob fm st p with
      | (st', .error e) => (st', .error e)
      | (st', .ok c) =>
        (st', (fm.kind.npars fm.obs.length).bind fun npars =>
          match r.parsErr with
          | none => .error .key
          | some err => (fitStats fm.kind fm.obs.length npars p err r.parsCov c).map fun s => ⟨r, some s⟩)
  else (st, .ok ⟨r, none⟩)

/-- The final evaluation of `run_leastsq`, `leastsqbound.py:88-91`, is reached. -/
def finalEval {n : ℕ} (lm : Except LmErr (LmTup n)) : Option (List (Option ℝ)) :=
  match lm with
  | .error _ => none
  | .ok t => if t.info ≠ 0 ∧ t.info ≤ 4 ∧ t.cov.isSome then some t.x else none

/-- `Fitter.go`, `fitters.py:38-66`, with `_make_fit_model` `:68-71` or `:94-97` (settings: `fitters.py:91-93`); `run_leastsq` is `runLeastsq` on the
outcome of the minimiser.  Returns the object with its state and the result. -/
def fitterGo (kind : FMKind) (prior : Option JointPrior)
    (lm : (guess : List ℝ) → Option (List BEntry) → Proc (LmTup guess.length))
    (eig : (n : ℕ) → (Fin n → Fin n → Fl) → Option (List Fl))
    (nanEval : List (Option ℝ) → Except LmErr (List Fl)) (nanStats : Except PyErr FitStats)
    (obs : List (List Img)) (guess : List ℝ) :
    Except PyErr (FitModel × FMState × FitResult guess.length) :=
  (newFitModel kind prior obs guess).bind fun x =>
    (kind.nPriorPars prior obs.length).bind fun npp =>
      match Proc.runS (evalS x.1 nanEval) x.2 (lm guess (fitBounds prior)) with
      | (st1, t) =>
        (runLeastsq guess.length (fun y => (evalS x.1 nanEval st1 y).2) (eig guess.length) npp false t).bind fun r =>
          let st2 := match finalEval t with
            | none => st1
            | some y => (evalS x.1 nanEval st1 y).1
          match setFitResult x.1 nanStats st2 r with
          | (st3, res) => res.map fun res => (x.1, st3, res)

/-- `get_gmix`, `results.py:74-86` (Python's negative bands are not modelled). -/
def fitGetGmix (fm : FitModel) (pars : List ℝ) (band : ℕ) : Except PyErr GMixObj :=
  (fm.kind.bandPars pars band).bind fun bp => makeGmixModel bp fm.kind.arg

/-- `self.obs[band][obsnum]`, `results.py:104, 119`. -/
def obsAt (fm : FitModel) (band obsnum : ℕ) : Except PyErr Img :=
  match fm.obs[band]? with
  | none => .error .index
  | some is =>
    match is[obsnum]? with
    | none => .error .index
    | some i => .ok i

/-- `get_convolved_gmix`, `results.py:88-108`. -/
def fitGetConvolvedGmix (fm : FitModel) (pars : List ℝ) (band obsnum : ℕ) : Except PyErr GMixObj :=
  (fitGetGmix fm pars band).bind fun gm =>
    (obsAt fm band obsnum).bind fun i =>
      match i.psf with
      | .ok q => convolveObj gm q
      | .error _ => .ok gm

/-- `make_image`, `results.py:110-123`, with `GMix.make_image` `gmix.py:510-530` and `_fill_image` `:586-610`: the
raveled image; `coords` are the coordinates of the pixels, `make_coords(image.shape, jacobian)`. -/
def fitMakeImage (fm : FitModel) (pars : List ℝ) (band obsnum : ℕ) (coords : List Coord) :
    Except PyErr (List (Option ℝ)) :=
  (fitGetConvolvedGmix fm pars band obsnum).bind fun gm =>
    (render gm.data coords (coords.map fun _ => some 0) false).2

end

end Ngmix
