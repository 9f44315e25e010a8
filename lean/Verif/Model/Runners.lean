import Verif.Model.Basic
import Mathlib.Data.Nat.Notation
import Mathlib.Data.Int.Notation
import Mathlib.Logic.Function.Basic

/-!
# Model of `/repo/ngmix/runners.py` and `/repo/ngmix/bootstrap.py`

Observations are identified by a number (object identity); the heap says what each one holds.
Fitters and guessers are arbitrary functions on an arbitrary state `σ` (their random generators,
caches, ...), so every outcome sequence is covered.  They are assumed not to read or write
`meta['result']` or `gmix` of the observations themselves.  Observations may share metadata dictionaries.
-/

namespace Ngmix

/-- What a fit result must offer: `res['flags']` and, if the class has one, `res.get_gmix()`, which may raise.
`runners.py:144-149, 203-216`. -/
structure ResOps (R G : Type) where
  flags : R → ℕ
  getGmix : R → Option (Except PyErr G)

/-- Calls made to the guesser and the fitter, in order.  `runners.py:137-149`. -/
inductive Event (Guess : Type)
  | guess (obs : ℕ) (g : Guess)
  | fit (obs : ℕ) (g : Option Guess)

/-- State of fitter and guesser plus the log of completed calls.  `runners.py:137-149`. -/
structure World (σ Guess : Type) where
  st : σ
  trace : List (Event Guess)

/-- A fitter and an optional guesser.  `runners.py:8-25`, `PSFRunner.__init__` `:79-83`. -/
structure FitSetup (σ Guess R : Type) where
  fit : σ → ℕ → Option Guess → σ × Except PyErr R
  guesser : Option (σ → ℕ → σ × Except PyErr Guess)

variable {σ Guess R G : Type}

/-- One pass of the loop body of `run_fitter`, `runners.py:139-144`. -/
def attempt (F : FitSetup σ Guess R) (obs : ℕ) (w : World σ Guess) :
    World σ Guess × Except PyErr R :=
  match F.guesser with
  | some gs =>
      match gs w.st obs with
      | (s1, .error e) => (⟨s1, w.trace⟩, .error e)
      | (s1, .ok g) =>
          let r := F.fit s1 obs (some g)
          (⟨r.1, w.trace ++ [.guess obs g, .fit obs (some g)]⟩, r.2)
  | none =>
      let r := F.fit w.st obs none
      (⟨r.1, w.trace ++ [.fit obs none]⟩, r.2)

/-- The loop of `run_fitter`, `runners.py:137-149`; `last` is the local `res`, unbound before the
first pass. -/
def runLoop (ops : ResOps R G) (F : FitSetup σ Guess R) (obs : ℕ) :
    ℕ → Option R → World σ Guess → World σ Guess × Except PyErr R
  | 0, none, w => (w, .error .unbound)
  | 0, some r, w => (w, .ok r)
  | n + 1, _, w =>
      match attempt F obs w with
      | (w', .error e) => (w', .error e)
      | (w', .ok r) => if ops.flags r = 0 then (w', .ok r) else runLoop ops F obs n (some r) w'

/-- `runners.py:116-149` `run_fitter`, called by `Runner.go` `:42-59` (`range(ntry)` is empty for `ntry <= 0`). -/
def runFitter (ops : ResOps R G) (F : FitSetup σ Guess R) (obs : ℕ) (ntry : ℤ)
    (w : World σ Guess) : World σ Guess × Except PyErr R :=
  runLoop ops F obs ntry.toNat none w

/-- The parts of an Observation the runners use; `md` says which dictionary its metadata are.  `runners.py:196-216`,
`observation.py:36-50`. -/
structure Cell (G : Type) where
  psf : Option ℕ
  md : ℕ
  gmix : Option G

/-- Observations, and the entry `'result'` of each metadata dictionary.  `runners.py:152-223`. -/
structure Heap (R G : Type) where
  cell : ℕ → Cell G
  entry : ℕ → Option R

/-- `obs.meta['result']`, if set.  `runners.py:209-210`. -/
def Heap.result (h : Heap R G) (o : ℕ) : Option R := h.entry (h.cell o).md

/-- `obs.meta['result'] = r`.  `runners.py:209-210`. -/
def Heap.setResult (h : Heap R G) (o : ℕ) (r : R) : Heap R G :=
  { h with entry := Function.update h.entry (h.cell o).md (some r) }

/-- `obs.gmix = g`.  `runners.py:212-214`. -/
def Heap.setGmix (h : Heap R G) (o : ℕ) (g : G) : Heap R G :=
  { h with cell := Function.update h.cell o { h.cell o with gmix := some g } }

/-- Which observation is fit, `runners.py:198-201`. -/
def fitTarget (h : Heap R G) (obs : ℕ) : ℕ := (h.cell obs).psf.getD obs

/-- The `Observation` branch of `run_psf_fitter`, `runners.py:196-216`. -/
def runPsfObs (ops : ResOps R G) (F : FitSetup σ Guess R) (ntry : ℤ) (setResult : Bool) (obs : ℕ)
    (s : World σ Guess × Heap R G) : (World σ Guess × Heap R G) × Except PyErr R :=
  let t := fitTarget s.2 obs
  match runFitter ops F t ntry s.1 with
  | (w, .error e) => ((w, s.2), .error e)
  | (w, .ok r) =>
      if setResult then
        let h := s.2.setResult t r
        if ops.flags r = 0 then
          match ops.getGmix r with
          | some (.ok g) => ((w, h.setGmix t g), .ok r)
          | some (.error e) => ((w, h), .error e)
          | none => ((w, h), .ok r)
        else ((w, h), .ok r)
      else ((w, s.2), .ok r)

/-- The `ObsList` branch, `runners.py:186-194`. -/
def runPsfList (ops : ResOps R G) (F : FitSetup σ Guess R) (ntry : ℤ) (setResult : Bool) :
    List ℕ → World σ Guess × Heap R G → (World σ Guess × Heap R G) × Except PyErr (List R)
  | [], s => (s, .ok [])
  | o :: os, s =>
      match runPsfObs ops F ntry setResult o s with
      | (s', .error e) => (s', .error e)
      | (s', .ok r) =>
          match runPsfList ops F ntry setResult os s' with
          | (s'', .error e) => (s'', .error e)
          | (s'', .ok rs) => (s'', .ok (r :: rs))

/-- The `MultiBandObsList` branch, `runners.py:176-184`. -/
def runPsfMB (ops : ResOps R G) (F : FitSetup σ Guess R) (ntry : ℤ) (setResult : Bool) :
    List (List ℕ) → World σ Guess × Heap R G →
      (World σ Guess × Heap R G) × Except PyErr (List (List R))
  | [], s => (s, .ok [])
  | b :: bs, s =>
      match runPsfList ops F ntry setResult b s with
      | (s', .error e) => (s', .error e)
      | (s', .ok r) =>
          match runPsfMB ops F ntry setResult bs s' with
          | (s'', .error e) => (s'', .error e)
          | (s'', .ok rs) => (s'', .ok (r :: rs))

/-- An argument: Observation, ObsList, MultiBandObsList, or anything else.  `runners.py:176-223`. -/
inductive ObsArg
  | obs (o : ℕ)
  | list (l : List ℕ)
  | mb (l : List (List ℕ))
  | other

/-- Results in the shape of the argument.  `runners.py:176-223`. -/
inductive ResTree (R : Type)
  | one (r : R)
  | list (l : List R)
  | mb (l : List (List R))

/-- `runners.py:152-221` `run_psf_fitter`, called by `PSFRunner.go` `:85-113`. -/
def runPsfFitter (ops : ResOps R G) (F : FitSetup σ Guess R) (ntry : ℤ) (setResult : Bool)
    (arg : ObsArg) (s : World σ Guess × Heap R G) :
    (World σ Guess × Heap R G) × Except PyErr (ResTree R) :=
  match arg with
  | .mb l => let x := runPsfMB ops F ntry setResult l s; (x.1, x.2.map .mb)
  | .list l => let x := runPsfList ops F ntry setResult l s; (x.1, x.2.map .list)
  | .obs o => let x := runPsfObs ops F ntry setResult o s; (x.1, x.2.map .one)
  | .other => (s, .error .value)

/-- `tobs.psf.meta['result']['flags'] == 0`, `bootstrap.py:122`: `AttributeError` without a psf
(the `psf` property reads `self._psf`, `observation.py:299-306`), `KeyError` without a result. -/
def psfOk (ops : ResOps R G) (h : Heap R G) (o : ℕ) : Except PyErr Bool :=
  match (h.cell o).psf with
  | none => .error .attribute
  | some p =>
      match h.result p with
      | none => .error .key
      | some r => .ok (decide (ops.flags r = 0))

/-- The filter loop over one ObsList, `bootstrap.py:120-123` and `:135-137`. -/
def keepGood (ops : ResOps R G) (h : Heap R G) : List ℕ → Except PyErr (List ℕ)
  | [] => .ok []
  | o :: os =>
      (psfOk ops h o).bind fun b =>
      (keepGood ops h os).bind fun rest => .ok (if b then o :: rest else rest)

/-- One ObsList including the emptiness test, `bootstrap.py:120-126` and `:134-140`. -/
def removeFailedList (ops : ResOps R G) (h : Heap R G) (l : List ℕ) : Except PyErr (List ℕ) :=
  (keepGood ops h l).bind fun good => if good.length = 0 then .error .bootPSF else .ok good

/-- The loop over bands, `bootstrap.py:117-128`. -/
def removeFailedMB (ops : ResOps R G) (h : Heap R G) : List (List ℕ) → Except PyErr (List (List ℕ))
  | [] => .ok []
  | b :: bs =>
      (removeFailedList ops h b).bind fun g =>
      (removeFailedMB ops h bs).bind fun gs => .ok (g :: gs)

/-- `bootstrap.py:105-154` `remove_failed_psf_obs`; the metadata of the new containers is that of
the old ones and is not represented. -/
def removeFailed (ops : ResOps R G) (h : Heap R G) : ObsArg → Except PyErr ObsArg
  | .mb l => (removeFailedMB ops h l).map .mb
  | .list l => (removeFailedList ops h l).map .list
  | .obs o => (psfOk ops h o).bind fun b => if b then .ok (.obs o) else .error .bootPSF
  | .other => .error .value

/-- `bootstrap.py:67-102` `bootstrap` (`Bootstrapper`, `bootstrap.py:38-64`, calls it with its runners).  `runner` is the object runner, an arbitrary function of the
state and of the observations it is given; the log says what it was called with. -/
def bootstrap (ops : ResOps R G) (psf : Option (FitSetup σ Guess R × ℤ × Bool)) (ignoreFailed : Bool)
    {Out : Type} (runner : World σ Guess × Heap R G → ObsArg → (World σ Guess × Heap R G) × Except PyErr Out)
    (arg : ObsArg) (s : World σ Guess × Heap R G) :
    (World σ Guess × Heap R G) × List ObsArg × Except PyErr Out :=
  match psf with
  | some (F, ntry, setResult) =>
      match runPsfFitter ops F ntry setResult arg s with
      | (s', .error e) => (s', [], .error e)
      | (s', .ok _) =>
          if ignoreFailed then
            match removeFailed ops s'.2 arg with
            | .error e => (s', [], .error e)
            | .ok arg' => let x := runner s' arg'; (x.1, [arg'], x.2)
          else let x := runner s' arg; (x.1, [arg], x.2)
  | none => let x := runner s arg; (x.1, [arg], x.2)

end Ngmix
