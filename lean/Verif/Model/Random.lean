import Verif.Model.Basic
import Verif.Model.Fl

/-!
# Model of `/repo/ngmix/priors/random.py`, the generators of priors, and `/repo/ngmix/priors/kde.py`

A `RandomState` is an object at an address holding the state `σ` of its stream.  numpy is abstract: `next` is one
uniform deviate in [0, 1), `ofSeed` the state made from a seed, `randint` a draw from the module's own generator
(state `γ`).  `scipy.stats.gaussian_kde` is abstract too.
-/

namespace Ngmix

/-- numpy's generators, `random.py:10-11, 31-32`. -/
structure NPRandom (σ γ : Type) where
  next : σ → ℝ × σ
  ofSeed : ℕ → σ
  randint : γ → ℕ × γ

/-- The generators alive, and the module's own one, `random.py:9-13`. -/
structure RngWorld (σ γ : Type) where
  rngs : List σ
  glob : γ

/-- `random.py:4-13` `make_rng`: the address of the generator to use. -/
def makeRng {σ γ : Type} (np : NPRandom σ γ) (w : RngWorld σ γ) : Option ℕ → RngWorld σ γ × ℕ
  | some a => (w, a)
  | none =>
      let s := np.randint w.glob
      (⟨w.rngs ++ [np.ofSeed s.1], s.2⟩, w.rngs.length)

/-- `PriorBase.__init__`, `priors.py:36-40`: a generator is required; then `make_rng` gives it back. -/
def priorRng {σ γ : Type} (np : NPRandom σ γ) (w : RngWorld σ γ) : Option ℕ → RngWorld σ γ × Except PyErr ℕ
  | none => (w, .error .assertion)
  | some a => let r := makeRng np w (some a); (r.1, .ok r.2)

/-- One deviate of the generator at an address; `none` if there is no such object.  `random.py:31-32`. -/
def rngNext {σ γ : Type} (np : NPRandom σ γ) (w : RngWorld σ γ) (a : ℕ) : RngWorld σ γ × Option ℝ :=
  match w.rngs[a]? with
  | none => (w, none)
  | some s => let x := np.next s; ({ w with rngs := w.rngs.set a x.2 }, some x.1)

/-- `rng.uniform(low=-1.0, high=1.0)`: numpy's `low + (high - low) * u`.  `random.py:16-32` `srandu()`. -/
noncomputable def srandu1 {σ γ : Type} (np : NPRandom σ γ) (w : RngWorld σ γ) (a : ℕ) : RngWorld σ γ × Option ℝ :=
  let x := rngNext np w a
  (x.1, x.2.map fun u => -1.0 + (1.0 - -1.0) * u)

/-- `random.py:16-32` `srandu(nrand)`: the deviates of an array are drawn in order. -/
noncomputable def sranduN {σ γ : Type} (np : NPRandom σ γ) (a : ℕ) : ℕ → RngWorld σ γ → RngWorld σ γ × Option (List ℝ)
  | 0, w => (w, some [])
  | n + 1, w =>
      match srandu1 np w a with
      | (w, none) => (w, none)
      | (w, some x) => let r := sranduN np a n w; (r.1, r.2.map fun xs => x :: xs)

/-- What programs do with generators: `make_rng` or a prior with or without one, draw.  `random.py:4-32`. -/
inductive RngOp
  | make (a : Option ℕ)
  | prior (a : Option ℕ)
  | draw (a : ℕ)

/-- One operation, `random.py:4-32`. -/
def rngStep {σ γ : Type} (np : NPRandom σ γ) (w : RngWorld σ γ) : RngOp → RngWorld σ γ
  | .make a => (makeRng np w a).1
  | .prior a => (priorRng np w a).1
  | .draw a => (rngNext np w a).1

/-- What `KDE.sample` returns, `kde.py:31-67`. -/
inductive KDESample
  | value (x : ℝ)
  | row (p : List ℝ)
  | values (xs : List ℝ)
  | rows (ps : List (List ℝ))

/-- `r[:, 0]`, `kde.py:61-62`: `IndexError` for points without coordinates. -/
def firstColumn : List (List ℝ) → Except PyErr (List ℝ)
  | [] => .ok []
  | p :: ps => match p with
    | [] => .error .index
    | x :: _ => (firstColumn ps).map fun xs => x :: xs

/-- `kde.py:20-67` `KDE.sample`; `resample m` gives `m` points (rows of the transposed array), `kde.py:57-59`.  `is1d` is
the number of dimensions of the data being one. -/
def kdeSample {σ : Type} (resample : ℤ → σ → σ × Except PyErr (List (List ℝ))) (is1d : Bool) (nrand : Option ℤ)
    (s : σ) : σ × Except PyErr KDESample :=
  let r := resample (nrand.getD 1) s
  (r.1, r.2.bind fun ps =>
    if is1d then
      (firstColumn ps).bind fun xs =>
        if nrand.isNone then match xs with | [] => .error .index | x :: _ => .ok (.value x) else .ok (.values xs)
    else
      if nrand.isNone then match ps with | [] => .error .index | p :: _ => .ok (.row p) else .ok (.rows ps))

end Ngmix
