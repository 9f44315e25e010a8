import Verif.Model.PriorArrays

/-!
# Model of the samplers of `/repo/ngmix/priors/priors.py` that need no rejection, of `LogNormal.sample_brute` and of
`LogNormal.fit`

The generator is a stream: `us i` is the `i`th number it gives from now on.
-/

namespace Ngmix

noncomputable section

/-- What `sample` returns: a number, or an array.  `priors.py:159-187`. -/
inductive Sample
  | one (x : ℝ)
  | many (l : List ℝ)

/-- `size=None` gives one value, `size=n` an array of `n`, made from the deviates in order.
`priors.py:173-187, 841-863`. -/
def sized (f : ℝ → ℝ) (nrand : Option ℕ) (us : ℕ → ℝ) : Sample :=
  match nrand with
  | none => .one (f (us 0))
  | some n => .many ((List.range n).map fun i => f (us i))

/-- `rvals[0]` of an array.  `priors.py:184-185, 1040-1041`. -/
def firstOf (l : List ℝ) : Except PyErr ℝ :=
  match l with
  | x :: _ => .ok x
  | [] => .error .index

/-- `FlatPrior.sample`, `priors.py:159-187`: an array of one value is made and unpacked when no number is given. -/
def flatSample (minval maxval : ℝ) (nrand : Option ℕ) (us : ℕ → ℝ) : Except PyErr Sample :=
  let n := nrand.getD 1
  let rvals := (List.range n).map fun i => minval + (maxval - minval) * us i
  match nrand with
  | none => (firstOf rvals).map .one
  | some _ => .ok (.many rvals)

/-- `LMBounds.sample`, `priors.py:551-569`: `rng.uniform(low, high)` is `low + (high - low) u`. -/
def lmSample (lo hi : ℝ) (nrand : Option ℕ) (us : ℕ → ℝ) : Sample :=
  sized (fun u => lo + (hi - lo) * u) nrand us

/-- `Sinh.sample`, `priors.py:1014-1043`. -/
def sinhSample (mean scale : ℝ) (nrand : Option ℕ) (us : ℕ → ℝ) : Except PyErr Sample :=
  let n := nrand.getD 1
  let low := mean - scale
  let high := mean + scale
  let vals := (List.range n).map fun i => low + (high - low) * us i
  match nrand with
  | none => (firstOf vals).map .one
  | some _ => .ok (.many vals)

/-- `Normal.sample(nrand, size)`, `priors.py:484-505`: `zs` are standard normal deviates; `rng.normal` raises
`ValueError` for a negative width. -/
def normalSample (mean sigma : ℝ) (nrand size : Option ℕ) (zs : ℕ → ℝ) : Except PyErr Sample :=
  let size := if size.isNone ∧ nrand.isSome then nrand else size
  open Classical in
  if sigma < 0 then .error .value else .ok (sized (fun z => mean + sigma * z) size zs)

/-- `LogNormal.sample`, `priors.py:841-863`. -/
def lognormalSample (mean sigma : ℝ) (shift : Option ℝ) (nrand : Option ℕ) (zs : ℕ → ℝ) : Sample :=
  sized (lognormalDraw mean sigma shift) nrand zs

/-! ### `LogNormal.sample_brute` -/

/-- `rvals = maxval * rng.rand(nleft)`, plus the shift.  `priors.py:902-904`. -/
def bruteVal (maxval : ℝ) (shift : Option ℝ) (u : ℝ) : ℝ :=
  match shift with
  | some s => maxval * u + s
  | none => maxval * u

/-- One pass of the loop, `priors.py:900-915`: the batch holds the two uniforms of each trial. -/
def bruteStep (mean sigma : ℝ) (shift : Option ℝ) (maxval : ℝ) (s : RejState ℝ) (batch : List (ℝ × ℝ)) :
    Except PyErr (RejState ℝ) :=
  let rvals := batch.map fun d => bruteVal maxval shift d.1
  (Prior1.lognormalLnprobArray mean sigma shift rvals).map fun lnp =>
    let pvals := lnp.map expFl
    open Classical in
    let w := ((rvals.zip (batch.zip pvals)).filter fun t => decide (Fl.lt (.fin t.2.1.2) t.2.2)).map Prod.fst
    if w.length > 0 then ⟨sliceSet s.vals s.ngood w, s.ngood + w.length, s.nleft - w.length⟩ else s

/-- The loop, `priors.py:900-915`.  `none`: more batches are needed. -/
def bruteLoop (mean sigma : ℝ) (shift : Option ℝ) (maxval : ℝ) (n : ℕ) (draws : ℕ → ℕ → List (ℝ × ℝ)) :
    ℕ → ℕ → RejState ℝ → Option (Except PyErr (List ℝ))
  | 0, _, s => if s.ngood < n then none else some (.ok s.vals)
  | fuel + 1, k, s =>
    if s.ngood < n then
      match bruteStep mean sigma shift maxval s (draws k s.nleft) with
      | .error e => some (.error e)
      | .ok s' => bruteLoop mean sigma shift maxval n draws fuel (k + 1) s'
    else some (.ok s.vals)

/-- `LogNormal.sample_brute(nrand, maxval)`, `priors.py:865-920`, for a given number of values. -/
def sampleBrute (mean sigma : ℝ) (shift maxval : Option ℝ) (n : ℕ) (draws : ℕ → ℕ → List (ℝ × ℝ)) (fuel : ℕ) :
    Option (Except PyErr (List ℝ)) :=
  bruteLoop mean sigma shift (maxval.getD (mean + 10 * sigma)) n draws fuel 0 (rejInit 0 n)

/-! ### `LogNormal.fit` -/

/-- `x.mean()`.  `priors.py:966`. -/
def npMean (l : List ℝ) : Fl := if l.length = 0 then .nan else .fin (l.sum / l.length)

/-- `x.std()`.  `priors.py:966`. -/
def npStd (l : List ℝ) : Fl :=
  if l.length = 0 then .nan
  else .fin (Real.sqrt ((l.map fun v => (v - l.sum / l.length) ^ 2).sum / l.length))

/-- `_calc_fdiff(pars)`, `priors.py:922-938`: the residuals of the current data; the new `LogNormal` is made without
a shift.  Data of different sizes cannot be subtracted (broadcasting of one value is not modelled). -/
def lnCalcFdiff (x y pars : List ℝ) : Except PyErr (List Fl) :=
  match pars with
  | m :: s :: a :: _ =>
    match (Prior1.mkLogNormal m s none).bind fun p => p.probArray x with
    | .error .gmixRange => .ok (y.map fun v => .fin (v * 0) - .pinf)
    | .error .value => .ok (y.map fun v => .fin (v * 0) - .pinf)
    | .error e => .error e
    | .ok (.num v) => .ok (y.map fun t => v * .fin a - .fin t)
    | .ok (.arr l) =>
      if l.length ≠ y.length then .error .value
      else .ok (List.zipWith (fun v t => v * .fin a - .fin t) l y)
  | _ => .error .index

/-- `1.0 + rng.uniform(low=0.1, high=0.1)`.  `priors.py:965`. -/
def fitFactor (u : ℝ) : ℝ := 1.0 + (0.1 + (0.1 - 0.1) * u)

/-- The guess of one try, `priors.py:965-966`, from three uniforms. -/
def lnFitGuess (x y : List ℝ) (u1 u2 u3 : ℝ) : List Fl :=
  [npMean x * .fin (fitFactor u1), npStd x * .fin (fitFactor u2), npMean y * .fin (fitFactor u3)]

/-- `for i in range(4): ... if res["flags"] == 0: break`, `priors.py:964-972`: `run i guess` is what the minimiser
gives at the `i`th try (its flags and the rest of its result) when given the residuals of the data.  The guesses
tried, and the result. -/
def lnFitLoop {R : Type} (run : ℕ → List Fl → Except PyErr (ℕ × R)) (guess : ℕ → List Fl) :
    ℕ → ℕ → Option (ℕ × R) → List (List Fl) × Except PyErr (ℕ × R)
  | 0, _, last => ([], match last with | some r => .ok r | none => .error .unbound)
  | left + 1, i, _ =>
    match run i (guess i) with
    | .error e => ([guess i], .error e)
    | .ok r =>
      if r.1 = 0 then ([guess i], .ok r)
      else
        let t := lnFitLoop run guess left (i + 1) (some r)
        (guess i :: t.1, t.2)

/-- `fit(x, y)`, `priors.py:940-972`, of a `LogNormal` with the given shift: `leastsq i f guess` is the minimiser,
which may be different at each try. -/
def lnFit {R : Type} (_shift : Option ℝ) (x y : List ℝ)
    (leastsq : ℕ → (List ℝ → Except PyErr (List Fl)) → List Fl → Except PyErr (ℕ × R)) (us : ℕ → ℝ) :
    List (List Fl) × Except PyErr (ℕ × R) :=
  lnFitLoop (fun i g => leastsq i (lnCalcFdiff x y) g)
    (fun i => lnFitGuess x y (us (3 * i)) (us (3 * i + 1)) (us (3 * i + 2))) 4 0 none

end

end Ngmix
