import Verif.Model.PriorFit
import Verif.Model.GPrior

/-!
# Samplers of `/repo/ngmix/priors/priors.py`, `shape.py` and `multivariate.py` that were not modelled elsewhere

`draws k m` is the batch of `m` trials asked for by pass `k` of a rejection loop.  An answer `none` means that more batches
are needed.
-/

namespace Ngmix

noncomputable section

/-- `if is_scalar: vals = vals[0]`.  `priors.py:385-388, 669-670, 1166-1169`. -/
def unpack (nrand : Option ℕ) (l : List ℝ) : Except PyErr Sample :=
  match nrand with
  | none => (firstOf l).map .one
  | some _ => .ok (.many l)

/-- The range of the trials of `TwoSidedErf.sample`, `priors.py:366-367`. -/
def erfRange (minval widthAtMin maxval widthAtMax : ℝ) : ℝ × ℝ :=
  (minval - 5.0 * widthAtMin, maxval + 5.0 * widthAtMax)

/-- `rng.uniform(low=xmin, high=xmax)`, `priors.py:374`. -/
def erfTrial (minval widthAtMin maxval widthAtMax u : ℝ) : ℝ :=
  let r := erfRange minval widthAtMin maxval widthAtMax
  r.1 + (r.2 - r.1) * u

/-- `TwoSidedErf.sample`, `priors.py:339-388`: a trial has two uniforms. -/
def erfSample (minval widthAtMin maxval widthAtMax : ℝ) (nrand : Option ℕ) (draws : ℕ → ℕ → List (ℝ × ℝ)) (fuel : ℕ) :
    Option (Except PyErr Sample) :=
  open Classical in
  (rejLoop (fun d : ℝ × ℝ => decide (Fl.lt (.fin d.2) (Prior1.erfProb minval widthAtMin maxval widthAtMax
    (erfTrial minval widthAtMin maxval widthAtMax d.1)))) (nrand.getD 1) draws fuel 0 (rejInit (0, 0) (nrand.getD 1))).map
    fun l => unpack nrand (l.map fun d => erfTrial minval widthAtMin maxval widthAtMax d.1)

/-- `TruncatedGaussian.sample`, `priors.py:1128-1169`: a trial has one standard normal deviate; `rng.normal` refuses a
negative width when it is called. -/
def truncSample (mean sigma minval maxval : ℝ) (nrand : Option ℕ) (draws : ℕ → ℕ → List ℝ) (fuel : ℕ) :
    Option (Except PyErr Sample) :=
  open Classical in
  if sigma < 0 ∧ 0 < nrand.getD 1 then some (.error .value)
  else (rejLoop (fun z : ℝ => decide (mean + sigma * z > minval ∧ mean + sigma * z < maxval)) (nrand.getD 1) draws fuel 0
    (rejInit 0 (nrand.getD 1))).map fun l => unpack nrand (l.map fun z => mean + sigma * z)

/-- `Bounded1D.sample`, `priors.py:622-671`: the trials are what the wrapped prior draws. -/
def boundedSample (lo hi : ℝ) (nrand size : Option ℕ) (draws : ℕ → ℕ → List ℝ) (fuel : ℕ) : Option (Except PyErr Sample) :=
  let size := if size.isNone ∧ nrand.isSome then nrand else size
  open Classical in
  (rejLoop (fun x : ℝ => decide (x > lo ∧ x < hi)) (size.getD 1) draws fuel 0 (rejInit 0 (size.getD 1))).map (unpack size)

/-- What a sampler of pairs returns: two numbers, or two arrays.  `shape.py:241-248`. -/
inductive Sample2
  | one (x : ℝ × ℝ)
  | many (l : List (ℝ × ℝ))

/-- `if is_scalar: x = x[0]; y = y[0]`.  `shape.py:244-246, 439-441, 799-801`. -/
def unpack2 (nrand : Option ℕ) (l : List (ℝ × ℝ)) : Except PyErr Sample2 :=
  match nrand, l with
  | none, x :: _ => .ok (.one x)
  | none, [] => .error .index
  | some _, l => .ok (.many l)

/-- `GPriorGauss.sample2d`, `shape.py:393-443`: a trial has two standard normal deviates. -/
def gaussSample2d (sigma : ℝ) (nrand : Option ℕ) (draws : ℕ → ℕ → List (ℝ × ℝ)) (fuel : ℕ) : Option (Except PyErr Sample2) :=
  open Classical in
  if sigma < 0 ∧ 0 < nrand.getD 1 then some (.error .value)
  else (rejLoop (fun d : ℝ × ℝ => decide (Real.sqrt ((sigma * d.1) ^ 2 + (sigma * d.2) ^ 2) < 1 - 1.0e-4)) (nrand.getD 1)
    draws fuel 0 (rejInit (0, 0) (nrand.getD 1))).map fun l => unpack2 nrand (l.map fun d => (sigma * d.1, sigma * d.2))

/-- `CenPrior.sample`, `multivariate.py:87-110`, from pairs of standard normal deviates. -/
def CenPrior.sample (p : CenPrior) (nrand : Option ℕ) (zs : ℕ → ℝ × ℝ) : Except PyErr Sample2 :=
  open Classical in
  if p.sigma1 < 0 ∨ p.sigma2 < 0 then .error .value
  else
    let f := fun z : ℝ × ℝ => (p.cen1 + p.sigma1 * z.1, p.cen2 + p.sigma2 * z.2)
    match nrand with
    | none => .ok (.one (f (zs 0)))
    | some n => .ok (.many ((List.range n).map fun i => f (zs i)))

/-- `ZDisk2D.sample1d`, `shape.py:740-767`. -/
def diskSample1d (radius : ℝ) (nrand : Option ℕ) (us : ℕ → ℝ) : Except PyErr Sample :=
  unpack nrand ((List.range (nrand.getD 1)).map fun i => Real.sqrt (radius ^ 2 * us i))

/-- `ZDisk2D.sample2d`, `shape.py:769-803`, from pairs of uniforms: of the radius and of the angle. -/
def diskSample2d (radius : ℝ) (nrand : Option ℕ) (us : ℕ → ℝ × ℝ) : Except PyErr Sample2 :=
  unpack2 nrand ((List.range (nrand.getD 1)).map fun i => diskDraw radius (us i).1 (us i).2)

/-- `GPriorBase.sample2d` of a `GPriorBA`, `shape.py:211-248`: the sizes are drawn first, then the angles `us`.  `none`: more
batches of trials are needed. -/
def BaState.sample2d (minimise : BaState.Minimise) (maxguess : Option ℝ) (u0 : ℝ) (nrand : Option ℕ)
    (draws : ℕ → ℕ → List (ℝ × ℝ)) (us : ℕ → ℝ) (fuel : ℕ) (s : BaState) : BaState × Except PyErr (Option Sample2) :=
  match s.sample minimise maxguess u0 (nrand.getD 1) draws fuel with
  | (s, .error e) => (s, .error e)
  | (s, .ok none) => (s, .ok none)
  | (s, .ok (some g)) =>
      (s, (unpack2 nrand (List.zipWith polarDraw g ((List.range (nrand.getD 1)).map us))).map some)

end

end Ngmix
