import Verif.Model.Basic
import Verif.Model.Fl
import Mathlib.Analysis.SpecialFunctions.Log.Basic
import Mathlib.Analysis.SpecialFunctions.Trigonometric.Deriv
import Mathlib.MeasureTheory.Integral.IntervalIntegral.Basic
import Mathlib.MeasureTheory.Measure.Lebesgue.Basic

/-!
# Model of `/repo/ngmix/priors/priors.py`, `shape.py` and `multivariate.py`

Arguments are finite reals.  Log probabilities are `Fl`, as the code can return minus infinity or NaN.
A method that a class does not have is an `AttributeError`.
-/

namespace Ngmix

noncomputable section

/-- `math.erf` on finite numbers: `2/sqrt(pi)` times the integral of `exp(-t^2)` from 0 to `x`.  Used in `priors.py:219-233`. -/
def erf (x : ℝ) : ℝ := 2 / Real.sqrt Real.pi * ∫ t in (0)..x, Real.exp (-t ^ 2)

/-- `math.erf` on doubles, `priors.py:219-233`.  (Constructors that only store: `priors.py:62-66`, `priors.py:210-217`, `priors.py:998-1001`.) -/
def erfFl : Fl → Fl
  | .nan => .nan
  | .pinf => .fin 1
  | .ninf => .fin (-1)
  | .fin x => .fin (erf x)

/-- `numpy.log` of a double, `priors.py:235-251, 730-733, 751-772`. -/
def logFl : Fl → Fl
  | .nan => .nan
  | .pinf => .pinf
  | .ninf => .nan
  | .fin x => open Classical in if x < 0 then .nan else if x = 0 then .ninf else .fin (Real.log x)

/-- `numpy.exp` of a double, `priors.py:743`. -/
def expFl : Fl → Fl
  | .nan => .nan
  | .pinf => .pinf
  | .ninf => .fin 0
  | .fin x => .fin (Real.exp x)

/-- The one dimensional priors of `priors.py`.  `flat`: lines 49-187; `erf2`: 190-388; `normal`: 391-505;
`lmBounds`: 508-569; `bounded`: 572-668 (the wrapped pdf only matters for sampling); `lognormal`: 674-972;
`sinh`: 975-1043; `trunc`: 1046-1169. -/
inductive Prior1
  | flat (minval maxval : ℝ)
  | erf2 (minval widthAtMin maxval widthAtMax : ℝ)
  | normal (mean sigma : ℝ) (bounds : Option (ℝ × ℝ))
  | lmBounds (minval maxval : ℝ)
  | bounded (lo hi : ℝ)
  | lognormal (mean sigma : ℝ) (shift : Option ℝ)
  | sinh (mean scale : ℝ)
  | trunc (mean sigma minval maxval : ℝ)

namespace Prior1

/-- `Normal.__init__`, `priors.py:415-422`: Python division by zero. -/
def mkNormal (mean sigma : ℝ) (bounds : Option (ℝ × ℝ) := none) : Except PyErr Prior1 :=
  open Classical in if sigma = 0 then .error .zeroDiv else .ok (normal mean sigma bounds)

/-- `TruncatedGaussian.__init__`, `priors.py:1074-1081`. -/
def mkTrunc (mean sigma minval maxval : ℝ) : Except PyErr Prior1 :=
  open Classical in if sigma = 0 then .error .zeroDiv else .ok (trunc mean sigma minval maxval)

/-- `LogNormal.__init__`, `priors.py:720-749`. -/
def mkLogNormal (mean sigma : ℝ) (shift : Option ℝ := none) : Except PyErr Prior1 :=
  open Classical in if mean ≤ 0 then .error .value else .ok (lognormal mean sigma shift)

/-- `Bounded1D.__init__`/`set_limits`, `priors.py:588-620` with a two element sequence. -/
def mkBounded (lo hi : ℝ) : Except PyErr Prior1 :=
  open Classical in if lo ≥ hi then .error .value else .ok (bounded lo hi)

/-- `priors.py:730-733` `logmean`, `logvar` -/
def lnLogvar (mean sigma : ℝ) : ℝ := Real.log (1 + sigma ^ 2 / mean ^ 2)
/-- `priors.py:733` -/
def lnLogmean (mean sigma : ℝ) : ℝ := Real.log mean - 0.5 * Real.log (1 + sigma ^ 2 / mean ^ 2)
/-- `priors.py:735` `logivar = 1.0 / logvar` (numpy division). -/
def lnLogivar (mean sigma : ℝ) : Fl := .fin 1 / .fin (lnLogvar mean sigma)
/-- `priors.py:742` -/
def lnLogMode (mean sigma : ℝ) : ℝ := lnLogmean mean sigma - lnLogvar mean sigma
/-- `priors.py:744-747` `lnprob_max = -0.5 * chi2 - log_mode` -/
def lnProbMax (mean sigma : ℝ) : Fl :=
  let chi2 := lnLogivar mean sigma * .fin ((lnLogMode mean sigma - lnLogmean mean sigma) ^ 2)
  .fin (-0.5) * chi2 - .fin (lnLogMode mean sigma)

/-- `LogNormal.get_lnprob_scalar`, `priors.py:751-772`. -/
def lognormalLnprob (mean sigma : ℝ) (shift : Option ℝ) (val : ℝ) : Except PyErr Fl :=
  let val := match shift with
    | some s => val - s
    | none => val
  open Classical in
  if val ≤ 0 then .error .gmixRange
  else
    let logval := Real.log val
    let chi2 := lnLogivar mean sigma * .fin ((logval - lnLogmean mean sigma) ^ 2)
    .ok (.fin (-0.5) * chi2 - .fin logval - lnProbMax mean sigma)

/-- `TwoSidedErf.get_prob_scalar`, `priors.py:219-233` (the argument is a numpy scalar, so a zero width
divides to inf or NaN). -/
def erfProb (minval widthAtMin maxval widthAtMax val : ℝ) : Fl :=
  let p1 := .fin 0.5 * erfFl (.fin (maxval - val) / .fin widthAtMax)
  let p2 := .fin 0.5 * erfFl (.fin (val - minval) / .fin widthAtMin)
  p1 + p2

/-- `TwoSidedErf.get_lnprob_scalar`, `priors.py:235-251`: `p <= 0` gives minus infinity. -/
def erfLnprob (minval widthAtMin maxval widthAtMax val : ℝ) : Fl :=
  let p := erfProb minval widthAtMin maxval widthAtMax val
  open Classical in
  if Fl.lt p (.fin 0) ∨ Fl.isZero p then .ninf else logFl p

/-- `get_lnprob_scalar` of each class, `priors.py:85-100, 235-251, 424-434, 751-772, 1083-1095`. -/
def lnprob (p : Prior1) (val : ℝ) : Except PyErr Fl :=
  match p with
  -- priors.py:85-100
  | flat minval maxval =>
    open Classical in if val < minval ∨ val > maxval then .error .gmixRange else .ok (.fin 0)
  | erf2 a wa b wb => .ok (erfLnprob a wa b wb val)
  -- priors.py:424-434
  | normal mean sigma _ => .ok (.fin (-0.5 * (mean - val) * (mean - val) * (1 / sigma ^ 2)))
  | lmBounds _ _ => .error .attribute
  | bounded _ _ => .error .attribute
  | lognormal mean sigma shift => lognormalLnprob mean sigma shift val
  | sinh _ _ => .error .attribute
  -- priors.py:1083-1095
  | trunc mean sigma minval maxval =>
    open Classical in
    if val < minval ∨ val > maxval then .error .gmixRange
    else .ok (.fin (-0.5 * (val - mean) * (val - mean) * (1 / sigma ^ 2)))

/-- `sqrt(-2 lnp)` with negative values clipped to zero first (`priors.py:332-337`, `:834-839`,
`priors/shape.py:536-541`).  `if chi2 < 0.0` is false for NaN. -/
def clipRoot (lnp : Fl) : Fl :=
  let chi2 := .fin (-2) * lnp
  open Classical in
  if Fl.lt chi2 (.fin 0) then Fl.sqrt (.fin 0) else Fl.sqrt chi2

/-- `get_fdiff` of each class, `priors.py:142-157, 289-337, 473-482, 540-549, 825-839, 1003-1012, 1115-1126`. -/
def fdiff (p : Prior1) (val : ℝ) : Except PyErr Fl :=
  match p with
  -- priors.py:142-157
  | flat minval maxval =>
    open Classical in if val < minval ∨ val > maxval then .error .gmixRange else .ok (.fin 0)
  | erf2 a wa b wb => .ok (clipRoot (erfLnprob a wa b wb val))
  -- priors.py:473-482
  | normal mean sigma _ => .ok (.fin ((val - mean) * (1 / sigma)))
  -- priors.py:540-549
  | lmBounds _ _ => .ok (.fin (0 * val))
  | bounded _ _ => .error .attribute
  -- priors.py:825-839
  | lognormal mean sigma shift => (lognormalLnprob mean sigma shift val).map clipRoot
  -- priors.py:1003-1012; a zero scale divides to inf or NaN in numpy
  | sinh mean scale =>
    .ok (match Fl.fin (val - mean) / Fl.fin scale with
      | .fin x => .fin (Real.sinh x)
      | y => y)
  -- priors.py:1115-1126
  | trunc mean sigma minval maxval =>
    open Classical in
    if val < minval ∨ val > maxval then .error .gmixRange
    else .ok (.fin ((val - mean) * (1 / sigma)))

/-- `get_lnprob_array` on one element of the array (`priors.py:122-140`, `:1097-1113`, ...), for the classes
whose scalar and array versions are written separately. -/
def lnprobArr (p : Prior1) (val : ℝ) : Except PyErr Fl :=
  match p with
  | trunc mean sigma minval maxval =>
    open Classical in
    if val > minval ∧ val < maxval then .ok (.fin (-0.5 * (val - mean) * (val - mean) * (1 / sigma ^ 2)))
    else .ok .ninf
  | p => p.lnprob val

/-- The `bounds` attribute (`priors.py:36-46`, `:536`, `:592-620`); `has_bounds()` is `isSome`. -/
def bounds : Prior1 → Option (ℝ × ℝ)
  | normal _ _ b => b
  | lmBounds a b => some (a, b)
  | bounded a b => some (a, b)
  | _ => none

end Prior1

/-- Priors on a shape or a position in a disk, `priors/shape.py:370-803`. -/
inductive PriorG
  /-- `priors/shape.py:446-662` `GPriorBA(sigma, A)` -/
  | ba (sigma A : ℝ)
  /-- `priors/shape.py:370-443` `GPriorGauss(sigma)` -/
  | gauss (sigma : ℝ)
  /-- `priors/shape.py:665-803` `ZDisk2D(radius)` -/
  | disk (radius : ℝ)

namespace PriorG

/-- `GPriorBA.__init__`, `priors/shape.py:465-469`, `:509-518`: `1.0/sig2`. -/
def mkBA (sigma : ℝ) (A : ℝ := 1) : Except PyErr PriorG :=
  open Classical in if sigma = 0 then .error .zeroDiv else .ok (ba sigma A)

/-- `get_lnprob_scalar2d`, `priors/shape.py:107-111, 555-564, 704-712` -/
def lnprob (p : PriorG) (g1 g2 : ℝ) : Except PyErr Fl :=
  match p with
  -- priors/shape.py:555-564
  | ba sigma _ =>
    let gsq := g1 * g1 + g2 * g2
    let omgsq := 1 - gsq
    open Classical in
    if omgsq ≤ 0 then .error .gmixRange
    else .ok (.fin (2 * Real.log omgsq - 0.5 * gsq * (1 / sigma ^ 2)))
  -- priors/shape.py:107-111, not overridden
  | gauss _ => .error .runtime
  -- priors/shape.py:704-712
  | disk radius =>
    open Classical in
    if g1 ^ 2 + g2 ^ 2 ≥ radius ^ 2 then .error .gmixRange else .ok (.fin 0)

/-- `get_prob_scalar2d`, `priors/shape.py:566-581, 714-723` -/
def prob (p : PriorG) (g1 g2 : ℝ) : Except PyErr ℝ :=
  match p with
  -- priors/shape.py:566-581
  | ba sigma A =>
    let gsq := g1 * g1 + g2 * g2
    let omgsq := 1 - gsq
    open Classical in
    .ok (A * (if omgsq > 0 then omgsq * omgsq * Real.exp (-0.5 * gsq * (1 / sigma ^ 2)) else 0))
  | gauss _ => .error .runtime
  -- priors/shape.py:714-723
  | disk radius =>
    open Classical in
    .ok (if g1 ^ 2 + g2 ^ 2 ≥ radius ^ 2 then 0 else 1)

/-- `get_fdiff` (`priors/shape.py:520-541`) -/
def fdiff (p : PriorG) (g1 g2 : ℝ) : Except PyErr Fl :=
  match p with
  | ba sigma A => ((ba sigma A).lnprob g1 g2).map Prior1.clipRoot
  | gauss _ => .error .attribute
  | disk _ => .error .attribute

/-- `GPriorBA.get_prob_scalar1d`, `priors/shape.py:608-625`. -/
def prob1d (sigma A g : ℝ) : ℝ :=
  let gsq := g * g
  let omgsq := 1 - gsq
  open Classical in
  A * (if omgsq > 0 then omgsq * omgsq * Real.exp (-0.5 * gsq * (1 / sigma ^ 2)) * (2 * Real.pi * g) else 0)

end PriorG

/-- `multivariate.py:8-110` `CenPrior`. -/
structure CenPrior where
  cen1 : ℝ
  cen2 : ℝ
  sigma1 : ℝ
  sigma2 : ℝ

namespace CenPrior

/-- `multivariate.py:36-46`: Python divisions. -/
def mk' (cen1 cen2 sigma1 sigma2 : ℝ) : Except PyErr CenPrior :=
  open Classical in
  if sigma1 = 0 ∨ sigma2 = 0 then .error .zeroDiv else .ok ⟨cen1, cen2, sigma1, sigma2⟩

/-- `multivariate.py:48-54` `get_fdiff` -/
def fdiff (p : CenPrior) (x1 x2 : ℝ) : ℝ × ℝ :=
  ((x1 - p.cen1) * (1 / p.sigma1), (x2 - p.cen2) * (1 / p.sigma2))

/-- `multivariate.py:56-62` `get_lnprob_scalar` -/
def lnprob (p : CenPrior) (x1 x2 : ℝ) : ℝ :=
  -0.5 * (p.cen1 - x1) * (p.cen1 - x1) * (1 / p.sigma1 ^ 2) -
    0.5 * (p.cen2 - x2) * (p.cen2 - x2) * (1 / p.sigma2 ^ 2)

/-- `multivariate.py:64-71` `get_lnprob_scalar_sep` -/
def lnprobSep (p : CenPrior) (x1 x2 : ℝ) : ℝ × ℝ :=
  (-0.5 * (p.cen1 - x1) * (p.cen1 - x1) * (1 / p.sigma1 ^ 2),
    -0.5 * (p.cen2 - x2) * (p.cen2 - x2) * (1 / p.sigma2 ^ 2))

end CenPrior

/-! ### Samplers -/

/-- State of a rejection loop: the output array, and the loop counters (`priors.py:369-372`). -/
structure RejState (α : Type) where
  vals : List α
  ngood : ℕ
  nleft : ℕ

/-- Initial state (`priors.py:369-372`, `:650-652`, `:1152-1155`; `priors/shape.py:189-192`, `:270-273`,
`:407-411`): `zeros(n)`, `ngood = 0`, `nleft = n`. -/
def rejInit {α : Type} (zero : α) (n : ℕ) : RejState α := ⟨List.replicate n zero, 0, n⟩

/-- `values[i:i+len(w)] = w` for a slice inside the array (`priors.py:381, 660, 1162`). -/
def sliceSet {α : Type} (l : List α) (i : ℕ) (w : List α) : List α :=
  l.take i ++ w ++ l.drop (i + w.length)

/-- One pass of the loop given the batch of `nleft` draws (`priors.py:373-383`, `:654-663`,
`:1156-1164`; `priors/shape.py:193-207`, `:274-290`, `:425-437`).  `accept` is the test under `where`. -/
def rejStep {α : Type} (accept : α → Bool) (s : RejState α) (batch : List α) : RejState α :=
  let w := batch.filter accept
  if w.length > 0 then ⟨sliceSet s.vals s.ngood w, s.ngood + w.length, s.nleft - w.length⟩ else s

/-- The loop, run over a sequence of batches each as large as asked for: `ngood < n` is tested before each
pass; the loop ends when the test fails (`priors.py:373-383`).  `none`: more batches are needed. -/
def rejLoop {α : Type} (accept : α → Bool) (n : ℕ) (draws : ℕ → ℕ → List α) :
    ℕ → ℕ → RejState α → Option (List α)
  | 0, _, s => if s.ngood < n then none else some s.vals
  | fuel + 1, k, s =>
    if s.ngood < n then rejLoop accept n draws fuel (k + 1) (rejStep accept s (draws k s.nleft))
    else some s.vals

/-- `priors.py:159-187` `FlatPrior.sample`: the value made from one uniform. -/
def flatDraw (minval maxval u : ℝ) : ℝ := minval + (maxval - minval) * u

/-- `priors/shape.py:211-248` `GPriorBase.sample2d`: from `|g|` and a uniform. -/
def polarDraw (g u : ℝ) : ℝ × ℝ :=
  (g * Real.cos (2 * (u * 2 * Real.pi)), g * Real.sin (2 * (u * 2 * Real.pi)))

/-- `priors/shape.py:160-209` `GPriorBase.sample1d`: the loop draws pairs of uniforms `(u, v)` of `[0, 1)`; the value
is `gmax u`, kept when the height `maxval1d v` is below the 1-d probability.  `gmax` is `1 - 1e-4`
(`priors/shape.py:25`, `:187`) and `maxval1d` is whatever the numerical maximiser returned (times 1.1). -/
def sample1d (prob1d : ℝ → ℝ) (maxval1d : ℝ) (n : ℕ) (draws : ℕ → ℕ → List (ℝ × ℝ)) (fuel : ℕ) :
    Option (List ℝ) :=
  open Classical in
  (rejLoop (fun d : ℝ × ℝ => decide (maxval1d * d.2 < prob1d ((1 - 1.0e-4) * d.1))) n draws fuel 0
    (rejInit (0, 0) n)).map fun l => l.map fun d => (1 - 1.0e-4) * d.1

/-- `priors/shape.py:211-248` `GPriorBase.sample2d`. -/
def sample2d (prob1d : ℝ → ℝ) (maxval1d : ℝ) (n : ℕ) (draws : ℕ → ℕ → List (ℝ × ℝ)) (us : List ℝ)
    (fuel : ℕ) : Option (List (ℝ × ℝ)) :=
  (sample1d prob1d maxval1d n draws fuel).map fun g => List.zipWith polarDraw g us

/-- `priors/shape.py:769-803` `ZDisk2D.sample2d`: from two uniforms. -/
def diskDraw (radius u1 u2 : ℝ) : ℝ × ℝ :=
  (Real.sqrt (radius ^ 2 * u1) * Real.cos (2 * Real.pi * u2),
    Real.sqrt (radius ^ 2 * u1) * Real.sin (2 * Real.pi * u2))

/-- `priors.py:841-863` `LogNormal.sample`: from a standard normal value. -/
def lognormalDraw (mean sigma : ℝ) (shift : Option ℝ) (z : ℝ) : ℝ :=
  let r := Real.exp (Prior1.lnLogmean mean sigma + Real.sqrt (Prior1.lnLogvar mean sigma) * z)
  match shift with
  | some s => r + s
  | none => r

end

end Ngmix
