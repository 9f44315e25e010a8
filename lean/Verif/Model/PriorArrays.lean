import Verif.Model.Priors
import Verif.Model.JointPrior

/-!
# Model of the probability and array methods of the priors

`/repo/ngmix/priors/priors.py`, `shape.py`, `multivariate.py` and `/repo/ngmix/joint_prior.py`.  Array arguments
are one dimensional arrays of finite doubles.  Arrays given to a class whose method compares them with `or`
(`get_fdiff` of `FlatPrior`, `LogNormal`, `TruncatedGaussian`) are not modelled.
-/

namespace Ngmix

noncomputable section

/-- What an array method returns: an array, or a plain number.  `priors.py:102-140`. -/
inductive PyNum
  | num (x : Fl)
  | arr (l : List Fl)

namespace Prior1

/-- `get_prob_scalar` of each class: `priors.py:68-83, 219-233, 456-471, 800-811`; `LMBounds`, `Bounded1D`,
`Sinh` and `TruncatedGaussian` have none. -/
def prob (p : Prior1) (val : ℝ) : Except PyErr Fl :=
  match p with
  -- priors.py:68-83
  | flat minval maxval =>
    open Classical in if val < minval ∨ val > maxval then .error .gmixRange else .ok (.fin 1)
  | erf2 a wa b wb => .ok (erfProb a wa b wb val)
  -- priors.py:456-471
  | normal mean sigma _ => .ok (.fin (Real.exp (-0.5 * (mean - val) * (mean - val) * (1 / sigma ^ 2))))
  -- priors.py:800-811
  | lognormal mean sigma shift => (lognormalLnprob mean sigma shift val).map expFl
  | lmBounds _ _ => .error .attribute
  | bounded _ _ => .error .attribute
  | sinh _ _ => .error .attribute
  | trunc _ _ _ _ => .error .attribute

/-- `vals - self.shift`.  `priors.py:785-786`. -/
def shifted (shift : Option ℝ) (vals : List ℝ) : List ℝ :=
  match shift with
  | some s => vals.map fun v => v - s
  | none => vals

/-- `LogNormal.get_lnprob_array`, `priors.py:774-798`. -/
def lognormalLnprobArray (mean sigma : ℝ) (shift : Option ℝ) (vals : List ℝ) : Except PyErr (List Fl) :=
  let vals := shifted shift vals
  open Classical in
  if 0 < (vals.filter fun v => decide (v ≤ 0)).length then .error .gmixRange
  else
    let logvals := vals.map Real.log
    let chi2 := logvals.map fun l => lnLogivar mean sigma * .fin ((l - lnLogmean mean sigma) ^ 2)
    .ok (List.zipWith (fun c l => .fin (-0.5) * c - .fin l - lnProbMax mean sigma) chi2 logvals)

/-- `get_prob_array` of each class: `priors.py:102-120, 253-268, 454, 813-824`. -/
def probArray (p : Prior1) (vals : List ℝ) : Except PyErr PyNum :=
  match p with
  -- priors.py:102-120
  | flat minval maxval =>
    open Classical in
    if 0 < (vals.filter fun v => decide (v < minval ∨ v > maxval)).length then .error .gmixRange
    else .ok (.arr (vals.map fun v => .fin (v * 0 + 1)))
  -- priors.py:253-268
  | erf2 a wa b wb => .ok (.arr (vals.map fun v => erfProb a wa b wb v))
  -- priors.py:440-454
  | normal mean sigma _ =>
    .ok (.arr (vals.map fun v => .fin (Real.exp (-0.5 * (mean - v) * (mean - v) * (1 / sigma ^ 2)))))
  -- priors.py:813-824
  | lognormal mean sigma shift => (lognormalLnprobArray mean sigma shift vals).map fun l => .arr (l.map expFl)
  | lmBounds _ _ => .error .attribute
  | bounded _ _ => .error .attribute
  | sinh _ _ => .error .attribute
  | trunc _ _ _ _ => .error .attribute

/-- `get_lnprob_array` of each class: `priors.py:122-140, 270-287, 438, 774-798, 1097-1113`. -/
def lnprobArray (p : Prior1) (vals : List ℝ) : Except PyErr PyNum :=
  match p with
  -- priors.py:122-140: a plain 0.0
  | flat minval maxval =>
    open Classical in
    if 0 < (vals.filter fun v => decide (v < minval ∨ v > maxval)).length then .error .gmixRange
    else .ok (.num (.fin 0))
  -- priors.py:270-287: minus infinity except where `p > 0`
  | erf2 a wa b wb =>
    let ps := vals.map fun v => erfProb a wa b wb v
    open Classical in
    .ok (.arr (ps.map fun p => if Fl.pos p then logFl p else .ninf))
  -- priors.py:424-438
  | normal mean sigma _ =>
    .ok (.arr (vals.map fun v => .fin (-0.5 * (mean - v) * (mean - v) * (1 / sigma ^ 2))))
  | lognormal mean sigma shift => (lognormalLnprobArray mean sigma shift vals).map .arr
  -- priors.py:1097-1113
  | trunc mean sigma minval maxval =>
    open Classical in
    .ok (.arr (vals.map fun v =>
      if v > minval ∧ v < maxval then .fin (-0.5 * (v - mean) * (v - mean) * (1 / sigma ^ 2)) else .ninf))
  | lmBounds _ _ => .error .attribute
  | bounded _ _ => .error .attribute
  | sinh _ _ => .error .attribute

/-- `get_fdiff` with an array, for the classes where it is defined elementwise: `priors.py:289-318, 473-482,
540-549, 1003-1012`.  `none`: not modelled. -/
def fdiffArray (p : Prior1) (vals : List ℝ) : Option (Except PyErr (List Fl)) :=
  match p with
  -- priors.py:289-318
  | erf2 a wa b wb => some (.ok (vals.map fun v => clipRoot (erfLnprob a wa b wb v)))
  -- priors.py:473-482
  | normal mean sigma _ => some (.ok (vals.map fun v => .fin ((v - mean) * (1 / sigma))))
  -- priors.py:540-549
  | lmBounds _ _ => some (.ok (vals.map fun v => .fin (0 * v)))
  -- priors.py:1003-1012
  | sinh mean scale => some (.ok (vals.map fun v => match Fl.fin (v - mean) / Fl.fin scale with
      | .fin x => .fin (Real.sinh x)
      | y => y))
  | _ => none

end Prior1

namespace PriorG

/-- `get_lnprob_array2d`: `shape.py:113-123` with `GPriorBA.fill_lnprob_array2d`, `:597-606`: the output starts at
minus infinity.  `GPriorGauss` does not override the filling; `ZDisk2D` has no such method. -/
def lnprobArray (p : PriorG) (g : List (ℝ × ℝ)) : Except PyErr (List Fl) :=
  match p with
  | ba sigma _ =>
    open Classical in
    .ok (g.map fun x =>
      let gsq := x.1 * x.1 + x.2 * x.2
      let omgsq := 1 - gsq
      if omgsq > 0 then .fin (2 * Real.log omgsq - 0.5 * gsq * (1 / sigma ^ 2)) else .ninf)
  | gauss _ => .error .runtime
  | disk _ => .error .attribute

/-- `get_prob_array2d`: `shape.py:131-141` with `GPriorBA.fill_prob_array2d`, `:583-595`; `ZDisk2D`, `:725-740`. -/
def probArray (p : PriorG) (g : List (ℝ × ℝ)) : Except PyErr (List ℝ) :=
  match p with
  | ba sigma A =>
    open Classical in
    .ok (g.map fun x =>
      let gsq := x.1 * x.1 + x.2 * x.2
      let omgsq := 1 - gsq
      if omgsq > 0 then A * (omgsq * omgsq) * Real.exp (-0.5 * gsq * (1 / sigma ^ 2)) else 0)
  | gauss _ => .error .runtime
  | disk radius =>
    open Classical in
    .ok (g.map fun x => if x.1 ^ 2 + x.2 ^ 2 < radius ^ 2 then 1 else 0)

/-- `GPriorBA.get_prob_array1d`: `shape.py:149-158` with `fill_prob_array1d`, `:627-640`. -/
def probArray1d (sigma A : ℝ) (g : List ℝ) : List ℝ :=
  open Classical in
  g.map fun x =>
    let gsq := x * x
    let omgsq := 1 - gsq
    if omgsq > 0 then omgsq * omgsq * Real.exp (-0.5 * gsq * (1 / sigma ^ 2)) * (A * 2 * Real.pi * x) else 0

/-- `GPriorBA.get_fdiff` with arrays, `shape.py:520-528`, `:543-553`. -/
def fdiffArray (sigma A : ℝ) (g : List (ℝ × ℝ)) : Except PyErr (List Fl) :=
  ((ba sigma A).lnprobArray g).map fun l => l.map fun x => Fl.sqrt (Fl.clip0 (.fin (-2) * x))

/-- `ZDisk2D.get_lnprob_scalar1d`, `shape.py:686-692`. -/
def diskLnprob1d (radius r : ℝ) : Except PyErr Fl :=
  open Classical in if r ≥ radius then .error .gmixRange else .ok (.fin 0)

/-- `ZDisk2D.get_prob_scalar1d`, `shape.py:694-702`. -/
def diskProb1d (radius r : ℝ) : ℝ := open Classical in if r ≥ radius then 0 else 1

end PriorG

namespace CenPrior

/-- `get_prob_scalar`, `multivariate.py:73-82`. -/
def prob (p : CenPrior) (x1 x2 : ℝ) : ℝ :=
  Real.exp (-0.5 * (p.cen1 - x1) * (p.cen1 - x1) * (1 / p.sigma1 ^ 2) -
    0.5 * (p.cen2 - x2) * (p.cen2 - x2) * (1 / p.sigma2 ^ 2))

/-- `get_lnprob_array = get_lnprob_scalar`, `multivariate.py:85`, on arrays. -/
def lnprobArray (p : CenPrior) (x : List (ℝ × ℝ)) : List Fl :=
  x.map fun v => .fin (-0.5 * (p.cen1 - v.1) * (p.cen1 - v.1) * (1 / p.sigma1 ^ 2) -
    0.5 * (p.cen2 - v.2) * (p.cen2 - v.2) * (1 / p.sigma2 ^ 2))

/-- `get_prob_array = get_prob_scalar`, `multivariate.py:84`, on arrays: `math.exp` takes an array of one element
(and gives a plain number) and raises `TypeError` for others. -/
def probArray (p : CenPrior) (x : List (ℝ × ℝ)) : Except PyErr PyNum :=
  match x with
  | [v] => .ok (.num (.fin (p.prob v.1 v.2)))
  | _ => .error .type

end CenPrior

/-- `lnp += term` for an array `lnp` and a term that is an array of the same size or a plain number.
`joint_prior.py:180-188`. -/
def addTo (acc : List Fl) : PyNum → List Fl
  | .num x => acc.map fun a => a + x
  | .arr l => List.zipWith (fun a b => a + b) acc l

namespace JointPrior

/-- Column `i` of the array of parameter vectors, `pars[:, i]`: an `IndexError` when the rows are too short.
The array is given by its number of columns and its rows.  `joint_prior.py:180-188`. -/
def column (ncol : ℕ) (rows : List (List ℝ)) (i : ℕ) : Except PyErr (List ℝ) :=
  if i < ncol then .ok (rows.map fun r => r.getD i 0) else .error .index

/-- Which columns the array methods give to which one dimensional prior, in order: `joint_prior.py:182-186`,
`:415-421`, `:613-618`, `:809-814`.  `PriorCoellipSame` inherits the first. -/
def arrayLayout (p : JointPrior) : Except PyErr (List (Prior1 × ℕ)) :=
  match p.cls, p.mids, p.fs with
  | .simple, [T], fs => .ok ((T, 4) :: fs.zipIdx.map fun F => (F.1, 5 + F.2))
  | .bd, [T, r, f], fs => .ok ((T, 4) :: (r, 5) :: (f, 6) :: fs.zipIdx.map fun F => (F.1, 7 + F.2))
  | .bdf, [T, f], fs => .ok ((T, 4) :: (f, 5) :: fs.zipIdx.map fun F => (F.1, 6 + F.2))
  | .spergel, [r, nu], fs => .ok ((r, 4) :: (nu, 5) :: fs.zipIdx.map fun F => (F.1, 6 + F.2))
  | .coellip _, [T], fs => .ok ((T, 4) :: fs.zipIdx.map fun F => (F.1, 5 + F.2))
  | _, _, _ => .error .attribute

/-- The loop of `lnp += prior.get_lnprob_array(pars[:, i])`.  `joint_prior.py:182-188`. -/
def addArrays (ncol : ℕ) (rows : List (List ℝ)) : List (Prior1 × ℕ) → List Fl → Except PyErr (List Fl)
  | [], acc => .ok acc
  | (q, i) :: rest, acc =>
    (column ncol rows i).bind fun c => (q.lnprobArray c).bind fun t => addArrays ncol rows rest (addTo acc t)

/-- `get_lnprob_array`: `joint_prior.py:170-188, 403-423, 601-620, 797-816`. -/
def lnprobArray (p : JointPrior) (ncol : ℕ) (rows : List (List ℝ)) : Except PyErr (List Fl) :=
  (column ncol rows 0).bind fun c1 => (column ncol rows 1).bind fun c2 =>
    let lnp := p.cen.lnprobArray (c1.zip c2)
    (column ncol rows 2).bind fun g1 => (column ncol rows 3).bind fun g2 =>
      (p.g.lnprobArray (g1.zip g2)).bind fun lg =>
        (arrayLayout p).bind fun l => addArrays ncol rows l (addTo lnp (.arr lg))

/-- `get_prob_scalar`, `joint_prior.py:122-134`. -/
def prob (p : JointPrior) (pars : List ℝ) : Except PyErr Fl := (p.lnprob pars).map expFl

/-- `get_prob_array`, `joint_prior.py:155-168`. -/
def probArray (p : JointPrior) (ncol : ℕ) (rows : List (List ℝ)) : Except PyErr (List Fl) :=
  (p.lnprobArray ncol rows).map fun l => l.map expFl

/-- `get_widths`, `joint_prior.py:63-84`: `cached` is the attribute `_sigma_estimates` if it exists, `stds` the
standard deviations of the columns of samples drawn now.  Gives the attribute afterwards; the same array object is
returned. -/
def getWidths (cached : Option (List ℝ)) (stds : List ℝ) : List ℝ :=
  match cached with
  | some s => s
  | none => (stds.set 2 2).set 3 2

/-- What a caller can do with the widths: ask for them, or write into the array they were given (which is the
attribute itself).  `joint_prior.py:63-84`. -/
inductive WOp
  | ask (stds : List ℝ)
  | write (i : ℕ) (v : ℝ)

/-- The attribute after one operation.  `joint_prior.py:63-84`. -/
def wStep (cached : Option (List ℝ)) : WOp → Option (List ℝ)
  | .ask stds => some (getWidths cached stds)
  | .write i v => cached.map fun s => s.set i v

end JointPrior

end

end Ngmix
