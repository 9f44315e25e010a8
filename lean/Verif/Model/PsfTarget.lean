import Verif.Model.Moments
import Verif.Model.GMix
import Verif.Model.Runners
import Mathlib.Analysis.SpecialFunctions.Log.Basic

/-!
# Model of the reconvolution psfs of `/repo/ngmix/metacal/metacal.py`

`none` stands for NaN.
-/

namespace Ngmix

noncomputable section

/-- `numpy.sqrt`.  `metacal.py:809`. -/
def npSqrt (x : ℝ) : Option ℝ := open Classical in if x < 0 then none else some (Real.sqrt x)

/-- `metacal.py:793-816` `_get_ellip_dilation`; `maxEig` (Model/GMix) is the larger eigenvalue.  With `T = 0` the quotient is `0/0`. -/
def getEllipDilation (e1 e2 T : ℝ) : Option ℝ :=
  open Classical in
  let m := e2mom e1 e2 T
  if T = 0 then none
  else
    (npSqrt (maxEig m.1 m.2.1 m.2.2 / (T / 2.0))).map fun d =>
      let d := 1.0 + 2 * (d - 1.0)
      if d > 1.1 then 1.1 else d

/-- `metacal.py:728-730`: the width of the fitted target. -/
def fitSigma (e1 e2 T : ℝ) : Option ℝ := (getEllipDilation e1 e2 T).bind fun d => npSqrt (T * d / 2.0)

variable {σ Guess R G : Type}

/-- `metacal.py:660-735` `_do_psf_fit`, up to the width of the gaussian.  `admom`, `ml` are the two fitters with their
guessers, `shapeOf` reads `e` and `T` from the adaptive moments result, `p` is the psf observation, which is the caller's
own object (`metacal.py:100`). -/
def doPsfFit (ops : ResOps R G) (admom ml : FitSetup σ Guess R) (shapeOf : R → ℝ × ℝ × ℝ) (ngauss : G → ℕ)
    (gmShape : G → Except PyErr (ℝ × ℝ × ℝ)) (p : ℕ) (s : World σ Guess × Heap R G) :
    (World σ Guess × Heap R G) × Except PyErr (Option ℝ) :=
  match runPsfObs ops admom 4 true p s with
  | (s, .error e) => (s, .error e)
  | (s, .ok res) =>
      if ops.flags res = 0 then
        let x := shapeOf res
        (s, .ok (fitSigma x.1 x.2.1 x.2.2))
      else
        match runPsfObs ops ml 4 false p s with
        | (s, .error e) => (s, .error e)
        | (s, .ok res) => (s, finish s.2 res)
where
  /-- `metacal.py:709-730`.  A fit result without `get_gmix` raises AttributeError. -/
  finish (h : Heap R G) (res : R) : Except PyErr (Option ℝ) :=
    let gm : Except PyErr G :=
      if ops.flags res = 0 then
        match ops.getGmix res with
        | some g => g
        | none => .error .attribute
      else
        match (h.cell p).gmix with
        | some g => if ngauss g = 1 then .ok g else .error .bootPSF
        | none => .error .bootPSF
    gm.bind fun g =>
      match gmShape g with
      | .error .gmixRange => .error .bootPSF
      | .error e => .error e
      | .ok x => .ok (fitSigma x.1 x.2.1 x.2.2)

/-- `np.min(ksq[karr_r < small_kval * psf.flux])`, `metacal.py:866`; `modes` are the pairs (squared wavenumber, real
amplitude) of the k-space image.  The minimum of nothing raises ValueError. -/
def ksqMax (flux : ℝ) (modes : List (ℝ × ℝ)) : Except PyErr ℝ :=
  open Classical in
  match (modes.filter fun m => decide (m.2 < 1e-2 * flux)).map Prod.fst with
  | [] => .error .value
  | k :: ks => .ok (ks.foldl min k)

/-- `metacal.py:846-873` `_get_gauss_target_psf`: the squared width; `none` (here numpy's infinity) when the smallest
squared wavenumber is zero. -/
def gaussTargetSigmaSq (flux : ℝ) (modes : List (ℝ × ℝ)) : Except PyErr (Option ℝ) :=
  open Classical in
  (ksqMax flux modes).map fun k => if k = 0 then none else some (-2.0 * Real.log 3e-3 / k)

end

end Ngmix
