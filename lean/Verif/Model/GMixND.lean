import Verif.Model.Basic
import Verif.Model.Fl
import Mathlib.LinearAlgebra.Matrix.NonsingularInverse
import Mathlib.Analysis.SpecialFunctions.Log.Basic
import Mathlib.Analysis.Real.Pi.Bounds

/-!
# Model of `/repo/ngmix/gmix_ndim/gmix_ndim.py` and `gmix_ndim_nb.py`

The mixture has `n` dimensions.  The arrays sent to `set_mixture` are modelled as one list of components, so they
are taken to agree in their first dimension.  `numpy.linalg.inv` and `numpy.linalg.det` are the exact inverse and
determinant; `inv` raises for a singular matrix.  Not modelled: `fit`, `sample`, `plot` (sklearn, matplotlib) and
the files of `save_mixture`, `load_mixture`.  The scratch arrays `xdiff` and `tmp_lnprob` are written before they
are read in every call, so they are local here.
-/

namespace Ngmix

noncomputable section

/-- `numpy.log`.  `gmix_ndim.py:432`. -/
def Fl.log : Fl → Fl
  | .nan => .nan
  | .pinf => .pinf
  | .ninf => .nan
  | .fin x => open Classical in if x < 0 then .nan else if x = 0 then .ninf else .fin (Real.log x)

/-- `numpy.exp`.  `gmix_ndim_nb.py:60-68`. -/
def Fl.exp : Fl → Fl
  | .nan => .nan
  | .pinf => .pinf
  | .ninf => .fin 0
  | .fin x => .fin (Real.exp x)

/-- One gaussian as sent to `set_mixture`, `gmix_ndim.py:44-72`. -/
structure NDIn (n : ℕ) where
  weight : ℝ
  mean : Fin n → ℝ
  covar : Matrix (Fin n) (Fin n) ℝ

/-- One gaussian as it is stored.  `gmix_ndim.py:407-434`. -/
structure NDComp (n : ℕ) where
  logPnorm : Fl
  mean : Fin n → ℝ
  icovar : Matrix (Fin n) (Fin n) ℝ

/-- The body of the loop of `gmix_ndim.py:422-430` and lines 432-434 for one gaussian. -/
def ndComp {n : ℕ} (c : NDIn n) : Except PyErr (NDComp n) :=
  open Classical in
  if c.covar.det = 0 then .error .linAlg
  else
    let norm : Fl := .fin 1.0 / Fl.sqrt (.fin ((2.0 * Real.pi) ^ n * c.covar.det))
    .ok ⟨Fl.log (norm * .fin c.weight), c.mean, c.covar⁻¹⟩

/-- `gmix_ndim.py:407-435` `_calc_icovars_and_norms`. -/
def ndSetMixture {n : ℕ} : List (NDIn n) → Except PyErr (List (NDComp n))
  | [] => .ok []
  | c :: cs => (ndComp c).bind fun d => (ndSetMixture cs).map fun ds => d :: ds

/-- The double loop `gmix_ndim_nb.py:48-53` (also `:114-119`), in the order of the code. -/
def ndChi2 {n : ℕ} (c : NDComp n) (pars : Fin n → ℝ) : ℝ :=
  let xdiff := fun i => pars i - c.mean i
  (List.finRange n).foldl (fun acc i => (List.finRange n).foldl
    (fun acc j => acc + xdiff i * xdiff j * c.icovar i j) acc) 0.0

/-- `lnp` of `gmix_ndim_nb.py:55` (also `:121`). -/
def ndLnp {n : ℕ} (c : NDComp n) (pars : Fin n → ℝ) : Fl := .fin (-0.5 * ndChi2 c pars) + c.logPnorm

/-- `gmix_ndim_nb.py:56-57`: the running maximum. -/
def ndMax (lnpmax lnp : Fl) : Fl := open Classical in if Fl.lt lnpmax lnp then lnp else lnpmax

/-- `gmix_ndim_nb.py:5-70` `gmixnd_get_prob`. -/
def ndGetProb {n : ℕ} (gm : List (NDComp n)) (pars : Fin n → ℝ) (dolog : Bool) : Fl :=
  let tmp := gm.map fun c => ndLnp c pars
  let lnpmax := tmp.foldl ndMax (.fin (-9.99e9))
  let p := tmp.foldl (fun acc l => acc + Fl.exp (l - lnpmax)) (.fin 0.0)
  if dolog then Fl.log p + lnpmax else p * Fl.exp lnpmax

/-- `gmix_ndim_nb.py:73-128` `gmixnd_get_prob_component`. -/
def ndGetProbComponent {n : ℕ} (gm : List (NDComp n)) (pars : Fin n → ℝ) (dolog : Bool) (component : ℤ) :
    Except PyErr Fl :=
  if component ≥ 0 ∧ component < gm.length then
    match gm[component.toNat]? with
    | none => .error .assertion
    | some c => .ok (if dolog then ndLnp c pars else Fl.exp (ndLnp c pars))
  else .error .assertion

/-- `gmix_ndim.py:267-291` `_get_prob`, that is `get_lnprob_scalar` (`dolog`) and `get_prob_scalar`,
`:306-320`. -/
def ndProb {n : ℕ} (gm : List (NDComp n)) (pars : Fin n → ℝ) (dolog : Bool) : Option ℤ → Except PyErr Fl
  | none => .ok (ndGetProb gm pars dolog)
  | some k => ndGetProbComponent gm pars dolog k

/-- `gmix_ndim.py:293-304` `_get_prob_array`, that is `get_lnprob_array` and `get_prob_array`, `:322-344`. -/
def ndProbArray {n : ℕ} (gm : List (NDComp n)) (dolog : Bool) (component : Option ℤ) :
    List (Fin n → ℝ) → Except PyErr (List Fl)
  | [] => .ok []
  | x :: xs => (ndProb gm x dolog component).bind fun p => (ndProbArray gm dolog component xs).map fun ps => p :: ps

end

end Ngmix
