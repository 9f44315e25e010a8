import Verif.Model.GMixND

/-!
# The object `GMixND` over its history, `/repo/ngmix/gmix_ndim/gmix_ndim.py`

`set_mixture`, `load_mixture`, `save_mixture`, `fit`, `sample`, `converged` and the evaluations, with the attributes they
read and write.  The number of dimensions `n` is fixed over the history and the three arrays agree in their first
dimension, as in `Model/GMixND.lean`.  sklearn is abstract: the outcome of its fit is a part of the operation, its
sampling an arbitrary function of the parameters and of the state `σ` of the generator.  The file layer (fitsio) keeps
arrays of doubles exactly.  Not modelled: `plot` and the `doplot` option of `fit`.
-/

namespace Ngmix

noncomputable section

/-- The attributes of a sklearn `GaussianMixture` the code uses, `gmix_ndim.py:90-103, 385-405`: the parameters, and
`converged_`, which only a fit sets. -/
structure NDGmm (n : ℕ) where
  mix : List (NDIn n)
  converged : Option Bool

/-- The object: `weights`, `means`, `covars` (with `ngauss`, `ndim`), then `log_pnorms` and `icovars` (with the scratch
arrays), then `_gmm`.  `none`: the attribute is not there.  `gmix_ndim.py:20-72`. -/
structure NDObj (n : ℕ) where
  mix : Option (List (NDIn n))
  norms : Option (List (Fl × Matrix (Fin n) (Fin n) ℝ))
  gmm : Option (NDGmm n)

/-- The rest of the world: the mixture in each file, or what reading it raises; the generator.
`gmix_ndim.py:242-265`. -/
structure NDWorld (n : ℕ) (σ : Type) where
  obj : NDObj n
  files : String → Except PyErr (List (NDIn n))
  rng : σ

/-- sklearn and fitsio: `_compute_precision_cholesky` (`gmix_ndim.py:400-402`), `GaussianMixture.sample` (`:359`) and what
is raised on reading a file that a failed save left without arrays (`:262`). -/
structure NDExt (n : ℕ) (σ : Type) where
  chol : List (Matrix (Fin n) (Fin n) ℝ) → Except PyErr Unit
  draw : List (NDIn n) → ℤ → σ → σ × Except PyErr (List (Fin n → ℝ))
  lost : PyErr

/-- `gmix_ndim.py:44-72` `set_mixture`: the mixture is stored before the norms are calculated, which are stored only if
every covariance can be inverted. -/
def NDObj.setMixture {n : ℕ} (o : NDObj n) (gm : List (NDIn n)) : NDObj n × Except PyErr Unit :=
  match ndSetMixture gm with
  | .error e => ({ o with mix := some gm }, .error e)
  | .ok ds => ({ o with mix := some gm, norms := some (ds.map fun d => (d.logPnorm, d.icovar)) }, .ok ())

/-- `gmix_ndim.py:267-291` `_get_prob`: the arrays of norms and inverse covariances with the array of means; as many
gaussians as there are norms.  Outer `none`: fewer means than norms, the loop reads past the end. -/
def NDObj.prob {n : ℕ} (o : NDObj n) (pars : Fin n → ℝ) (dolog : Bool) (component : Option ℤ) :
    Option (Except PyErr Fl) :=
  match o.norms, o.mix with
  | some ns, some gm =>
      if gm.length < ns.length then none
      else some (ndProb (List.zipWith (fun a c => ⟨a.1, c.mean, a.2⟩) ns gm) pars dolog component)
  | _, _ => some (.error .attribute)

/-- What `sample` returns, `gmix_ndim.py:346-367`. -/
inductive NDSample (n : ℕ)
  | value (x : ℝ)
  | point (p : Fin n → ℝ)
  | values (xs : List ℝ)
  | points (ps : List (Fin n → ℝ))

/-- `gmix_ndim.py:361-367`: one column in one dimension, the first row if no number was asked for. -/
def ndShapeSample {n : ℕ} (isOne : Bool) (ps : List (Fin n → ℝ)) : Except PyErr (NDSample n) :=
  if h : n = 1 then
    let xs := ps.map fun p => p ⟨0, by omega⟩
    if isOne then match xs with | [] => .error .index | x :: _ => .ok (.value x) else .ok (.values xs)
  else
    if isOne then match ps with | [] => .error .index | p :: _ => .ok (.point p) else .ok (.points ps)

/-- `gmix_ndim.py:385-405` `_set_gmm`; `_make_gmm`, `gmix_ndim.py:369-383`, makes the object of scikit-learn, outside. -/
def NDObj.setGmm {n : ℕ} {σ : Type} (x : NDExt n σ) (o : NDObj n) : NDObj n × Except PyErr Unit :=
  match o.mix with
  | none => (o, .error .attribute)
  | some gm =>
      match x.chol (gm.map (·.covar)) with
      | .error e => (o, .error e)
      | .ok () => ({ o with gmm := some ⟨gm, none⟩ }, .ok ())

/-- `gmix_ndim.py:346-367` `sample`. -/
def ndSample {n : ℕ} {σ : Type} (x : NDExt n σ) (w : NDWorld n σ) (num : Option ℤ) :
    NDWorld n σ × Except PyErr (NDSample n) :=
  let r := match w.obj.gmm with
    | some _ => (w.obj, Except.ok ())
    | none => w.obj.setGmm x
  match r with
  | (o, .error e) => ({ w with obj := o }, .error e)
  | (o, .ok ()) =>
      match o.gmm with
      | none => ({ w with obj := o }, .error .attribute)
      | some g =>
          let d := x.draw g.mix (num.getD 1) w.rng
          ({ w with obj := o, rng := d.1 }, d.2.bind (ndShapeSample num.isNone))

/-- What is done with the object and the files; the last is another program writing a file.
`gmix_ndim.py:44-115`, `:346-405`. -/
inductive NDOp (n : ℕ) (σ : Type)
  | set (gm : List (NDIn n))
  | load (f : String)
  | save (f : String)
  | fit (rng : σ) (r : Except PyErr (List (NDIn n) × Bool))
  | sample (num : Option ℤ)
  | other (f : String) (c : Except PyErr (List (NDIn n)))

/-- `gmix_ndim.py:253-265` `load_mixture`. -/
def ndLoad {n : ℕ} {σ : Type} (w : NDWorld n σ) (f : String) : NDWorld n σ × Except PyErr Unit :=
  match w.files f with
  | .error e => (w, .error e)
  | .ok gm => let r := w.obj.setMixture gm; ({ w with obj := r.1 }, r.2)

/-- `gmix_ndim.py:242-251` `save_mixture`: an existing file is removed before the arrays are written. -/
def ndSave {n : ℕ} {σ : Type} (x : NDExt n σ) (w : NDWorld n σ) (f : String) : NDWorld n σ × Except PyErr Unit :=
  match w.obj.mix with
  | none => ({ w with files := Function.update w.files f (.error x.lost) }, .error .attribute)
  | some gm => ({ w with files := Function.update w.files f (.ok gm) }, .ok ())

/-- `gmix_ndim.py:81-115` `fit`; `r` is what sklearn gives (parameters and `converged_`), `rng` the generator after it. -/
def ndFit {n : ℕ} {σ : Type} (w : NDWorld n σ) (rng : σ) (r : Except PyErr (List (NDIn n) × Bool)) :
    NDWorld n σ × Except PyErr Unit :=
  match r with
  | .error e => ({ w with rng := rng }, .error e)
  | .ok (gm, cv) =>
      let s := ({ w.obj with gmm := some ⟨gm, some cv⟩ } : NDObj n).setMixture gm
      ({ w with obj := s.1, rng := rng }, s.2)

/-- `gmix_ndim.py:74-79` `converged`; a `_gmm` made for sampling has no `converged_`. -/
def NDObj.isConverged {n : ℕ} (o : NDObj n) : Except PyErr Bool :=
  match o.gmm with
  | none => .error .attribute
  | some g => match g.converged with | none => .error .attribute | some b => .ok b

/-- One operation, `gmix_ndim.py:44-115, 242-265, 346-367`. -/
def ndStep {n : ℕ} {σ : Type} (x : NDExt n σ) (w : NDWorld n σ) : NDOp n σ → NDWorld n σ
  | .set gm => { w with obj := (w.obj.setMixture gm).1 }
  | .load f => (ndLoad w f).1
  | .save f => (ndSave x w f).1
  | .fit rng r => (ndFit w rng r).1
  | .sample num => (ndSample x w num).1
  | .other f c => { w with files := Function.update w.files f c }

/-- `gmix_ndim.py:20-42` `__init__`; the object as made by `__new__` has no attributes. -/
def ndInit {n : ℕ} {σ : Type} (files : String → Except PyErr (List (NDIn n))) (rng : σ) (file : Option String)
    (weights : Option (List ℝ)) (means : Option (List (Fin n → ℝ)))
    (covars : Option (List (Matrix (Fin n) (Fin n) ℝ))) : NDWorld n σ × Except PyErr Unit :=
  let w : NDWorld n σ := ⟨⟨none, none, none⟩, files, rng⟩
  match file with
  | some f => ndLoad w f
  | none =>
      match weights, means, covars with
      | some ws, some ms, some cs =>
          let r := w.obj.setMixture (List.zipWith (fun a mc => ⟨a, mc.1, mc.2⟩) ws (ms.zip cs))
          ({ w with obj := r.1 }, r.2)
      | none, none, none => (w, .ok ())
      | _, _, _ => (w, .error .runtime)

end

end Ngmix
