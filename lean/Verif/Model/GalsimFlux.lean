import Verif.Model.PSFFlux
import Verif.Model.Jacobian

/-!
# Model of `GalsimPSFFluxFitter`, `/repo/ngmix/fitting/galsim_fitters.py:115-148`, and of
`GalsimPSFFitModel`, `/repo/ngmix/fitting/galsim_results.py:493-640`

Images are raveled, row after row.
-/

namespace Ngmix

noncomputable section

/-- The parts of GalSim that are used, for one interpolant and one drawing method: `withFlux(1.0)`
(`galsim_results.py:521`), `InterpolatedImage` of an image of the given shape with its wcs and offset (`:604-610`),
`Convolve` (`:630`), and `drawImage` with `nx`, `ny`, wcs and offset (`:552-559`).  Each may raise. -/
structure GPLib where
  Obj : Type
  unitFlux : Obj → Except PyErr Obj
  interp : ℕ → ℕ → List Fl → Wcs → ℝ × ℝ → Except PyErr Obj
  convolve : Obj → Obj → Except PyErr Obj
  draw : Obj → ℕ → ℕ → Wcs → ℝ × ℝ → Except PyErr (List ℝ)

/-- An image with its jacobian.  `galsim_results.py:595-600, 634-636`. -/
structure GPImg where
  nrow : ℕ
  ncol : ℕ
  data : List ℝ
  jac : Jacobian

/-- What the fit reads from an observation; `psf` is `none` when no psf is set.  `galsim_results.py:593-640`. -/
structure GPObs where
  img : GPImg
  weight : List ℝ
  npixels : ℕ
  psf : Option GPImg

/-- `(jcol, jrow) - canonical_center`.  `galsim_results.py:548-550, 601-603`. -/
def gpOffset (nrow ncol : ℕ) (j : Jacobian) : ℝ × ℝ :=
  (j.col0 - ((ncol : ℝ) - 1.0) / 2.0, j.row0 - ((nrow : ℝ) - 1.0) / 2.0)

/-- Body of the loop of `galsim_results.py:585-614` `_set_psf_models`. -/
def gpPsfModel (L : GPLib) (o : GPObs) : Except PyErr L.Obj :=
  match o.psf with
  | none => .error .attribute
  | some p =>
    let im := p.data.map Fl.fin
    L.interp p.nrow p.ncol (im.map fun x => x * (.fin 1 / flSum im)) p.jac.galsimWcs (gpOffset p.nrow p.ncol p.jac)

/-- `galsim_results.py:544-563` `_do_draw`. -/
def gpDraw (L : GPLib) (obj : L.Obj) (i : GPImg) : Except PyErr (List ℝ) :=
  match L.draw obj i.ncol i.nrow i.jac.galsimWcs (gpOffset i.nrow i.ncol i.jac) with
  | .error .runtime => .error .gmixRange
  | r => r

/-- Body of the loop of `galsim_results.py:616-640` `_set_template_images`. -/
def gpTemplate (L : GPLib) (model : Option L.Obj) (psf : L.Obj) (o : GPObs) : Except PyErr (List ℝ) :=
  match model with
  | none => gpDraw L psf o.img
  | some m => (L.convolve m psf).bind fun obj => gpDraw L obj o.img

/-- A loop over a list that builds a list.  `galsim_results.py:592-614, 622-640`. -/
def gpEach {α β : Type} (f : α → Except PyErr β) : List α → Except PyErr (List β)
  | [] => .ok []
  | o :: os => (f o).bind fun m => (gpEach f os).map fun ms => m :: ms

/-- The argument `obs`.  `galsim_results.py:565-578`. -/
inductive GPArg
  | obs (o : GPObs)
  | obsList (l : List GPObs)
  | other

/-- What the sums read (`results.py:584-594`): there are no mixtures. -/
def gpObs (o : GPObs) : PFObs := ⟨o.img.data, o.weight, o.npixels, [], ⟨none, none⟩, none⟩

/-- `galsim_results.py:518-521`: the model at unit flux. -/
def gpUnit (L : GPLib) : Option L.Obj → Except PyErr (Option L.Obj)
  | none => .ok none
  | some m => (L.unitFlux m).map some

/-- `galsim_results.py:570-578`: the list of observations. -/
def gpObsList : GPArg → Except PyErr (List GPObs)
  | .obs o => .ok [o]
  | .obsList l => .ok l
  | .other => .error .value

/-- `galsim_results.py:510-529` `__init__` and `:565-583` `_set_obs`.  `_get_model` (`:531-542`) is that of templates
with norm one. -/
def newGPFit (L : GPLib) (model : Option L.Obj) (arg : GPArg) : Except PyErr PFFit :=
  (gpUnit L model).bind fun m =>
    (gpObsList arg).bind fun l =>
      (gpEach (gpPsfModel L) l).bind fun psfs =>
        (gpEach (fun x => gpTemplate L m x.1 x.2) (psfs.zip l)).map fun ts =>
          ⟨(l.map gpObs).zip (ts.map fun t => .tmpl (t.map Fl.fin) (.fin 1)), (l.map GPObs.npixels).sum⟩

/-- `galsim_fitters.py:140-148` `go`. -/
def gpGo (L : GPLib) (model : Option L.Obj) (arg : GPArg) : Except PyErr PFResult :=
  (newGPFit L model arg).bind pfGo

end

end Ngmix
