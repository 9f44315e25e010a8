import Verif.Model.GMix
import Verif.Model.Fl
import Verif.Model.Flags

/-!
# Model of `PSFFluxFitModel`, `/repo/ngmix/fitting/results.py:537-774`

Images are raveled.  Numbers that can become NaN or infinite (a template normalised by a zero sum, a
mixture of zero flux) are `Fl`.
-/

namespace Ngmix

noncomputable section

/-- `defaults.py:10-11` -/
def pfPDEF : ℝ := -9.999e9
/-- `defaults.py:11`. -/
def pfCDEF : ℝ := 9.999e9

/-- The observation a template is taken from (`obs.psf`, or `obs` itself): its mixture and its
`template` attribute, if set.  `results.py:705-746`. -/
structure PFTmplSrc where
  gmix : Option GMixObj
  template : Option (List ℝ)

/-- What the fit reads from one observation: image, weight, number of entries of `obs.pixels`, the
coordinates of the pixels, the observation itself as a source of templates, and its psf (`none` when
no psf is set).  `results.py:676-703`. -/
structure PFObs where
  image : List ℝ
  weight : List ℝ
  npixels : ℕ
  coords : List Coord
  self : PFTmplSrc
  psf : Option PFTmplSrc

/-- An element of `gmix_list` or `template_list` with its norm.  `gmNan o` is `o` with fluxes that are not finite,
and so a NaN norm: `set_flux` divided by a zero total flux.  `results.py:705-746`. -/
inductive PFModel
  | gm (o : GMixObj) (norm : Fl)
  | gmNan (o : GMixObj)
  | tmpl (t : List Fl) (norm : Fl)

/-- numpy `sum`.  `results.py:587-599`. -/
def flSum (l : List Fl) : Fl := l.foldl (fun a b => a + b) (.fin 0)

/-- `obs.psf` if `do_psf`, otherwise `obs`.  `results.py:709-717, 730-738`. -/
def pfSource (doPsf : Bool) (o : PFObs) : Except PyErr PFTmplSrc :=
  if doPsf then (match o.psf with | some s => .ok s | none => .error .attribute) else .ok o.self

/-- Body of the loop of `results.py:705-723` `_set_gmix_and_norms`: `get_psf_gmix`/`get_gmix` give a copy
or raise `RuntimeError`. -/
def pfGmix (doPsf normalizePsf : Bool) (o : PFObs) : Except PyErr PFModel :=
  match (if doPsf then o.psf else some o.self).bind PFTmplSrc.gmix with
  | none => .error .runtime
  | some g => (copyGMix g).map fun c =>
      if doPsf && !normalizePsf then .gm c (.fin (psum c.data))
      else
        match setFluxObj c 1 with
        | none => .gmNan c
        | some c' => .gm c' (.fin (psum c'.data))

/-- Body of the loop of `results.py:725-746` `_set_templates_and_norms`. -/
def pfTemplate (doPsf normalizePsf : Bool) (o : PFObs) : Except PyErr PFModel :=
  (pfSource doPsf o).bind fun s =>
    match s.template with
    | none => .error .attribute
    | some t =>
        let t := t.map Fl.fin
        let norm := flSum t
        if doPsf && !normalizePsf then .ok (.tmpl t norm)
        else .ok (.tmpl (t.map fun x => x * (.fin 1 / norm)) (.fin 1))

/-- The lists built by looping over the observations.  `results.py:705-746`. -/
def pfEach (f : PFObs → Except PyErr PFModel) : List PFObs → Except PyErr (List PFModel)
  | [] => .ok []
  | o :: os => (f o).bind fun m => (pfEach f os).map fun ms => m :: ms

/-- The instance: observations and their models, `totpix`.  `results.py:554-561`. -/
structure PFFit where
  obs : List (PFObs × PFModel)
  totpix : ℕ

/-- `results.py:554-561` `__init__` and `:676-703` `_set_obs`, `:748-757` `_set_totpix`, for an
`Observation` (a list of one) or an `ObsList`. -/
def newPFFit (obs : List PFObs) (doPsf normalizePsf : Bool) : Except PyErr PFFit :=
  match obs with
  | [] => .error .index
  | o :: _ =>
      (pfSource doPsf o).bind fun s =>
        let f := if s.gmix.isSome then pfGmix doPsf normalizePsf else pfTemplate doPsf normalizePsf
        if s.gmix.isNone && s.template.isNone then .error .value
        else (pfEach f obs).map fun ms => ⟨obs.zip ms, (obs.map PFObs.npixels).sum⟩

/-- a pixel of a rendered image.  `results.py:638-664`. -/
def flOfOption : Option ℝ → Fl
  | none => .nan
  | some x => .fin x

/-- `gm.make_image(dims, jacobian=jac)` (`gmix.py:510-530`): the mixture left behind and the image. -/
def pfRender (g : GMixObj) (coords : List Coord) : Except PyErr (GMixObj × List Fl) :=
  match render g.data coords (coords.map fun _ => some 0) false with
  | (_, .error e) => .error e
  | (d, .ok im) => .ok ({ g with data := d }, im.map flOfOption)

/-- `make_image` of a mixture whose fluxes `set_flux` made NaN, or infinities of both signs: the norms are set first,
from the second moments, which may raise; then every pixel is NaN.  `gmix.py:276-287, 510-530`, `render_nb.py:26-36`. -/
def pfRenderNan (g : GMixObj) (coords : List Coord) : Except PyErr (List Fl) :=
  (gmixSetNorms g.data).2.map fun _ => coords.map fun _ => .nan

/-- `results.py:642-664` `_get_model(iobs)`. -/
def pfModel1 (m : PFModel) (coords : List Coord) : Except PyErr (PFModel × List Fl) :=
  match m with
  | .tmpl t norm => .ok (.tmpl t norm, t)
  | .gmNan o => (pfRenderNan o coords).map fun im => (.gmNan o, im)
  | .gm o norm => (pfRender o coords).map fun r => (.gm r.1 norm, r.2)

/-- `gm.set_flux(flux * norm)`, not finite unless the flux, the norm and the ratio are.  `results.py:638-664`. -/
def pfSetFlux (c : GMixObj) (flux : Fl) : Option GMixObj :=
  match flux with
  | .fin f => setFluxObj c f
  | _ => none

/-- The rescaled mixture rendered.  `results.py:655-662`. -/
def pfRenderFlux (c : GMixObj) (flux : Fl) (coords : List Coord) : Except PyErr (List Fl) :=
  match pfSetFlux c flux with
  | none => pfRenderNan c coords
  | some c' => (pfRender c' coords).map fun r => r.2

/-- `results.py:638-664` `_get_model(iobs, flux=flux)`. -/
def pfModel2 (m : PFModel) (coords : List Coord) (flux : Fl) : Except PyErr (List Fl) :=
  match m with
  | .tmpl t norm => .ok (t.map fun x => x * ((norm * flux) / flSum t))
  | .gmNan o => (copyGMix o).bind fun c => pfRenderNan c coords
  | .gm g norm => (copyGMix g).bind fun c => pfRenderFlux c (flux * norm) coords

/-- elementwise product.  `results.py:587-599`. -/
def flProd (a b : List Fl) : List Fl := List.zipWith (fun x y => x * y) a b

/-- `results.py:587-590, 596-599`, first pass: models left behind, `xcorr_sum`, `msq_sum`.  An image and a
model of different sizes cannot be multiplied (broadcasting of images with one row or column is not
modelled). -/
def pfPass1 : List (PFObs × PFModel) → Fl → Fl → Except PyErr (List (PFObs × PFModel) × Fl × Fl)
  | [], x, m => .ok ([], x, m)
  | (o, md) :: rest, x, m =>
      (pfModel1 md o.coords).bind fun r =>
        if r.2.length ≠ o.image.length then .error .value
        else
          let im := o.image.map Fl.fin
          let wt := o.weight.map Fl.fin
          (pfPass1 rest (x + flSum (flProd (flProd r.2 im) wt)) (m + flSum (flProd (flProd r.2 r.2) wt))).map
            fun q => ((o, r.1) :: q.1, q.2)

/-- `results.py:629-636` `_get_chi2`. -/
def pfChi2 (model im wt : List Fl) : Fl :=
  flSum (flProd ((List.zipWith (fun x y => x - y) model im).map Fl.sq) wt)

/-- `results.py:591-594`, second pass: `chi2`. -/
def pfPass2 (flux : Fl) : List (PFObs × PFModel) → Fl → Except PyErr Fl
  | [], c => .ok c
  | (o, md) :: rest, c =>
      (pfModel2 md o.coords flux).bind fun img =>
        pfPass2 flux rest (c + pfChi2 img (o.image.map Fl.fin) (o.weight.map Fl.fin))

/-- `results.py:759-774` `get_effective_npix`. -/
def pfNpix (obs : List PFObs) : ℕ :=
  open Classical in (obs.map fun o => (o.weight.filter fun w => decide (0 < w)).length).sum

/-- `results.py:666-674` `get_dof`. -/
def pfDof (obs : List PFObs) : ℝ :=
  if (pfNpix obs : ℤ) - 1 ≤ 0 then 1e-6 else (pfNpix obs : ℝ) - 1

/-- The result dictionary.  `results.py:615-627`. -/
structure PFResult where
  flags : ℕ
  chi2per : Fl
  dof : ℝ
  flux : Fl
  fluxErr : Fl

/-- `results.py:601-627`: the flags and errors from the sums. -/
def pfFinish (obs : List PFObs) (totpix : ℕ) (flux chi2 msq : Fl) : PFResult :=
  let dof := pfDof obs
  let flags0 : ℕ := if 0 < dof then 0 else Flags.ZERO_DOF
  let chi2per : Fl := if 0 < dof then chi2 / .fin dof else .fin 9999
  open Classical in
  if msq.isZero ∨ totpix = 1 then ⟨flags0 ||| Flags.DIV_ZERO, chi2per, dof, flux, .fin pfCDEF⟩
  else
    let arg := chi2 / msq / .fin ((totpix : ℝ) - 1)
    if arg.isZero ∨ arg.pos then ⟨flags0, chi2per, dof, flux, arg.sqrt⟩
    else ⟨flags0 ||| Flags.BAD_VAR, chi2per, dof, flux, .fin pfCDEF⟩

/-- `results.py:563-627` `go`. -/
def pfGo (f : PFFit) : Except PyErr PFResult :=
  (pfPass1 f.obs (.fin 0) (.fin 0)).bind fun p =>
    let xcorr := p.2.1
    let msq := p.2.2
    let obs := f.obs.map Prod.fst
    open Classical in
    if msq.isZero then .ok (pfFinish obs f.totpix (.fin pfPDEF) (.fin 0) msq)
    else
      let flux := xcorr / msq
      (pfPass2 flux p.1 (.fin 0)).map fun chi2 => pfFinish obs f.totpix flux chi2 msq

/-- `PSFFluxFitter.go` (`fitters.py:125-138`, settings `fitters.py:121-123`): construct and fit. -/
def psfFlux (obs : List PFObs) (doPsf normalizePsf : Bool) : Except PyErr PFResult :=
  (newPFFit obs doPsf normalizePsf).bind pfGo

end

end Ngmix
