import Verif.Model.GalsimFit
import Verif.Spec.KObs

/-!
# Specification vocabulary for fits of galsim models
-/

namespace Ngmix.Spec

open Ngmix

noncomputable section

/-- `gal` is the galaxy that the parameters stand for in band `b`: center, shape and half light radius first, then
`nu` or `beta` if the profile has one, then a flux for each band. -/
inductive Galaxy (G : GSLib) : GSKind → List ℝ → ℕ → G.Obj → Prop
  | simple (name : String) (c1 c2 g1 g2 r50 F : ℝ) (fluxes : List ℝ) (b : ℕ) (o1 o2 gal : G.Obj)
      (hF : fluxes[b]? = some F) (hr : 0.0001 ≤ r50) (h1 : G.round (.simple name) none r50 F = .ok o1)
      (h2 : G.shear o1 g1 g2 = .ok o2) (h3 : G.shift o2 c1 c2 = .ok gal) :
      Galaxy G (.simple name) (c1 :: c2 :: g1 :: g2 :: r50 :: fluxes) b gal
  | spergel (c1 c2 g1 g2 r50 nu F : ℝ) (fluxes : List ℝ) (b : ℕ) (o1 o2 gal : G.Obj)
      (hF : fluxes[b]? = some F) (h1 : G.round .spergel (some nu) r50 F = .ok o1)
      (h2 : G.shear o1 g1 g2 = .ok o2) (h3 : G.shift o2 c1 c2 = .ok gal) :
      Galaxy G .spergel (c1 :: c2 :: g1 :: g2 :: r50 :: nu :: fluxes) b gal
  | moffat (c1 c2 g1 g2 r50 beta F : ℝ) (fluxes : List ℝ) (b : ℕ) (o1 o2 gal : G.Obj)
      (hF : fluxes[b]? = some F) (h1 : G.round .moffat (some beta) r50 F = .ok o1)
      (h2 : G.shear o1 g1 g2 = .ok o2) (h3 : G.shift o2 c1 c2 = .ok gal) :
      Galaxy G .moffat (c1 :: c2 :: g1 :: g2 :: r50 :: beta :: fluxes) b gal

/-- Number of parameters besides the fluxes: center, shape, half light radius, and `nu` or `beta`. -/
def leadPars : GSKind → ℕ
  | .simple _ => 5
  | .spergel => 6
  | .moffat => 6

/-- The class of joint prior for the parameters of a profile. -/
def priorFor : GSKind → JClass
  | .simple _ => .simple
  | .spergel => .spergel
  | .moffat => .spergel

/-- GalSim raises nothing but its own errors, which are `RuntimeError`s, and `ValueError` for a shear that is not one. -/
structure GalsimErrs (G : GSLib) : Prop where
  round : ∀ k x r F e, G.round k x r F = .error e → e = .runtime
  shear : ∀ o g1 g2 e, G.shear o g1 g2 = .error e → e = .value ∨ e = .runtime
  shift : ∀ o a b e, G.shift o a b = .error e → e = .runtime
  draw : ∀ o g e, G.drawK o g = .error e → e = .runtime

/-- `m` is the model image of the observation `k` of band `b`: the galaxy, times the psf. -/
def ModelImage (G : GSLib) (kind : GSKind) (pars : List ℝ) (b : ℕ) (k : KObs) (m : List ℂ) : Prop :=
  ∃ gal d, Galaxy G kind pars b gal ∧ G.drawK gal k.kimage.grid = .ok d ∧
    (k.psf = none → m = List.ofFn d) ∧
    ∀ p, k.psf = some p → m = ((List.ofFn d).zip p.kimage.data).map fun x => x.1 * x.2

/-- The model images of all the observations, from band `b` on. -/
def ModelImages (G : GSLib) (kind : GSKind) (pars : List ℝ) : ℕ → List (List KObs) → List (List (List ℂ)) → Prop
  | _, [], ms => ms = []
  | b, ks :: rest, ms => ∃ m ms', ms = m :: ms' ∧ List.Forall₂ (ModelImage G kind pars b) ks m ∧
      ModelImages G kind pars (b + 1) rest ms'

/-- The inverse of the error: zero for a weight that is not positive. -/
def invErr (w : ℝ) : ℝ := open Classical in if 0 < w then Real.sqrt w else 0

/-- The weighted residuals of an observation: first the real parts, then the imaginary parts. -/
def kResid (m : List ℂ) (k : KObs) : List ℝ :=
  ((m.zip (k.kimage.data.zip k.weight.data)).map fun x => (x.1.re - x.2.1.re) * invErr x.2.2) ++
  (m.zip (k.kimage.data.zip k.weight.data)).map fun x => (x.1.im - x.2.1.im) * invErr x.2.2

/-- The residuals of all the observations, in order. -/
def kResids (ms : List (List ℂ)) (ks : List KObs) : List ℝ := (ms.zip ks).flatMap fun x => kResid x.1 x.2

/-- The arrays have the sizes that their shapes say, and those of weight and psf are those of the image. -/
structure KSized (k : KObs) : Prop where
  image : k.kimage.data.length = k.kimage.grid.size
  wshape : k.weight.nrow = k.kimage.grid.nrow ∧ k.weight.ncol = k.kimage.grid.ncol
  weight : k.weight.data.length = k.kimage.grid.size
  psf : ∀ p, k.psf = some p → p.kimage.grid.nrow = k.kimage.grid.nrow ∧ p.kimage.grid.ncol = k.kimage.grid.ncol ∧
    p.kimage.data.length = k.kimage.grid.size

/-- No two of the observations hold the same metadata dictionary. -/
def OwnMeta (kobs : List (List KObs)) : Prop := (kobs.flatten.map KObs.meta_).Nodup

/-- Weighted power of a model image. -/
def kPower (m : List ℂ) (k : KObs) : ℝ :=
  ((m.zip k.weight.data).map fun x => x.2 * (x.1.re ^ 2 + x.1.im ^ 2)).sum

end

end Ngmix.Spec
