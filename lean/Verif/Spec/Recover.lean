import Verif.Spec.FitModel
import Verif.Spec.PSFFlux

/-!
# Specification of images without noise (C106)
-/

namespace Ngmix.Spec

open Ngmix

noncomputable section

/-- Every pixel has the value of the mixture its image is compared with, with the fast exponential. -/
def NoiseFree (fm : FitModel) (D : List (List (List Gauss))) : Prop :=
  ∀ x ∈ pairs fm D, ∀ px ∈ x.1.pixels, px.val = gmixEvalFast x.2 px.v px.u px.area

/-- Every pixel has the value of the mixture its image is compared with, as `make_image` draws it, with the exact
exponential. -/
def DrawnExactly (fm : FitModel) (D : List (List (List Gauss))) : Prop :=
  ∀ x ∈ pairs fm D, ∀ px ∈ x.1.pixels, gmixEval x.2 px.v px.u px.area = some px.val

/-- The sum of the central brightnesses of the gaussians of a mixture, taken positive. -/
def centralSum (gm : List Gauss) : ℝ :=
  (gm.map fun g => |g.p| / (2 * Real.pi * Real.sqrt (g.irr * g.icc - g.irc * g.irc))).sum

/-- Not above a number: finite and not larger, or minus infinity. -/
def NotAbove (x : Fl) (b : ℝ) : Prop := x = .ninf ∨ ∃ a ≤ b, x = .fin a

/-- The images of the observations are the templates at flux `F`. -/
def TemplateImages (F : ℝ) (obs : List PFObs) (ms : List (List ℝ)) : Prop :=
  List.Forall₂ (fun (o : PFObs) (m : List ℝ) => o.image = m.map fun x => F * x) obs ms

end

end Ngmix.Spec
