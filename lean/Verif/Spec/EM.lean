import Verif.Model.EM
import Verif.Spec.GMix

/-!
# Specification: the EM update of a gaussian mixture plus a constant sky

Written from the textbook description: a pixel's value is shared among the components in proportion to their
predicted values there; the new flux, centre and covariance of a component are the sum, mean and covariance of
its share.
-/

namespace Ngmix.Spec

open Ngmix

noncomputable section

/-- Value predicted by one gaussian, or several, in a pixel. -/
def predicted (gs : List Gauss) (px : Pixel) : ℝ :=
  (gs.map fun g => gaussEvalFast g px.v px.u px.area).sum

/-- The convolved gaussians belonging to the components: component `i` has the `i`-th run of `m`. -/
def blocks (m : ℕ) : ℕ → List Gauss → List (List Gauss)
  | 0, _ => []
  | n + 1, conv => conv.take m :: blocks m n (conv.drop m)

/-- Share of one pixel's value that goes to the gaussians `blk` of the mixture `conv`. -/
def share (conv : List Gauss) (sky : ℝ) (blk : List Gauss) (px : Pixel) : ℝ :=
  px.val * predicted blk px / (predicted conv px + sky)

/-- Shared second moment: `f` of the offset from each gaussian's centre, weighted by its own share. -/
def shareMoment (f : ℝ → ℝ → ℝ) (conv : List Gauss) (sky : ℝ) (blk : List Gauss) (px : Pixel) : ℝ :=
  (blk.map fun g => f (px.v - g.row) (px.u - g.col) * share conv sky [g] px).sum

/-- A covariance with the psf removed is kept if it can be: both sizes nonnegative and determinant not below
`1e-200`; otherwise it is replaced by a round one of the same total size, or of size `2e-4`. -/
def Regular (a b c a' b' c' : ℝ) : Prop :=
  if a < 0 ∨ c < 0 then a' = 1.0e-4 ∧ b' = 0 ∧ c' = 1.0e-4
  else if a * c - b ^ 2 < 1e-200 then a' = (a + c) / 2 ∧ b' = 0 ∧ c' = (a + c) / 2
  else a' = a ∧ b' = b ∧ c' = c

/-- A point of the iteration. -/
structure EMPoint where
  gmix : List Gauss
  conv : List Gauss
  pixels : List Pixel
  sky : ℝ

/-- The pixels an iteration works on: those with a positive weight as they were, the masked ones filled with
the current prediction (when there are any). -/
def filled (fill : Bool) (a : EMPoint) : List Pixel :=
  open Classical in
  a.pixels.map fun px =>
    if fill = true ∧ px.ierr ≤ 0 then { px with val := a.sky + predicted a.conv px } else px

/-- Does this kind of fit move the centres, or change the covariances? -/
def movesCen : EMKind → Bool
  | .free => true
  | .fixcov => true
  | _ => false
def movesCov : EMKind → Bool
  | .free => true
  | .fixcen => true
  | _ => false

/-- Update of component `g`, whose convolved gaussians are `blk`, with total psf moments `q`. -/
def ComponentUpdate (kind : EMKind) (psf : List Gauss) (a : EMPoint) (pxs : List Pixel) (g : Gauss)
    (blk : List Gauss) (g' : Gauss) : Prop :=
  let tot : (Pixel → ℝ) → ℝ := fun f => (pxs.map f).sum
  g'.p = tot (share a.conv a.sky blk) ∧
  (kind ≠ .fluxonly → g'.p ≠ 0) ∧
  (if movesCen kind then
      g'.row * g'.p = tot (fun px => px.v * share a.conv a.sky blk px) ∧
      g'.col * g'.p = tot (fun px => px.u * share a.conv a.sky blk px)
    else g'.row = g.row ∧ g'.col = g.col) ∧
  (if movesCov kind then
      ∃ qrr qrc qcc, SecondMoments psf qrr qrc qcc ∧
        Regular (tot (shareMoment (fun dv _ => dv ^ 2) a.conv a.sky blk) / g'.p - qrr)
          (tot (shareMoment (fun dv du => dv * du) a.conv a.sky blk) / g'.p - qrc)
          (tot (shareMoment (fun _ du => du ^ 2) a.conv a.sky blk) / g'.p - qcc)
          g'.irr g'.irc g'.icc
    else g'.irr = g.irr ∧ g'.irc = g.irc ∧ g'.icc = g.icc)

/-- The mixture `conv` with current norms is the convolution of `gmix` with `psf`, and can be evaluated. -/
def IsConvolved (gmix psf conv : List Gauss) : Prop :=
  ∃ rq cq, Centroid psf rq cq ∧
    List.Forall₂ (fun (x : Gauss × Gauss) g => g.irr = x.1.irr + x.2.irr ∧ g.irc = x.1.irc + x.2.irc ∧
        g.icc = x.1.icc + x.2.icc ∧ g.row = x.1.row + (x.2.row - rq) ∧ g.col = x.1.col + (x.2.col - cq) ∧
        g.p * Flux psf = x.1.p * x.2.p ∧ DetCurrent g ∧ NormsCurrent g ∧
        1e-200 ≤ g.irr * g.icc - g.irc * g.irc ∧ 1e-200 < g.irr + g.icc)
      (gmix.flatMap fun o => psf.map fun q => (o, q)) conv

/-- One EM update. -/
def EMUpdate (kind : EMKind) (vary fill : Bool) (psf : List Gauss) (a b : EMPoint) : Prop :=
  b.pixels = filled fill a ∧
  (∀ px ∈ b.pixels, predicted a.conv px + a.sky ≠ 0) ∧
  List.Forall₂ (fun (x : Gauss × List Gauss) g' => ComponentUpdate kind psf a b.pixels x.1 x.2 g')
    (a.gmix.zip (blocks psf.length a.gmix.length a.conv)) b.gmix ∧
  IsConvolved b.gmix psf b.conv ∧
  (if vary then b.pixels ≠ [] ∧
      b.sky * b.pixels.length =
        (b.pixels.map fun px => px.val * a.sky / (predicted a.conv px + a.sky)).sum
    else b.sky = a.sky)

/-- `n` updates lead from one point to the other. -/
inductive EMChain (kind : EMKind) (vary fill : Bool) (psf : List Gauss) : ℕ → EMPoint → EMPoint → Prop
  | one (a b : EMPoint) : EMUpdate kind vary fill psf a b → EMChain kind vary fill psf 1 a b
  | snoc (n : ℕ) (a b c : EMPoint) : EMChain kind vary fill psf n a b → EMUpdate kind vary fill psf b c →
      EMChain kind vary fill psf (n + 1) a c

end

end Ngmix.Spec
