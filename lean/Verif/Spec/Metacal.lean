import Verif.Model.Metacal

/-!
# Specification of the metacal images, in terms of the GalSim operations
-/

namespace Ngmix.Spec

open Ngmix

noncomputable section

variable {O X : Type}

/-- `|g|`. -/
def shearSize (g1 g2 : ℝ) : ℝ := Real.sqrt (g1 ^ 2 + g2 ^ 2)

/-- The reconvolution psf made for a shear: what is dilated is grown by `1 + 2|g|`; MetacalDilatePSF also shears it
(psf terms) and convolves by the pixel. -/
def reconvPsf (mc : Mc O X) (sheared : Bool) (g1 g2 : ℝ) : Except PyErr O :=
  match mc.kind with
  | .round target =>
      if sheared then .error .assertion else target.bind fun t => mc.gs.dilate t (1 + 2 * shearSize g1 g2)
  | .dilating psfNopix pixel =>
      (mc.gs.dilate psfNopix (1 + 2 * shearSize g1 g2)).bind fun d =>
      (if sheared then mc.gs.shear d g1 g2 else .ok d).bind fun d => mc.gs.convolve d pixel

/-- A drawing error of GalSim (`RuntimeError`) is reported as `GMixRangeError`. -/
def drawn {α : Type} (x : Except PyErr α) : Except PyErr α :=
  match x with
  | .error .runtime => .error .gmixRange
  | x => x

/-- The psf image and profile for a shear, made from scratch. -/
def freshPsf (mc : Mc O X) (sheared : Bool) (g1 g2 : ℝ) : Except PyErr ((ℕ → ℕ → ℝ) × O) :=
  (reconvPsf mc sheared g1 g2).bind fun p => (drawn (mc.gs.drawPsf p)).map fun im => (im, p)

/-- The image drawn from a profile for the galaxy reconvolved by `p`. -/
def reconvolved (mc : Mc O X) (gal p : O) : Except PyErr (ℕ → ℕ → ℝ) :=
  (mc.gs.convolve gal p).bind fun o => drawn (mc.gs.drawIm o)

/-- The psf observation of a result: the input's with the new image; the classes with a round psf add their noise
image, set the weights to `1/(max/50000)²` and centre the Jacobian. -/
def newPsf (mc : Mc O X) (im : ℕ → ℕ → ℝ) (gal : Option O) : PObs O X :=
  match mc.kind, mc.psfNoise with
  | .dilating _ _, _ =>
      { mc.obs.psf with image := ⟨mc.obs.psf.image.nrow, mc.obs.psf.image.ncol, im⟩, galsim := gal }
  | .round _, none =>
      { image := ⟨mc.obs.psf.image.nrow, mc.obs.psf.image.ncol, im⟩
        weight := ⟨mc.obs.psf.weight.nrow, mc.obs.psf.weight.ncol, fun _ _ => 1 / (mc.psfMax / 50000) ^ 2⟩
        cen := (((mc.obs.psf.image.nrow : ℝ) - 1) / 2, ((mc.obs.psf.image.ncol : ℝ) - 1) / 2)
        galsim := gal
        rest := mc.obs.psf.rest }
  | .round _, some n =>
      { image := ⟨mc.obs.psf.image.nrow, mc.obs.psf.image.ncol, fun r c => im r c + n r c⟩
        weight := ⟨mc.obs.psf.weight.nrow, mc.obs.psf.weight.ncol, fun _ _ => 1 / (mc.psfMax / 50000) ^ 2⟩
        cen := (((mc.obs.psf.image.nrow : ℝ) - 1) / 2, ((mc.obs.psf.image.ncol : ℝ) - 1) / 2)
        galsim := gal
        rest := mc.obs.psf.rest }

/-- A result: the input observation with a new image and a new psf. -/
def newObs (mc : Mc O X) (im : ℕ → ℕ → ℝ) (psf : PObs O X) : MObs O X :=
  { mc.obs with image := ⟨mc.obs.image.nrow, mc.obs.image.ncol, im⟩, psf := psf, orig := none }

/-- The galaxy sheared by `g` and reconvolved by the psf made for `g`. -/
def shearedObs (mc : Mc O X) (g1 g2 : ℝ) : Except PyErr (MObs O X) :=
  (freshPsf mc false g1 g2).bind fun p =>
  (mc.gs.shear mc.imNopsf g1 g2).bind fun gal =>
  (reconvolved mc gal p.2).map fun im => newObs mc im (newPsf mc p.1 (some p.2))

/-- The unsheared galaxy reconvolved by the psf made for `g`. -/
def unshearedObs (mc : Mc O X) (g1 g2 : ℝ) : Except PyErr (MObs O X) :=
  (freshPsf mc false g1 g2).bind fun p =>
  (reconvolved mc mc.imNopsf p.2).map fun im => newObs mc im (newPsf mc p.1 (some p.2))

/-- The unsheared galaxy reconvolved by the sheared psf. -/
def psfShearedObs (mc : Mc O X) (g1 g2 : ℝ) : Except PyErr (MObs O X) :=
  (freshPsf mc true g1 g2).bind fun p =>
  (reconvolved mc mc.imNopsf p.2).map fun im => newObs mc im (newPsf mc p.1 none)

/-- What each type means. -/
def metacalObs (mc : Mc O X) (step : ℝ) (t : String) : Except PyErr (MObs O X) :=
  if t = "noshear" then unshearedObs mc step 0
  else if t = "1p" then shearedObs mc step 0
  else if t = "1m" then shearedObs mc (-step) 0
  else if t = "2p" then shearedObs mc 0 step
  else if t = "2m" then shearedObs mc 0 (-step)
  else if t = "1p_psf" then psfShearedObs mc step 0
  else if t = "1m_psf" then psfShearedObs mc (-step) 0
  else if t = "2p_psf" then psfShearedObs mc 0 step
  else if t = "2m_psf" then psfShearedObs mc 0 (-step)
  else .error .key

/-- The types a class knows; only MetacalDilatePSF knows the psf types. -/
def ValidFor : McKind O → String → Prop
  | .dilating _ _, t => t ∈ ["noshear", "1p", "1m", "2p", "2m", "1p_psf", "1m_psf", "2p_psf", "2m_psf"]
  | .round _, t => t ∈ ["noshear", "1p", "1m", "2p", "2m"]

/-- The entries a request leads to: `noshear` and `1p` come together. -/
def Wanted (l : List String) (t : String) : Prop :=
  t ∈ l ∨ (t = "noshear" ∧ "1p" ∈ l) ∨ (t = "1p" ∧ "noshear" ∈ l)

/-- Calls on a Metacal object. -/
inductive McOp
  | target (s : ShapeObj) (sheared : Bool)
  | galshear (s : ShapeObj) (unsheared : Bool)
  | psfshear (s : ShapeObj)
  | all (step : ℝ) (types : TypesArg)

/-- The state a call leaves behind, whether it raised or not. -/
def mcStep (mc : Mc O X) (c : PsfCache O) : McOp → PsfCache O
  | .target s b => (getTargetPsf mc s b c).1
  | .galshear s b => (getObsGalshear mc s b c).1
  | .psfshear s => (getObsPsfshear mc s c).1
  | .all step types => (getAll mc step types c).1

/-- State after a history of calls on a new object. -/
def mcAfter (mc : Mc O X) (h : List McOp) : PsfCache O := h.foldl (mcStep mc) fun _ => none

end

end Ngmix.Spec
