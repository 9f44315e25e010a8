import Verif.Model.Simobs

/-! Specification vocabulary for simulated observations and MEDS readers. -/

namespace Ngmix.Spec

open Ngmix

/-- At least half of the values are at most `x` and at least half are at least `x`. -/
def Halves (l : List ℝ) (x : ℝ) : Prop :=
  open Classical in
  l.length ≤ 2 * l.countP (fun y => decide (y ≤ x)) ∧ l.length ≤ 2 * l.countP (fun y => decide (x ≤ y))

/-- The median: half way between the smallest and the largest value that halve the list. -/
def IsMedian (l : List ℝ) (m : ℝ) : Prop :=
  ∃ a ∈ l, ∃ b ∈ l, Halves l a ∧ Halves l b ∧ (∀ x ∈ l, Halves l x → a ≤ x ∧ x ≤ b) ∧ m = (a + b) / 2

/-- A pixel of an image. -/
def InImage (im : Image) (r c : ℕ) : Prop := r < im.nrow ∧ c < im.ncol

/-- Some pixel has positive weight. -/
def SomeGood (w : Image) : Prop := ∃ r c, InImage w r c ∧ 0 < w.get r c

/-- The standard deviations of the pixels with positive weight, in reading order. -/
noncomputable def pixelErrs (w : Image) : List ℝ :=
  open Classical in
  (List.range w.nrow).flatMap fun r => (List.range w.ncol).filterMap fun c =>
    if 0 < w.get r c then some (1 / Real.sqrt (w.get r c)) else none

variable {G P J E σ : Type}

/-- The noiseless image the caller asked for. -/
def Rendered (ops : SimOps G P J) (gm : Option G) (o : SimObs P J E) (convolvePsf : Bool) (im : ℕ → ℕ → ℝ) : Prop :=
  match gm with
  | none => ∀ r c, im r c = 0
  | some g =>
      if convolvePsf = true then
        ∃ p pg g', o.psf = some p ∧ ops.psfGmix p = some pg ∧ ops.convolve g pg = .ok g' ∧
          ops.makeImage g' o.image.nrow o.image.ncol o.jac = .ok im
      else ops.makeImage g o.image.nrow o.image.ncol o.jac = .ok im

/-- A run over observations in order, each simulated with the mixture paired with it, the random stream going on from
one to the next. -/
inductive SimRun (ops : SimOps G P J) (opts : SimOpts σ) (noExtra : E) :
    σ → List (GmArg G × SimObs P J E) → List (SimObs P J E) → σ → Prop
  | nil (st : σ) : SimRun ops opts noExtra st [] [] st
  | cons {st st₁ st₂ : σ} {g : GmArg G} {o o' : SimObs P J E} {l : List (GmArg G × SimObs P J E)}
      {l' : List (SimObs P J E)} :
      simulateChecked ops opts noExtra g o st = (st₁, .ok o') → SimRun ops opts noExtra st₁ l l' st₂ →
      SimRun ops opts noExtra st ((g, o) :: l) (o' :: l') st₂

end Ngmix.Spec
