import Verif.Model.PrePSF

/-! # The classes `KSigmaMom`, `PGaussMom` and the other form of the phase, `/repo/ngmix/prepsfmom.py` -/

namespace Ngmix

/-- `prepsfmom.py:237-243` `KSigmaMom.__init__`; the arguments left out are `none`. -/
noncomputable def newKSigmaMom (fwhm : ℝ) (padFactor apRad fwhmSmooth : Option ℝ) : Except PyErr PreCfg :=
  newPreCfg fwhm "ksigma" (padFactor.getD 4) (apRad.getD 1.5) (fwhmSmooth.getD 0)

/-- `prepsfmom.py:270-276` `PGaussMom.__init__`, also called `PrePSFGaussMom` (`:280`). -/
noncomputable def newPGaussMom (fwhm : ℝ) (padFactor apRad fwhmSmooth : Option ℝ) : Except PyErr PreCfg :=
  newPreCfg fwhm "pgauss" (padFactor.getD 4) (apRad.getD 1.5) (fwhmSmooth.getD 0)

/-- The modes where a mask is true, in the order of the array; all of them without a mask.  `prepsfmom.py:435-436, 465-468`. -/
def maskedModes (n : ℕ) (msk : Option (ℕ → ℕ → Bool)) : List (ℕ × ℕ) :=
  ((List.range n).flatMap fun r => (List.range n).map fun c => (r, c)).filter fun x =>
    match msk with
    | none => true
    | some m => m x.1 x.2

/-- `prepsfmom.py:426-438` `_compute_cen_phase_shift`: the array, or its entries where the mask is true. -/
noncomputable def cenPhases (row col : ℝ) (n : ℕ) (msk : Option (ℕ → ℕ → Bool)) : List ℂ :=
  (maskedModes n msk).map fun x => cenPhase n row col x.1 x.2

/-- `prepsfmom.py:454-468` `_compute_cen_phase_shift_orig`, one element. -/
noncomputable def cenPhaseOrig (n : ℕ) (row col : ℝ) (kr kc : ℕ) : ℂ :=
  let kcen := fftfreq n kr * (2.0 * Real.pi) * row + fftfreq n kc * (2.0 * Real.pi) * col
  (Real.cos kcen : ℂ) + Complex.I * (Real.sin kcen : ℂ)

/-- `prepsfmom.py:454-468` `_compute_cen_phase_shift_orig`. -/
noncomputable def cenPhasesOrig (row col : ℝ) (n : ℕ) (msk : Option (ℕ → ℕ → Bool)) : List ℂ :=
  (maskedModes n msk).map fun x => cenPhaseOrig n row col x.1 x.2

end Ngmix
