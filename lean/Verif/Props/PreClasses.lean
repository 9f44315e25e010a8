import Verif.Model.PreClasses
import Verif.Props.PrePSFRun

/-! C73: the classes of pre-psf moments; the two forms of the phase. -/

namespace Ngmix.Props

open Ngmix Ngmix.Spec

/-- C73.  `KSigmaMom` and `PGaussMom` never raise; they are `PrePSFMom` with their kernel, and measure the same. -/
theorem C73_classes (fwhm : ℝ) (pf ap fs : Option ℝ) :
    newKSigmaMom fwhm pf ap fs = .ok ⟨fwhm, true, pf.getD 4, ap.getD 1.5, fs.getD 0⟩ ∧
    newPGaussMom fwhm pf ap fs = .ok ⟨fwhm, false, pf.getD 4, ap.getD 1.5, fs.getD 0⟩ ∧
    newPGaussMom fwhm pf ap fs = newPreCfg fwhm "gauss" (pf.getD 4) (ap.getD 1.5) (fs.getD 0) ∧
    newKSigmaMom fwhm pf ap fs ≠ newPGaussMom fwhm pf ap fs := by
  have h1 := (C73_kernel_names fwhm "ksigma" (pf.getD 4) (ap.getD 1.5) (fs.getD 0)).1 rfl
  have h2 := (C73_kernel_names fwhm "pgauss" (pf.getD 4) (ap.getD 1.5) (fs.getD 0)).2.1 (.inr rfl)
  have h3 := (C73_kernel_names fwhm "gauss" (pf.getD 4) (ap.getD 1.5) (fs.getD 0)).2.1 (.inl rfl)
  refine ⟨h1, h2, h2.trans h3.symm, ?_⟩
  unfold newKSigmaMom newPGaussMom
  rw [h1, h2]
  simp

/-- C73.  Both forms of the phase are `exp(2 pi i (f_row row + f_col col))`, of modulus one, with and without mask. -/
theorem C73_phase (row col : ℝ) (n : ℕ) (msk : Option (ℕ → ℕ → Bool)) :
    cenPhases row col n msk = cenPhasesOrig row col n msk ∧
    cenPhases row col n msk = ((List.range n).flatMap fun r => (List.range n).map fun c => (r, c)).filterMap fun x =>
      if msk = none ∨ (∃ m, msk = some m ∧ m x.1 x.2 = true) then
        some (Complex.exp (2 * Real.pi * Complex.I * (fftfreq n x.1 * row + fftfreq n x.2 * col : ℝ))) else none := by
  have hexp : ∀ kr kc, cenPhase n row col kr kc =
      Complex.exp (2 * Real.pi * Complex.I * (fftfreq n kr * row + fftfreq n kc * col : ℝ)) := by
    intro kr kc
    rw [cenPhase_exp]
    congr 1
    push_cast; ring
  refine ⟨List.map_congr_left fun x _ => ?_, ?_⟩
  · rw [cenPhase_exp]
    unfold cenPhaseOrig
    simp only
    rw [show (2.0 : ℝ) = 2 by norm_num, mul_comm Complex.I, Complex.ofReal_cos, Complex.ofReal_sin, ← Complex.exp_mul_I]
    congr 2
    push_cast; ring
  · unfold cenPhases maskedModes
    rw [← List.filterMap_eq_map, ← List.filterMap_eq_filter, List.filterMap_filterMap]
    congr 1
    funext x
    cases msk with
    | none => simp [Option.guard, hexp]
    | some m => cases h : m x.1 x.2 <;> simp [Option.guard, h, hexp]

/-- A mask that keeps one mode: the list has one entry. -/
example (row col : ℝ) : cenPhases row col 2 (some fun r c => r == 1 && c == 0) = [cenPhase 2 row col 1 0] := by
  simp [cenPhases, maskedModes, List.range, List.range.loop]

end Ngmix.Props
