import Verif.Props.FastExp
import Verif.Props.WSums
import Verif.Props.Norms

/-!
# Concrete cases for C26 and C65

An elliptical weight away from the origin; a pixel near it, one on the radius, one of zero weight.
-/

namespace Ngmix.Props

open Ngmix Ngmix.Spec

noncomputable section

/-- An elliptical gaussian. -/
def sumsGauss : Gauss := (gauss2dSetNorm (gauss2dSet 2 1 3 4 1 5)).1

theorem sums_norm : gauss2dSetNorm (gauss2dSet 2 1 3 4 1 5) = (sumsGauss, .ok ()) ∧ NormsCurrent sumsGauss ∧
    sumsGauss.row = 1 ∧ sumsGauss.col = 3 ∧ sumsGauss.irr = 4 ∧ sumsGauss.icc = 5 ∧ sumsGauss.p = 2 := by
  have hu : Usable (gauss2dSet 2 1 3 4 1 5) := by
    constructor <;> norm_num [gauss2dSet, gmixLowDetval]
  obtain ⟨h1, h2, -, h3, -⟩ := (C20_set_norm (gauss2dSet 2 1 3 4 1 5) rfl).1 hu
  have hp : ∀ x : Gauss × Except PyErr Unit, x.2 = .ok () → x = (x.1, .ok ()) := by
    rintro ⟨a, b⟩ h; exact Prod.ext rfl h
  refine ⟨hp _ h1, h2, ?_⟩
  unfold sumsGauss gauss2dSetNorm
  rw [if_neg (by norm_num [gauss2dSet, gmixLowDetval])]
  dsimp only
  rw [if_neg (by norm_num [gauss2dSet, gmixLowDetval])]
  exact ⟨rfl, rfl, rfl, rfl, rfl⟩

theorem sums_ready : GmReach [gauss2dSet 2 1 3 4 1 5] ∧ setNormsIfNeeded [gauss2dSet 2 1 3 4 1 5] = ([sumsGauss], .ok ()) := by
  refine ⟨.start [2, 1, 3, 4, 1, 5], ?_⟩
  have h : (gauss2dSet 2 1 3 4 1 5).normSet = false := rfl
  simp only [setNormsIfNeeded, h, Bool.false_eq_true, if_false, gmixSetNorms, sums_norm.1]

/-- `C26_eval` at a pixel next to the centre. -/
example : ∃ y peak, gaussEval sumsGauss 2 4 0.5 = some y ∧ gaussEval sumsGauss 1 3 0.5 = some peak ∧
    (|gaussEvalFast sumsGauss 2 4 0.5 - y| ≤ 4e-5 * y ∨ (gaussEvalFast sumsGauss 2 4 0.5 = 0 ∧ y ≤ Real.exp (-12.5) * peak)) := by
  obtain ⟨-, h, hr, hc, h4, h5, hp⟩ := sums_norm
  have := C26_eval sumsGauss h (by rw [h4, h5]; norm_num) (by rw [hp]; norm_num) 2 4 0.5 (by norm_num)
  rwa [hr, hc] at this

/-- Pixels: next to the centre, on the radius, far away with zero weight. -/
def sumsPix (e : ℝ) : List Pixel := [⟨4, 2, 0.5, 7, e⟩, ⟨13, 1, 0.5, 9, 1⟩, ⟨3, 100, 0.5, 1, 0⟩]

theorem sums_within (e : ℝ) : within 1 3 100 (sumsPix e) = [⟨4, 2, 0.5, 7, e⟩] := by
  unfold sumsPix
  rw [within_cons, within_cons, within_cons]
  simp only [norm_offset]
  norm_num [within]

/-- `C65_sums`, both cases: one pixel is used, unless its weight is zero. -/
example (higher : Bool) :
    (∃ a, getWeightedSums [gauss2dSet 2 1 3 4 1 5] (sumsPix 2) (some 10) higher ⟨5, some ⟨1, fun _ => 1, fun _ _ => 1⟩⟩ =
      ([sumsGauss], .ok ⟨6, some a⟩)) ∧
    getWeightedSums [gauss2dSet 2 1 3 4 1 5] (sumsPix 0) (some 10) higher ⟨5, some ⟨1, fun _ => 1, fun _ _ => 1⟩⟩ =
      ([sumsGauss], .error .zeroDiv) := by
  obtain ⟨-, -, hr, hc, -⟩ := sums_norm
  obtain ⟨h1, h2⟩ := sums_ready
  have hm : RadiusSq [sumsGauss] (some 10) 100 := ⟨fun r h => by cases h; norm_num, by simp⟩
  constructor
  · obtain ⟨W, -, -, h⟩ := C65_sums _ _ sumsGauss [] h1 h2 rfl (sumsPix 2) (some 10) 100 hm higher 5 ⟨1, fun _ => 1, fun _ _ => 1⟩
    rw [hr, hc, sums_within] at h
    obtain ⟨a, ha, -⟩ := h (by simp)
    exact ⟨a, ha⟩
  · obtain ⟨W, -, h, -⟩ := C65_sums _ _ sumsGauss [] h1 h2 rfl (sumsPix 0) (some 10) 100 hm higher 5 ⟨1, fun _ => 1, fun _ _ => 1⟩
    rw [hr, hc, sums_within] at h
    exact h ⟨_, List.mem_cons_self, rfl⟩

end

end Ngmix.Props
