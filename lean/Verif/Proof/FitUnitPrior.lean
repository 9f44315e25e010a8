import Verif.Proof.FitUnit

/-!
# Flux priors in another unit of brightness (for C98)
-/

namespace Ngmix.Props

open Ngmix Ngmix.Spec

noncomputable section

theorem unit_fldiv {k : ℝ} (hk : 0 < k) (x y : ℝ) : Fl.fin (k * x) / Fl.fin (k * y) = Fl.fin x / Fl.fin y := by
  by_cases hy : y = 0
  · subst hy
    rw [mul_zero, Fl.fin_div_zero, Fl.fin_div_zero]
    unfold Fl.infOf
    by_cases h1 : x = 0
    · simp [h1]
    · have : k * x ≠ 0 := mul_ne_zero hk.ne' h1
      by_cases h2 : 0 < x
      · have : 0 < k * x := mul_pos hk h2
        simp [*]
      · have : ¬ 0 < k * x := by rw [mul_pos_iff_of_pos_left hk]; exact h2
        simp [*]
  · rw [Fl.fin_div _ _ hy, Fl.fin_div _ _ (mul_ne_zero hk.ne' hy), mul_div_mul_left _ _ hk.ne']

theorem unit_erfLnprob {k : ℝ} (hk : 0 < k) (a wa b wb x : ℝ) :
    Prior1.erfLnprob (k * a) (k * wa) (k * b) (k * wb) (k * x) = Prior1.erfLnprob a wa b wb x := by
  have h : Prior1.erfProb (k * a) (k * wa) (k * b) (k * wb) (k * x) = Prior1.erfProb a wa b wb x := by
    unfold Prior1.erfProb
    rw [← mul_sub, ← mul_sub, unit_fldiv hk, unit_fldiv hk]
  unfold Prior1.erfLnprob
  rw [h]

theorem unit_gauss {k : ℝ} (hk : 0 < k) (d s c : ℝ) :
    c * (k * d) * (k * d) * (1 / (k * s) ^ 2) = c * d * d * (1 / s ^ 2) := by
  by_cases hs : s = 0
  · simp [hs]
  · field_simp

theorem unit_res {k : ℝ} (hk : 0 < k) (d s : ℝ) : k * d * (1 / (k * s)) = d * (1 / s) := by
  by_cases hs : s = 0
  · simp [hs]
  · field_simp

theorem unit_range {k : ℝ} (hk : 0 < k) (a b x : ℝ) : (k * x < k * a ∨ k * x > k * b) ↔ (x < a ∨ x > b) := by
  rw [gt_iff_lt, gt_iff_lt, mul_lt_mul_iff_right₀ hk, mul_lt_mul_iff_right₀ hk]

theorem unit_lognormal {k : ℝ} (hk : 0 < k) {m : ℝ} (hm : 0 < m) (s : ℝ) (sh : Option ℝ) (x : ℝ) :
    Prior1.lognormalLnprob (k * m) (k * s) (sh.map fun t => k * t) (k * x) = Prior1.lognormalLnprob m s sh x := by
  have hv : Prior1.lnLogvar (k * m) (k * s) = Prior1.lnLogvar m s := by
    unfold Prior1.lnLogvar
    congr 2
    field_simp
  have hq : 1 + (k * s) ^ 2 / (k * m) ^ 2 = 1 + s ^ 2 / m ^ 2 := by field_simp
  have hmean : Prior1.lnLogmean (k * m) (k * s) = Real.log k + Prior1.lnLogmean m s := by
    unfold Prior1.lnLogmean
    rw [hq, Real.log_mul hk.ne' hm.ne']
    ring
  have hiv : Prior1.lnLogivar (k * m) (k * s) = Prior1.lnLogivar m s := by
    unfold Prior1.lnLogivar
    rw [hv]
  have hmode : Prior1.lnLogMode (k * m) (k * s) = Real.log k + Prior1.lnLogMode m s := by
    unfold Prior1.lnLogMode
    rw [hv, hmean]
    ring
  have hcore : ∀ y : ℝ, (Prior1.lognormalLnprob (k * m) (k * s) none (k * y)) = Prior1.lognormalLnprob m s none y := by
    intro y
    unfold Prior1.lognormalLnprob
    dsimp only
    by_cases hy : y ≤ 0
    · rw [if_pos hy, if_pos (mul_nonpos_of_nonneg_of_nonpos hk.le hy)]
    · have hy' : 0 < y := not_le.mp hy
      rw [if_neg hy, if_neg (not_le.mpr (mul_pos hk hy')), hiv, hmean, Real.log_mul hk.ne' hy'.ne']
      congr 1
      unfold Prior1.lnProbMax
      dsimp only
      rw [hiv, hmode, hmean, add_sub_add_left_eq_sub, add_sub_add_left_eq_sub]
      generalize Prior1.lnLogivar m s * Fl.fin ((Real.log y - Prior1.lnLogmean m s) ^ 2) = A
      generalize Prior1.lnLogivar m s * Fl.fin ((Prior1.lnLogMode m s - Prior1.lnLogmean m s) ^ 2) = B
      have key : ∀ A B : Fl, ∀ u v w : ℝ, A - Fl.fin (w + u) - (B - Fl.fin (w + v)) = A - Fl.fin u - (B - Fl.fin v) := by
        intro A B u v w
        cases A <;> cases B <;> first
          | rfl
          | (simp only [Fl.fin_sub]; congr 1; ring)
      exact key _ _ _ _ _
  cases sh with
  | none => exact hcore x
  | some t =>
    have := hcore (x - t)
    rw [mul_sub] at this
    exact this

theorem unit_prior1_lnprob {k : ℝ} (hk : 0 < k) (p : Prior1) (hp : MeanPositive p) (x : ℝ) :
    (fluxPriorInUnit k p).lnprob (k * x) = p.lnprob x := by
  cases p with
  | flat a b =>
    simp only [fluxPriorInUnit, Prior1.lnprob, unit_range hk]
  | erf2 a wa b wb => simp only [fluxPriorInUnit, Prior1.lnprob, unit_erfLnprob hk]
  | normal m s b => simp only [fluxPriorInUnit, Prior1.lnprob, ← mul_sub, unit_gauss hk]
  | lmBounds a b => rfl
  | bounded a b => rfl
  | lognormal m s sh => exact unit_lognormal hk hp s sh x
  | sinh m s => rfl
  | trunc m s a b => simp only [fluxPriorInUnit, Prior1.lnprob, unit_range hk, ← mul_sub, unit_gauss hk]

theorem unit_prior1_fdiff {k : ℝ} (hk : 0 < k) (p : Prior1) (hp : MeanPositive p) (x : ℝ) :
    (fluxPriorInUnit k p).fdiff (k * x) = p.fdiff x := by
  cases p with
  | flat a b =>
    simp only [fluxPriorInUnit, Prior1.fdiff, unit_range hk]
  | erf2 a wa b wb => simp only [fluxPriorInUnit, Prior1.fdiff, unit_erfLnprob hk]
  | normal m s b => simp only [fluxPriorInUnit, Prior1.fdiff, ← mul_sub, unit_res hk]
  | lmBounds a b => simp only [fluxPriorInUnit, Prior1.fdiff, zero_mul]
  | bounded a b => rfl
  | lognormal m s sh =>
    simp only [fluxPriorInUnit, Prior1.fdiff]
    rw [unit_lognormal hk hp s sh x]
  | sinh m s => simp only [fluxPriorInUnit, Prior1.fdiff, ← mul_sub, unit_fldiv hk]
  | trunc m s a b => simp only [fluxPriorInUnit, Prior1.fdiff, unit_range hk, ← mul_sub, unit_res hk]

theorem unit_get (kind : FMKind) (k : ℕ → ℝ) (pars : List ℝ) (i : ℕ) (hi : i < notFluxes kind) :
    (inUnits kind k pars)[i]? = pars[i]? := by
  unfold inUnits
  by_cases h : i < pars.length
  · rw [List.getElem?_append_left (by rw [List.length_take]; omega), List.getElem?_take_of_lt hi]
  · have h1 : (pars.take (notFluxes kind)).length = pars.length := by rw [List.length_take]; omega
    have h2 : pars.drop (notFluxes kind) = [] := List.drop_eq_nil_of_le (by omega)
    rw [h2, List.getElem?_append_right (by omega), List.getElem?_eq_none (l := pars) (by omega)]
    cases kind <;> simp

theorem unit_getF (name : String) (k : ℕ → ℝ) (pars : List ℝ) (b : ℕ) :
    (inUnits (.std name) k pars)[notFluxes (.std name) + b]? =
      (pars[notFluxes (.std name) + b]?).map fun F => k b * F := by
  unfold inUnits
  generalize notFluxes (.std name) = n
  by_cases h : n ≤ pars.length
  · have h1 : (pars.take n).length = n := by rw [List.length_take]; omega
    rw [List.getElem?_append_right (by omega), h1, Nat.add_sub_cancel_left]
    simp [List.getElem?_mapIdx]
  · have h2 : pars.drop n = [] := List.drop_eq_nil_of_le (by omega)
    rw [h2, List.getElem?_eq_none (l := pars) (by omega), List.getElem?_eq_none (by
      simp only [List.mapIdx_nil, List.append_nil, List.length_take]; omega)]
    rfl

theorem unit_getC (n : ℕ) (k : ℕ → ℝ) (pars : List ℝ) (b : ℕ) :
    (inUnits (.coellip n) k pars)[4 + n + b]? = (pars[4 + n + b]?).map fun F => k 0 * F := by
  unfold inUnits
  have hn : notFluxes (.coellip n) = 4 + n := rfl
  rw [hn]
  generalize 4 + n = n
  by_cases h : n ≤ pars.length
  · have h1 : (pars.take n).length = n := by rw [List.length_take]; omega
    rw [List.getElem?_append_right (by omega), h1, Nat.add_sub_cancel_left]
    simp
  · have h2 : pars.drop n = [] := List.drop_eq_nil_of_le (by omega)
    rw [h2, List.getElem?_eq_none (l := pars) (by omega), List.getElem?_eq_none (by
      simp only [List.map_nil, List.append_nil, List.length_take]; omega)]
    rfl

theorem unit_at1 (kind : FMKind) (k : ℕ → ℝ) (pars : List ℝ) (i : ℕ) (hi : i < notFluxes kind)
    (f : ℝ → Except PyErr Fl) : JointPrior.at1 f (inUnits kind k pars) i = JointPrior.at1 f pars i := by
  unfold JointPrior.at1 JointPrior.parAt
  rw [unit_get kind k pars i hi]

theorem unit_at2 (kind : FMKind) (k : ℕ → ℝ) (pars : List ℝ) (i j : ℕ) (hi : i < notFluxes kind)
    (hj : j < notFluxes kind) (f : ℝ → ℝ → Except PyErr Fl) :
    JointPrior.at2 f (inUnits kind k pars) i j = JointPrior.at2 f pars i j := by
  unfold JointPrior.at2 JointPrior.parAt
  rw [unit_get kind k pars i hi, unit_get kind k pars j hj]

theorem notFluxes_ge (kind : FMKind) : 4 ≤ notFluxes kind := by
  cases kind with
  | std name =>
    simp only [notFluxes]
    split_ifs <;> omega
  | coellip n =>
    simp only [notFluxes]
    omega

/-- A method of the flux prior whose value does not depend on the unit. -/
def UnitFree (m : Prior1 → ℝ → Except PyErr Fl) : Prop :=
  ∀ k : ℝ, 0 < k → ∀ p, MeanPositive p → ∀ x, m (fluxPriorInUnit k p) (k * x) = m p x

theorem unit_atF {m : Prior1 → ℝ → Except PyErr Fl} (hm : UnitFree m) (name : String) (k : ℕ → ℝ) (hk : ∀ b, 0 < k b)
    (pars : List ℝ) (b : ℕ) (F : Prior1) (hF : MeanPositive F) :
    JointPrior.at1 (m (fluxPriorInUnit (k b) F)) (inUnits (.std name) k pars) (notFluxes (.std name) + b) =
      JointPrior.at1 (m F) pars (notFluxes (.std name) + b) := by
  unfold JointPrior.at1 JointPrior.parAt
  rw [unit_getF]
  cases pars[notFluxes (.std name) + b]? with
  | none => rfl
  | some x => exact hm _ (hk b) F hF x

theorem unit_atFs {m : Prior1 → ℝ → Except PyErr Fl} (hm : UnitFree m) (name : String) (k : ℕ → ℝ) (hk : ∀ b, 0 < k b)
    (pars : List ℝ) (fs : List Prior1) (hF : ∀ F ∈ fs, MeanPositive F) :
    ((fs.mapIdx fun b F => fluxPriorInUnit (k b) F).zipIdx.map fun F =>
      JointPrior.at1 (m F.1) (inUnits (.std name) k pars) (notFluxes (.std name) + F.2)) =
    fs.zipIdx.map fun F => JointPrior.at1 (m F.1) pars (notFluxes (.std name) + F.2) := by
  apply List.ext_getElem
  · simp
  · intro i h1 h2
    simp only [List.getElem_map, List.getElem_zipIdx, List.getElem_mapIdx, Nat.zero_add]
    exact unit_atF hm name k hk pars i _ (hF _ (List.getElem_mem _))

theorem unit_oneD {m : Prior1 → ℝ → Except PyErr Fl} (hm : UnitFree m) (kind : FMKind) (k : ℕ → ℝ) (hk : ∀ b, 0 < k b)
    (p : JointPrior) (hc : ClassFor kind p.cls) (hF : ∀ F ∈ p.fs, MeanPositive F) (pars : List ℝ) :
    JointPrior.oneDTerms m (priorInUnits k p) (inUnits kind k pars) = JointPrior.oneDTerms m p pars := by
  obtain ⟨cls, cen, g, mids, fs⟩ := p
  unfold priorInUnits
  dsimp only at hc hF ⊢
  cases kind with
  | std name =>
    have hfs := unit_atFs hm name k hk pars fs hF
    rcases hc with ⟨rfl, rfl⟩ | ⟨rfl, rfl⟩ | ⟨hn, rfl⟩
    · have hN : notFluxes (.std "bd") = 7 := by decide
      rw [hN] at hfs
      match mids with
      | [] => rfl
      | [a] => rfl
      | [a, b] => rfl
      | [a, b, c] =>
        simp only [JointPrior.oneDTerms]
        rw [hfs, unit_at1 _ k pars 4 (by rw [hN]; omega), unit_at1 _ k pars 5 (by rw [hN]; omega),
          unit_at1 _ k pars 6 (by rw [hN]; omega)]
      | _ :: _ :: _ :: _ :: _ => rfl
    · have hN : notFluxes (.std "bdf") = 6 := by decide
      rw [hN] at hfs
      match mids with
      | [] => rfl
      | [a] => rfl
      | [a, b] =>
        simp only [JointPrior.oneDTerms]
        rw [hfs, unit_at1 _ k pars 4 (by rw [hN]; omega), unit_at1 _ k pars 5 (by rw [hN]; omega)]
      | _ :: _ :: _ :: _ => rfl
    · have hN : notFluxes (.std name) = 5 := by
        simp only [List.mem_cons, List.not_mem_nil, or_false] at hn
        rcases hn with rfl | rfl | rfl | rfl <;> decide
      rw [hN] at hfs
      match mids with
      | [] => rfl
      | [a] =>
        simp only [JointPrior.oneDTerms]
        rw [hfs, unit_at1 _ k pars 4 (by rw [hN]; omega)]
      | _ :: _ :: _ => rfl
  | coellip n =>
    have hc' : cls = .coellip n := hc
    subst hc'
    match mids, fs with
    | [], _ => cases fs <;> rfl
    | [T], [] => rfl
    | [T], F :: fs =>
      simp only [List.mapIdx_cons, JointPrior.oneDTerms]
      congr 1
      · apply List.map_congr_left
        intro i hi
        rw [List.mem_range] at hi
        exact unit_at1 _ k pars (4 + i) (by simp only [notFluxes]; omega) _
      · apply List.map_congr_left
        intro i hi
        unfold JointPrior.at1 JointPrior.parAt
        rw [unit_getC]
        cases pars[4 + n + i]? with
        | none => rfl
        | some x => exact hm _ (hk 0) F (hF F (by simp)) x
    | _ :: _ :: _, _ => cases fs <;> rfl

theorem unit_joint (kind : FMKind) (k : ℕ → ℝ) (hk : ∀ b, 0 < k b) (p : JointPrior) (hc : ClassFor kind p.cls)
    (hF : ∀ F ∈ p.fs, MeanPositive F) (pars : List ℝ) :
    (priorInUnits k p).lnprob (inUnits kind k pars) = p.lnprob pars ∧
    ∀ fdiff, (priorInUnits k p).fillFdiff (inUnits kind k pars) fdiff = p.fillFdiff pars fdiff := by
  have h4 := notFluxes_ge kind
  have h1 := unit_oneD (m := Prior1.lnprob) (fun k hk p hp x => unit_prior1_lnprob hk p hp x) kind k hk p hc hF pars
  have h2 := unit_oneD (m := Prior1.fdiff) (fun k hk p hp x => unit_prior1_fdiff hk p hp x) kind k hk p hc hF pars
  have hnp : (priorInUnits k p).npars = p.npars := by
    unfold JointPrior.npars priorInUnits
    simp
  have hl := inUnits_length kind k pars
  have hln : JointPrior.lnTerms (priorInUnits k p) (inUnits kind k pars) = JointPrior.lnTerms p pars := by
    unfold JointPrior.lnTerms
    rw [h1]
    simp only [unit_at2 kind k pars 0 1 (by omega) (by omega), unit_at2 kind k pars 2 3 (by omega) (by omega)]
    rfl
  have hfd : JointPrior.fdTerms (priorInUnits k p) (inUnits kind k pars) = JointPrior.fdTerms p pars := by
    unfold JointPrior.fdTerms
    rw [h2]
    simp only [unit_at2 kind k pars 0 1 (by omega) (by omega), unit_at2 kind k pars 2 3 (by omega) (by omega)]
    rfl
  constructor
  · unfold JointPrior.lnprob
    rw [h1, hnp, hl]
    simp only [unit_at2 kind k pars 0 1 (by omega) (by omega), unit_at2 kind k pars 2 3 (by omega) (by omega)]
    rfl
  · intro fdiff
    unfold JointPrior.fillFdiff
    rw [hln, hfd, hnp, hl]
    rfl

end

end Ngmix.Props
