import Verif.Spec.GMixND
import Verif.Proof.ExceptLemmas
import Mathlib.MeasureTheory.Integral.Pi
import Mathlib.MeasureTheory.Measure.Lebesgue.Basic
import Mathlib.Analysis.SpecialFunctions.Gaussian.GaussianIntegral
import Mathlib.Analysis.Matrix.Order

/-!
# C58: mixture of n-dimensional gaussians
-/

namespace Ngmix.Props

open Ngmix Ngmix.Spec Matrix

noncomputable section

/-- The double loop is the quadratic form. -/
theorem ndChi2_eq {n : ℕ} (c : NDComp n) (x : Fin n → ℝ) :
    ndChi2 c x = (x - c.mean) ⬝ᵥ (c.icovar *ᵥ (x - c.mean)) := by
  have inner : ∀ (l : List (Fin n)) (f : Fin n → ℝ) (a : ℝ), l.foldl (fun acc j => acc + f j) a = a + (l.map f).sum := by
    intro l f
    induction l with
    | nil => simp
    | cons j l ih => intro a; simp only [List.foldl_cons, List.map_cons, List.sum_cons]; rw [ih]; ring
  unfold ndChi2
  simp only [inner]
  rw [show (0.0 : ℝ) = 0 by norm_num, zero_add, dotProduct, ← List.sum_ofFn, List.ofFn_eq_map]
  congr 1
  apply List.map_congr_left
  intro i _
  rw [mulVec, dotProduct, Finset.mul_sum, ← List.sum_ofFn, List.ofFn_eq_map]
  congr 1
  apply List.map_congr_left
  intro j _
  simp only [Pi.sub_apply]
  ring

theorem density_pos {n : ℕ} (μ : Fin n → ℝ) (C : Matrix (Fin n) (Fin n) ℝ) (x : Fin n → ℝ) (h : 0 < C.det) :
    0 < normalDensity μ C x := by
  unfold normalDensity
  positivity

/-- The logarithm stored for one gaussian. -/
theorem ndComp_spec {n : ℕ} (c : NDIn n) (x : Fin n → ℝ) :
    (c.covar.det = 0 → ndComp c = .error .linAlg) ∧
    (c.covar.det ≠ 0 → ∃ d, ndComp c = .ok d ∧
      ndLnp d x = if c.covar.det < 0 then .nan
        else Fl.log (.fin (c.weight * normalDensity c.mean c.covar x))) := by
  refine ⟨fun h => by unfold ndComp; rw [if_pos h], fun h => ?_⟩
  refine ⟨_, by unfold ndComp; rw [if_neg h], ?_⟩
  unfold ndLnp
  rw [ndChi2_eq]
  simp only []
  have two : (2.0 : ℝ) = 2 := by norm_num
  have one : (1.0 : ℝ) = 1 := by norm_num
  rw [two, one]
  have hP : (0 : ℝ) < (2 * Real.pi) ^ n := by positivity
  by_cases hd : c.covar.det < 0
  · rw [if_pos hd]
    have : Fl.sqrt (.fin ((2 * Real.pi) ^ n * c.covar.det)) = .nan := by
      simp [Fl.sqrt, mul_neg_of_pos_of_neg hP hd]
    rw [this]
    have e : (Fl.fin 1 / Fl.nan) * Fl.fin c.weight = .nan := rfl
    rw [e]
    rfl
  · rw [if_neg hd]
    have hpos : 0 < c.covar.det := lt_of_le_of_ne (not_lt.mp hd) (Ne.symm h)
    have hD : 0 < (2 * Real.pi) ^ n * c.covar.det := mul_pos hP hpos
    have hs : 0 < Real.sqrt ((2 * Real.pi) ^ n * c.covar.det) := Real.sqrt_pos.mpr hD
    have : Fl.sqrt (.fin ((2 * Real.pi) ^ n * c.covar.det)) =
        .fin (Real.sqrt ((2 * Real.pi) ^ n * c.covar.det)) := by
      simp [Fl.sqrt, not_lt.mpr hD.le]
    rw [this, Fl.fin_div _ _ hs.ne', Fl.fin_mul]
    unfold normalDensity
    set q := (x - c.mean) ⬝ᵥ c.covar⁻¹ *ᵥ (x - c.mean) with hq
    set s := Real.sqrt ((2 * Real.pi) ^ n * c.covar.det) with hsd
    have he : (-0.5 * q : ℝ) = -q / 2 := by ring
    rw [he]
    have hex := Real.exp_pos (-q / 2)
    have hr : 1 / s * c.weight = c.weight / s := by ring
    have hl : c.weight * (Real.exp (-q / 2) / s) = Real.exp (-q / 2) * (c.weight / s) := by ring
    rw [hr, hl]
    rcases lt_trichotomy c.weight 0 with hw | hw | hw
    · have h1 : c.weight / s < 0 := div_neg_of_neg_of_pos hw hs
      simp [Fl.log, h1, mul_neg_of_pos_of_neg hex h1]
    · rw [hw]
      simp [Fl.log]
      rfl
    · have h1 : 0 < c.weight / s := div_pos hw hs
      have h2 : 0 < Real.exp (-q / 2) * (c.weight / s) := mul_pos hex h1
      simp only [Fl.log, if_neg (not_lt.mpr h1.le), if_neg h1.ne', if_neg (not_lt.mpr h2.le), if_neg h2.ne',
        Fl.fin_add]
      rw [Real.log_mul hex.ne' h1.ne', Real.log_exp]

/-- Nonnegative number or its logarithm. -/
theorem log_nonneg_cases (a : ℝ) (h : 0 ≤ a) :
    (a = 0 ∧ Fl.log (.fin a) = .ninf) ∨ (0 < a ∧ Fl.log (.fin a) = .fin (Real.log a)) := by
  rcases h.eq_or_lt with rfl | h
  · left; simp [Fl.log]
  · right; exact ⟨h, by simp [Fl.log, not_lt.mpr h.le, h.ne']⟩

/-- The running maximum stays finite. -/
theorem ndMax_fin (as : List Fl) (hl : ∀ a ∈ as, a ≠ .pinf) : ∀ M : ℝ,
    ∃ M', as.foldl ndMax (.fin M) = .fin M' := by
  induction as with
  | nil => intro M; exact ⟨M, rfl⟩
  | cons a as ih =>
    intro M
    have ih := ih (fun b hb => hl b (List.mem_cons_of_mem _ hb))
    have ha := hl a List.mem_cons_self
    simp only [List.foldl_cons]
    unfold ndMax
    cases a with
    | fin y => split_ifs <;> exact ih _
    | nan => rw [if_neg (by simp [Fl.lt])]; exact ih M
    | ninf => rw [if_neg (by simp [Fl.lt])]; exact ih M
    | pinf => exact absurd rfl ha

/-- Log-sum-exp of the logarithms of nonnegative numbers. -/
theorem ndSum_ok (as : List ℝ) (h : ∀ a ∈ as, 0 ≤ a) (M : ℝ) : ∀ b : ℝ,
    (as.map fun a => Fl.log (.fin a)).foldl (fun acc l => acc + Fl.exp (l - .fin M)) (.fin b) =
      .fin (b + as.sum / Real.exp M) := by
  induction as with
  | nil => intro b; simp
  | cons a as ih =>
    intro b
    simp only [List.map_cons, List.foldl_cons, List.sum_cons]
    have ha : Fl.exp (Fl.log (.fin a) - .fin M) = .fin (a / Real.exp M) := by
      rcases log_nonneg_cases a (h a List.mem_cons_self) with ⟨rfl, h0⟩ | ⟨hp, h1⟩
      · rw [h0]; simp; rfl
      · rw [h1, Fl.fin_sub]
        simp only [Fl.exp]
        rw [Real.exp_sub, Real.exp_log hp]
    rw [ha, Fl.fin_add, ih (fun x hx => h x (List.mem_cons_of_mem _ hx))]
    congr 1
    ring

theorem ndSum_nan (as : List Fl) (M : ℝ) : ∀ b : Fl, (b = .nan ∨ Fl.nan ∈ as) →
    as.foldl (fun acc l => acc + Fl.exp (l - .fin M)) b = .nan := by
  induction as with
  | nil =>
    intro b hb
    rcases hb with rfl | hb
    · rfl
    · cases hb
  | cons a as ih =>
    intro b hb
    simp only [List.foldl_cons]
    apply ih
    rcases hb with rfl | hb
    · left; simp
    · rcases List.mem_cons.mp hb with rfl | hb
      · left
        have : Fl.exp (Fl.nan - .fin M) = .nan := rfl
        rw [this]; simp
      · exact .inr hb

/-- What `get_prob` makes of the logarithms it finds. -/
theorem ndGetProb_of {n : ℕ} (gm : List (NDComp n)) (x : Fin n → ℝ) (as : List ℝ) (h : ∀ a ∈ as, 0 ≤ a)
    (hg : gm.map (fun c => ndLnp c x) = as.map fun a => Fl.log (.fin a)) :
    ndGetProb gm x false = .fin as.sum ∧ ndGetProb gm x true = Fl.log (.fin as.sum) := by
  unfold ndGetProb
  rw [hg]
  simp only [Bool.false_eq_true, if_false, if_true]
  obtain ⟨M, hM⟩ := ndMax_fin (as.map fun a => Fl.log (.fin a)) (by
    intro a ha
    obtain ⟨b, hb, rfl⟩ := List.mem_map.mp ha
    rcases log_nonneg_cases b (h b hb) with ⟨-, h0⟩ | ⟨-, h1⟩
    · rw [h0]; simp
    · rw [h1]; simp) (-9.99e9)
  rw [hM, show (0.0 : ℝ) = 0 by norm_num, ndSum_ok as h M, zero_add]
  have he := Real.exp_pos M
  constructor
  · simp only [Fl.exp, Fl.fin_mul]
    rw [div_mul_cancel₀ _ he.ne']
  · have hs : 0 ≤ as.sum := List.sum_nonneg h
    rcases hs.eq_or_lt with h0 | hp
    · rw [← h0]; simp [Fl.log]; rfl
    · have h1 : 0 < as.sum / Real.exp M := div_pos hp he
      simp only [Fl.log, if_neg (not_lt.mpr h1.le), if_neg h1.ne', if_neg (not_lt.mpr hp.le), if_neg hp.ne',
        Fl.fin_add]
      rw [Real.log_div hp.ne' he.ne', Real.log_exp]
      simp

theorem list_sum_zero_iff : ∀ (l : List ℝ), (∀ a ∈ l, 0 ≤ a) → (l.sum = 0 ↔ ∀ a ∈ l, a = 0)
  | [], _ => by simp
  | a :: l, h => by
    have ih := list_sum_zero_iff l (fun b hb => h b (List.mem_cons_of_mem _ hb))
    have h1 := h a List.mem_cons_self
    have h2 : 0 ≤ l.sum := List.sum_nonneg (fun b hb => h b (List.mem_cons_of_mem _ hb))
    rw [List.sum_cons, add_eq_zero_iff_of_nonneg h1 h2, ih]
    simp

/-- `set_mixture`, component by component. -/
theorem ndSet_spec {n : ℕ} : ∀ (gm : List (NDIn n)),
    ((∃ c ∈ gm, c.covar.det = 0) → ndSetMixture gm = .error .linAlg) ∧
    ((∀ c ∈ gm, c.covar.det ≠ 0) → ∃ ds, ndSetMixture gm = .ok ds ∧
      List.Forall₂ (fun c d => ∀ x, ndLnp d x = if c.covar.det < 0 then .nan
        else Fl.log (.fin (c.weight * normalDensity c.mean c.covar x))) gm ds) := by
  intro gm
  induction gm with
  | nil =>
    refine ⟨?_, fun _ => ⟨[], rfl, .nil⟩⟩
    rintro ⟨_, h, _⟩
    cases h
  | cons c gm ih =>
    by_cases h0 : c.covar.det = 0
    · have he := (ndComp_spec c 0).1 h0
      refine ⟨fun _ => by unfold ndSetMixture; rw [he]; rfl, fun h => absurd h0 (h c List.mem_cons_self)⟩
    · obtain ⟨d, hd, -⟩ := (ndComp_spec c 0).2 h0
      have hall : ∀ x, ndLnp d x = if c.covar.det < 0 then .nan
          else Fl.log (.fin (c.weight * normalDensity c.mean c.covar x)) := by
        intro x
        obtain ⟨d', hd', h'⟩ := (ndComp_spec c x).2 h0
        rw [hd] at hd'
        simp only [Except.ok.injEq] at hd'
        rw [hd']; exact h'
      constructor
      · rintro ⟨c', hm, hz⟩
        rcases List.mem_cons.mp hm with rfl | hm
        · exact absurd hz h0
        · unfold ndSetMixture
          rw [hd, ih.1 ⟨c', hm, hz⟩]
          rfl
      · intro h
        obtain ⟨ds, hds, hf⟩ := ih.2 (fun c' hc' => h c' (List.mem_cons_of_mem _ hc'))
        refine ⟨d :: ds, ?_, .cons hall hf⟩
        unfold ndSetMixture
        rw [hd, hds]
        rfl

/-- C58: `GMixND` can be set exactly when every covariance is invertible (`LinAlgError` otherwise).  For positive
determinants and nonnegative weights the probability is the density of the mixture, at every point, and the log
probability its logarithm (`-inf` where the density is zero, which happens only if all weights are zero). -/
theorem C58_prob {n : ℕ} (gm : List (NDIn n)) :
    ((∃ c ∈ gm, c.covar.det = 0) → ndSetMixture gm = .error .linAlg) ∧
    ((∀ c ∈ gm, 0 < c.covar.det ∧ 0 ≤ c.weight) → ∃ ds, ndSetMixture gm = .ok ds ∧ ∀ x,
      ndProb ds x false none = .ok (.fin (mixDensity gm x)) ∧
      ndProb ds x true none = .ok (lnDensity (mixDensity gm x)) ∧
      (mixDensity gm x = 0 ↔ ∀ c ∈ gm, c.weight = 0)) := by
  refine ⟨(ndSet_spec gm).1, fun h => ?_⟩
  obtain ⟨ds, hds, hf⟩ := (ndSet_spec gm).2 (fun c hc => (h c hc).1.ne')
  refine ⟨ds, hds, fun x => ?_⟩
  have hmap : ds.map (fun c => ndLnp c x) =
      (gm.map fun c => c.weight * normalDensity c.mean c.covar x).map fun a => Fl.log (.fin a) := by
    clear hds
    induction hf with
    | nil => rfl
    | @cons c d gm' ds' hcd _ ih =>
      simp only [List.map_cons]
      rw [hcd x, if_neg (not_lt.mpr (h c List.mem_cons_self).1.le), ih (fun c' hc' => h c' (List.mem_cons_of_mem _ hc'))]
  have hnn : ∀ a ∈ gm.map fun c => c.weight * normalDensity c.mean c.covar x, 0 ≤ a := by
    intro a ha
    obtain ⟨c, hc, rfl⟩ := List.mem_map.mp ha
    exact mul_nonneg (h c hc).2 (density_pos _ _ _ (h c hc).1).le
  obtain ⟨h1, h2⟩ := ndGetProb_of ds x _ hnn hmap
  have hs : 0 ≤ mixDensity gm x := List.sum_nonneg hnn
  refine ⟨by unfold ndProb; rw [h1]; rfl, ?_, ?_⟩
  · unfold ndProb
    rw [h2]
    unfold lnDensity mixDensity
    unfold mixDensity at hs
    rcases log_nonneg_cases _ hs with ⟨h0, h0'⟩ | ⟨hp, hp'⟩
    · rw [h0', if_pos h0]
    · rw [hp', if_neg hp.ne']
  · unfold mixDensity
    rw [list_sum_zero_iff _ hnn]
    constructor
    · intro hz c hc
      have := hz _ (List.mem_map.mpr ⟨c, hc, rfl⟩)
      rcases mul_eq_zero.mp this with h' | h'
      · exact h'
      · exact absurd h' (density_pos _ _ _ (h c hc).1).ne'
    · intro hz a ha
      obtain ⟨c, hc, rfl⟩ := List.mem_map.mp ha
      rw [hz c hc, zero_mul]

/-- C58: asking for one component gives that component's weighted density (or its logarithm), and
`AssertionError` exactly for an index outside the mixture, negative ones included.  The components add up to
the probability of the mixture. -/
theorem C58_component {n : ℕ} (gm : List (NDIn n)) (h : ∀ c ∈ gm, 0 < c.covar.det ∧ 0 ≤ c.weight) :
    ∃ ds, ndSetMixture gm = .ok ds ∧ ∀ x,
      (∀ dolog (k : ℤ), k < 0 ∨ (gm.length : ℤ) ≤ k → ndProb ds x dolog (some k) = .error .assertion) ∧
      (∀ k (hk : k < gm.length),
        ndProb ds x false (some (k : ℤ)) = .ok (.fin (gm[k].weight * normalDensity gm[k].mean gm[k].covar x)) ∧
        ndProb ds x true (some (k : ℤ)) =
          .ok (lnDensity (gm[k].weight * normalDensity gm[k].mean gm[k].covar x))) ∧
      ∃ ps : List ℝ, ps.length = gm.length ∧
        (∀ k (hk : k < ps.length), ndProb ds x false (some (k : ℤ)) = .ok (.fin ps[k])) ∧
        ndProb ds x false none = .ok (.fin ps.sum) := by
  obtain ⟨ds, hds, hf⟩ := (ndSet_spec gm).2 (fun c hc => (h c hc).1.ne')
  obtain ⟨hlen, hget⟩ := List.forall₂_iff_get.mp hf
  refine ⟨ds, hds, fun x => ?_⟩
  have hk1 : ∀ k (hk : k < gm.length),
        ndProb ds x false (some (k : ℤ)) = .ok (.fin (gm[k].weight * normalDensity gm[k].mean gm[k].covar x)) ∧
        ndProb ds x true (some (k : ℤ)) =
          .ok (lnDensity (gm[k].weight * normalDensity gm[k].mean gm[k].covar x)) := by
    intro k hk
    have hkd : k < ds.length := hlen ▸ hk
    have hl := hget k hk hkd x
    simp only [List.get_eq_getElem] at hl
    have hc := h gm[k] (List.getElem_mem hk)
    rw [if_neg (not_lt.mpr hc.1.le)] at hl
    have hnn := mul_nonneg hc.2 (density_pos gm[k].mean gm[k].covar x hc.1).le
    have hr : ∀ b, ndProb ds x b (some (k : ℤ)) = .ok (if b then ndLnp ds[k] x else Fl.exp (ndLnp ds[k] x)) := by
      intro b
      unfold ndProb
      simp only []
      unfold ndGetProbComponent
      rw [if_pos ⟨by positivity, by exact_mod_cast hkd⟩, Int.toNat_natCast, List.getElem?_eq_getElem hkd]
    rw [hr, hr, hl]
    simp only [Bool.false_eq_true, if_false, if_true]
    unfold lnDensity
    rcases log_nonneg_cases _ hnn with ⟨h0, h0'⟩ | ⟨hp, hp'⟩
    · rw [h0', if_pos h0, h0]
      exact ⟨rfl, rfl⟩
    · rw [hp', if_neg hp.ne']
      simp only [Fl.exp, Real.exp_log hp, true_and]
  refine ⟨?_, hk1, gm.map fun c => c.weight * normalDensity c.mean c.covar x, by simp, ?_, ?_⟩
  · intro b k hk
    unfold ndProb
    simp only []
    unfold ndGetProbComponent
    rw [if_neg]
    rw [← hlen]
    omega
  · intro k hk
    have hk' : k < gm.length := by simpa using hk
    rw [(hk1 k hk').1]
    simp
  · obtain ⟨ds', hds', h'⟩ := (C58_prob gm).2 h
    rw [hds] at hds'
    simp only [Except.ok.injEq] at hds'
    subst hds'
    exact (h' x).1

/-- C58: a covariance of negative determinant or a negative weight (with all covariances invertible) is not
refused: every probability and log probability of the mixture is NaN, at every point. -/
theorem C58_nan {n : ℕ} (gm : List (NDIn n)) (h : ∀ c ∈ gm, c.covar.det ≠ 0)
    (hbad : ∃ c ∈ gm, c.covar.det < 0 ∨ c.weight < 0) :
    ∃ ds, ndSetMixture gm = .ok ds ∧ ∀ x dolog, ndProb ds x dolog none = .ok .nan := by
  obtain ⟨ds, hds, hf⟩ := (ndSet_spec gm).2 h
  obtain ⟨hlen, hget⟩ := List.forall₂_iff_get.mp hf
  refine ⟨ds, hds, fun x b => ?_⟩
  have hp : ∀ a ∈ ds.map (fun c => ndLnp c x), a ≠ .pinf := by
    intro a ha
    obtain ⟨d, hd, rfl⟩ := List.mem_map.mp ha
    obtain ⟨k, hk, rfl⟩ := List.getElem_of_mem hd
    have := hget k (hlen ▸ hk) hk x
    simp only [List.get_eq_getElem] at this
    rw [this]
    split_ifs
    · simp
    · unfold Fl.log
      simp only []
      split_ifs <;> simp
  have hnan : Fl.nan ∈ ds.map (fun c => ndLnp c x) := by
    obtain ⟨c, hc, hb⟩ := hbad
    obtain ⟨k, hk, rfl⟩ := List.getElem_of_mem hc
    have hkd : k < ds.length := hlen ▸ hk
    refine List.mem_map.mpr ⟨ds[k], List.getElem_mem hkd, ?_⟩
    have := hget k hk hkd x
    simp only [List.get_eq_getElem] at this
    rw [this]
    by_cases hd : gm[k].covar.det < 0
    · rw [if_pos hd]
    · rw [if_neg hd]
      have hpos : 0 < gm[k].covar.det := lt_of_le_of_ne (not_lt.mp hd) (Ne.symm (h _ hc))
      have hw : gm[k].weight < 0 := by tauto
      have : gm[k].weight * normalDensity gm[k].mean gm[k].covar x < 0 :=
        mul_neg_of_neg_of_pos hw (density_pos _ _ _ hpos)
      simp [Fl.log, this]
  unfold ndProb ndGetProb
  simp only []
  obtain ⟨M, hM⟩ := ndMax_fin _ hp (-9.99e9)
  rw [hM, ndSum_nan _ M _ (.inr hnan)]
  cases b <;> rfl

/-- C58: the array forms evaluate point by point, and fail as soon as the scalar form does. -/
theorem C58_array {n : ℕ} (ds : List (NDComp n)) (dolog : Bool) (comp : Option ℤ) (xs : List (Fin n → ℝ)) :
    (∀ ps, ndProbArray ds dolog comp xs = .ok ps ↔
      List.Forall₂ (fun x p => ndProb ds x dolog comp = .ok p) xs ps) ∧
    (∀ e, ndProbArray ds dolog comp xs = .error e →
      e = .assertion ∧ ∃ k, comp = some k ∧ (k < 0 ∨ (ds.length : ℤ) ≤ k)) := by
  induction xs with
  | nil =>
    refine ⟨fun ps => ?_, fun e h => by cases h⟩
    simp only [ndProbArray, Except.ok.injEq, List.forall₂_nil_left_iff]
    exact eq_comm
  | cons x xs ih =>
    have herr : ∀ e, ndProb ds x dolog comp = .error e →
        e = .assertion ∧ ∃ k, comp = some k ∧ (k < 0 ∨ (ds.length : ℤ) ≤ k) := by
      intro e he
      cases comp with
      | none => cases he
      | some k =>
        unfold ndProb at he
        simp only [] at he
        unfold ndGetProbComponent at he
        by_cases hk : k ≥ 0 ∧ k < ds.length
        · rw [if_pos hk] at he
          have hlt : k.toNat < ds.length := by omega
          rw [List.getElem?_eq_getElem hlt] at he
          cases he
        · rw [if_neg hk] at he
          simp only [Except.error.injEq] at he
          exact ⟨he.symm, k, rfl, by omega⟩
    rcases hx : ndProb ds x dolog comp with e | p
    · refine ⟨fun ps => ?_, fun e' h => ?_⟩
      · constructor
        · intro h
          simp only [ndProbArray, hx] at h
          cases h
        · intro h
          cases h with
          | cons h1 _ => rw [hx] at h1; cases h1
      · simp only [ndProbArray, hx] at h
        have : e = e' := by injection h
        exact this ▸ herr e hx
    · rcases hxs : ndProbArray ds dolog comp xs with e | ps0
      · refine ⟨fun ps => ?_, fun e' h => ?_⟩
        · constructor
          · intro h
            simp only [ndProbArray, hx, hxs] at h
            cases h
          · intro h
            cases h with
            | cons h1 h2 => have := (ih.1 _).mpr h2; rw [hxs] at this; cases this
        · simp only [ndProbArray, hx, hxs] at h
          have : e = e' := by injection h
          exact this ▸ ih.2 e hxs
      · refine ⟨fun ps => ?_, fun e' h => ?_⟩
        · constructor
          · intro h
            simp only [ndProbArray, hx, hxs] at h
            have : p :: ps0 = ps := by injection h
            subst this
            exact .cons hx ((ih.1 _).mp hxs)
          · intro h
            cases h with
            | @cons _ p' _ ps' h1 h2 =>
              have h3 := (ih.1 _).mpr h2
              rw [hxs] at h3
              rw [hx] at h1
              simp only [Except.ok.injEq] at h1 h3
              subst h1 h3
              simp only [ndProbArray, hx, hxs]
              rfl
        · simp only [ndProbArray, hx, hxs] at h
          cases h

open scoped MatrixOrder in
/-- A positive definite matrix is `Bᵀ B`. -/
theorem posDef_factor {n : ℕ} (A : Matrix (Fin n) (Fin n) ℝ) (h : A.PosDef) :
    ∃ B : Matrix (Fin n) (Fin n) ℝ, A = Bᵀ * B := by
  obtain ⟨B, hB⟩ := CStarAlgebra.nonneg_iff_eq_star_mul_self.mp h.posSemidef.nonneg
  exact ⟨B, by rw [hB, star_eq_conjTranspose, conjTranspose_eq_transpose_of_trivial]⟩

open MeasureTheory in
/-- The normal density integrates to one. -/
theorem normalDensity_integral {n : ℕ} (μ : Fin n → ℝ) (C : Matrix (Fin n) (Fin n) ℝ) (hC : C.PosDef) :
    ∫ x : Fin n → ℝ, normalDensity μ C x = 1 := by
  obtain ⟨B, hB⟩ := posDef_factor C⁻¹ hC.inv
  have hdet := hC.det_pos
  have hBdet : B.det * B.det = C.det⁻¹ := by
    have := congrArg Matrix.det hB
    rw [det_mul, det_transpose, det_nonsing_inv, Ring.inverse_eq_inv'] at this
    exact this.symm
  have hB0 : B.det ≠ 0 := by
    intro h
    rw [h, zero_mul] at hBdet
    exact (inv_pos.mpr hdet).ne hBdet
  have hquad : ∀ y : Fin n → ℝ, y ⬝ᵥ (C⁻¹ *ᵥ y) = ∑ i, (B *ᵥ y) i ^ 2 := by
    intro y
    rw [hB, ← mulVec_mulVec, dotProduct_mulVec, vecMul_transpose, dotProduct]
    exact Finset.sum_congr rfl fun i _ => by ring
  let g : (Fin n → ℝ) → ℝ := fun y => ∏ i, Real.exp (-(1/2) * (y i) ^ 2)
  have hg : ∫ y, g y = Real.sqrt (2 * Real.pi) ^ n := by
    have := integral_fintype_prod_volume_eq_pow (ι := Fin n) (fun t : ℝ => Real.exp (-(1/2) * t ^ 2))
    rw [integral_gaussian, Fintype.card_fin] at this
    rw [show (2 * Real.pi) = Real.pi / (1/2) by ring]
    exact this
  have hmap := Real.map_matrix_volume_pi_eq_smul_volume_pi hB0
  have hmeas : AEStronglyMeasurable g (Measure.map (toLin' B) volume) := by
    apply Continuous.aestronglyMeasurable
    fun_prop
  have hchg : ∫ x, g (B *ᵥ x) = |B.det⁻¹| * Real.sqrt (2 * Real.pi) ^ n := by
    have h1 := integral_map (μ := volume) (φ := toLin' B) (f := g)
      (by apply Continuous.aemeasurable; exact LinearMap.continuous_of_finiteDimensional _) hmeas
    rw [hmap, integral_smul_measure, hg, ENNReal.toReal_ofReal (abs_nonneg _)] at h1
    simpa using h1.symm
  have hsplit : ∀ x, normalDensity μ C x = g (B *ᵥ (x - μ)) * (Real.sqrt ((2 * Real.pi) ^ n * C.det))⁻¹ := by
    intro x
    unfold normalDensity
    rw [hquad, div_eq_mul_inv]
    congr 1
    show _ = ∏ i, _
    rw [← Real.exp_sum]
    congr 1
    rw [← Finset.mul_sum]
    ring
  simp only [hsplit]
  rw [integral_mul_const, integral_sub_right_eq_self (fun x => g (B *ᵥ x)) μ, hchg]
  have hP : (0 : ℝ) ≤ (2 * Real.pi) ^ n := by positivity
  have hs1 : Real.sqrt (2 * Real.pi) ^ n = Real.sqrt ((2 * Real.pi) ^ n) := by
    rw [eq_comm, Real.sqrt_eq_iff_mul_self_eq hP (by positivity), ← mul_pow, Real.mul_self_sqrt (by positivity)]
  have hs2 : |B.det⁻¹| = Real.sqrt C.det := by
    rw [← Real.sqrt_mul_self_eq_abs, ← mul_inv, hBdet, inv_inv]
  rw [hs1, hs2, Real.sqrt_mul hP, mul_comm (Real.sqrt C.det)]
  apply mul_inv_cancel₀
  have : 0 < (2 * Real.pi) ^ n := by positivity
  exact (mul_pos (Real.sqrt_pos.mpr this) (Real.sqrt_pos.mpr hdet)).ne'

open MeasureTheory in
/-- C58: for positive definite covariances and nonnegative weights the reported probability is finite everywhere
and integrates, over all of space, to the sum of the weights. -/
theorem C58_normalised {n : ℕ} (gm : List (NDIn n)) (h : ∀ c ∈ gm, c.covar.PosDef ∧ 0 ≤ c.weight) :
    ∃ ds, ndSetMixture gm = .ok ds ∧ ∃ p : (Fin n → ℝ) → ℝ, (∀ x, ndProb ds x false none = .ok (.fin (p x))) ∧
      Integrable p ∧ ∫ x, p x = (gm.map (·.weight)).sum := by
  obtain ⟨ds, hds, hp⟩ := (C58_prob gm).2 (fun c hc => ⟨(h c hc).1.det_pos, (h c hc).2⟩)
  refine ⟨ds, hds, mixDensity gm, fun x => (hp x).1, ?_⟩
  clear hp hds
  induction gm with
  | nil =>
    have : mixDensity ([] : List (NDIn n)) = fun _ => 0 := by funext x; simp [mixDensity]
    rw [this]
    simp
  | cons c gm ih =>
    obtain ⟨h1, h2⟩ := ih (fun c' hc' => h c' (List.mem_cons_of_mem _ hc'))
    have hi := normalDensity_integral c.mean c.covar (h c List.mem_cons_self).1
    have hint : Integrable (fun x => c.weight * normalDensity c.mean c.covar x) :=
      (Integrable.of_integral_ne_zero (by rw [hi]; exact one_ne_zero)).const_mul _
    have he : mixDensity (c :: gm) = fun x => c.weight * normalDensity c.mean c.covar x + mixDensity gm x := by
      funext x; simp [mixDensity]
    rw [he]
    refine ⟨hint.add h1, ?_⟩
    rw [integral_add hint h1, h2, integral_const_mul, hi]
    simp

/-- Two correlated gaussians in two dimensions meet the hypotheses of `C58_prob`, `C58_component` and
`C58_normalised`. -/
example : ∀ c ∈ [(⟨1, ![0, 0], !![2, 1; 1, 2]⟩ : NDIn 2), ⟨0.5, ![1, 3], !![1, 0; 0, 1]⟩],
    c.covar.PosDef ∧ 0 < c.covar.det ∧ 0 ≤ c.weight := by
  intro c hc
  have hp : c.covar.PosDef ∧ 0 ≤ c.weight := by
    simp only [List.mem_cons, List.not_mem_nil, or_false] at hc
    rcases hc with rfl | rfl
    · refine ⟨PosDef.of_dotProduct_mulVec_pos ?_ fun x hx => ?_, by norm_num⟩
      · ext i j; fin_cases i <;> fin_cases j <;> simp [Matrix.conjTranspose]
      · simp only [star_trivial, dotProduct, mulVec, Fin.sum_univ_two, of_apply, cons_val', cons_val_zero,
          cons_val_one, cons_val_fin_one]
        have : x 0 ≠ 0 ∨ x 1 ≠ 0 := by
          by_contra hcon
          push Not at hcon
          exact hx (by funext i; fin_cases i <;> simp [hcon.1, hcon.2])
        rcases this with h | h
        · nlinarith [sq_nonneg (x 0 + x 1), sq_nonneg (x 1), mul_self_pos.mpr h]
        · nlinarith [sq_nonneg (x 0 + x 1), sq_nonneg (x 0), mul_self_pos.mpr h]
    · refine ⟨?_, by norm_num⟩
      rw [← Matrix.one_fin_two]
      exact PosDef.one
  exact ⟨hp.1, hp.1.det_pos, hp.2⟩

/-- A covariance with negative determinant, as in `C58_nan`, and a singular one, as in `C58_prob`. -/
example : (⟨1, ![0, 0], !![1, 2; 2, 1]⟩ : NDIn 2).covar.det < 0 ∧
    (⟨1, ![0, 0], !![1, 1; 1, 1]⟩ : NDIn 2).covar.det = 0 := by
  constructor <;> simp [det_fin_two] <;> norm_num

end

end Ngmix.Props
