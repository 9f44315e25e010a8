import Verif.Spec.NDAffine
import Verif.Props.GMixND

/-!
# N-dimensional mixtures in other parameters, orders and weights (C114)
-/

namespace Ngmix.Props

open Ngmix Ngmix.Spec Matrix

noncomputable section

/-- C114.  Components in another order: both mixtures are refused for a singular covariance, or both are accepted and every
probability and log probability is the same, those that are NaN included. -/
theorem C114_order {n : ℕ} {gm gm' : List (NDIn n)} (hp : gm.Perm gm') :
    ((∃ c ∈ gm, c.covar.det = 0) → ndSetMixture gm = .error .linAlg ∧ ndSetMixture gm' = .error .linAlg) ∧
    ((∀ c ∈ gm, c.covar.det ≠ 0) → ∃ ds ds', ndSetMixture gm = .ok ds ∧ ndSetMixture gm' = .ok ds' ∧
      ∀ x dolog, ndProb ds x dolog none = ndProb ds' x dolog none) := by
  refine ⟨fun ⟨c, hc, h0⟩ => ⟨(C58_prob gm).1 ⟨c, hc, h0⟩, (C58_prob gm').1 ⟨c, hp.mem_iff.1 hc, h0⟩⟩, fun h => ?_⟩
  have h' : ∀ c ∈ gm', c.covar.det ≠ 0 := fun c hc => h c (hp.mem_iff.2 hc)
  by_cases hbad : ∃ c ∈ gm, c.covar.det < 0 ∨ c.weight < 0
  · obtain ⟨c, hc, hb⟩ := hbad
    obtain ⟨ds, e, hn⟩ := C58_nan gm h ⟨c, hc, hb⟩
    obtain ⟨ds', e', hn'⟩ := C58_nan gm' h' ⟨c, hp.mem_iff.1 hc, hb⟩
    exact ⟨ds, ds', e, e', fun x b => by rw [hn, hn']⟩
  · push Not at hbad
    have hg : ProperND gm := fun c hc => ⟨lt_of_le_of_ne (hbad c hc).1 (h c hc).symm, (hbad c hc).2⟩
    obtain ⟨ds, e, hd⟩ := (C58_prob gm).2 hg
    obtain ⟨ds', e', hd'⟩ := (C58_prob gm').2 fun c hc => hg c (hp.mem_iff.2 hc)
    have hm : ∀ x, mixDensity gm x = mixDensity gm' x := fun x => (hp.map _).sum_eq
    refine ⟨ds, ds', e, e', fun x b => ?_⟩
    cases b
    · rw [(hd x).1, (hd' x).1, hm]
    · rw [(hd x).2.1, (hd' x).2.1, hm]

theorem normalDensity_affine {n : ℕ} (A : Matrix (Fin n) (Fin n) ℝ) (hA : A.det ≠ 0) (b μ : Fin n → ℝ)
    (C : Matrix (Fin n) (Fin n) ℝ) (hC : 0 < C.det) (x : Fin n → ℝ) :
    normalDensity (A *ᵥ μ + b) (A * C * Aᵀ) (A *ᵥ x + b) = normalDensity μ C x / |A.det| := by
  have hu : IsUnit A.det := hA.isUnit
  have hut : IsUnit (Aᵀ).det := by rw [det_transpose]; exact hu
  have hsub : A *ᵥ x + b - (A *ᵥ μ + b) = A *ᵥ (x - μ) := by rw [mulVec_sub]; abel
  have hq : (A *ᵥ (x - μ)) ⬝ᵥ ((A * C * Aᵀ)⁻¹ *ᵥ (A *ᵥ (x - μ))) = (x - μ) ⬝ᵥ (C⁻¹ *ᵥ (x - μ)) := by
    rw [Matrix.mul_inv_rev, Matrix.mul_inv_rev, mulVec_mulVec, Matrix.mul_assoc, Matrix.mul_assoc, nonsing_inv_mul _ hu,
      Matrix.mul_one, ← mulVec_mulVec]
    rw [dotProduct_mulVec, ← vecMul_transpose, vecMul_vecMul, mul_nonsing_inv _ hut, vecMul_one]
  have hdet : (A * C * Aᵀ).det = C.det * A.det ^ 2 := by rw [det_mul, det_mul, det_transpose]; ring
  unfold normalDensity
  rw [hsub, hq, hdet, ← mul_assoc, Real.sqrt_mul (by positivity), Real.sqrt_sq_eq_abs, div_div]

theorem mixDensity_affine {n : ℕ} (A : Matrix (Fin n) (Fin n) ℝ) (hA : A.det ≠ 0) (b : Fin n → ℝ) (gm : List (NDIn n))
    (h : ProperND gm) (x : Fin n → ℝ) : mixDensity (inPars A b gm) (A *ᵥ x + b) = mixDensity gm x / |A.det| := by
  unfold mixDensity inPars
  induction gm with
  | nil => simp
  | cons c gm ih =>
    have := ih fun d hd => h d (List.mem_cons_of_mem _ hd)
    simp only [List.map_cons, List.sum_cons] at this ⊢
    rw [this, normalDensity_affine A hA b _ _ (h c (by simp)).1, add_div, mul_div_assoc]

theorem det_inPars {n : ℕ} (A C : Matrix (Fin n) (Fin n) ℝ) : (A * C * Aᵀ).det = C.det * A.det ^ 2 := by
  rw [det_mul, det_mul, det_transpose]; ring

theorem lnDensity_div {p k : ℝ} (hk : 0 < k) : lnDensity (p / k) = lnDensity p - .fin (Real.log k) := by
  unfold lnDensity
  by_cases hp : p = 0
  · subst hp
    simp only [zero_div, if_true]
    rfl
  · rw [if_neg hp, if_neg (div_ne_zero hp hk.ne'), Real.log_div hp hk.ne']
    rfl

/-- C114.  The parameters replaced by `A x + b`, with `A` invertible, and means and covariances with them: a mixture is refused
in both or in neither; probabilities at corresponding points are divided by the change of volume, log probabilities less by its
logarithm; those of a mixture that is not proper are NaN in both. -/
theorem C114_parameters {n : ℕ} (A : Matrix (Fin n) (Fin n) ℝ) (hA : A.det ≠ 0) (b : Fin n → ℝ) (gm : List (NDIn n)) :
    ((∃ c ∈ gm, c.covar.det = 0) → ndSetMixture gm = .error .linAlg ∧ ndSetMixture (inPars A b gm) = .error .linAlg) ∧
    ((∀ c ∈ gm, c.covar.det ≠ 0) → ∃ ds ds', ndSetMixture gm = .ok ds ∧ ndSetMixture (inPars A b gm) = .ok ds' ∧
      (ProperND gm → ∀ x, ∃ p l, ndProb ds x false none = .ok (.fin p) ∧
        ndProb ds' (A *ᵥ x + b) false none = .ok (.fin (p / |A.det|)) ∧
        ndProb ds x true none = .ok l ∧ ndProb ds' (A *ᵥ x + b) true none = .ok (l - .fin (Real.log |A.det|))) ∧
      (¬ ProperND gm → ∀ x dolog, ndProb ds x dolog none = .ok .nan ∧ ndProb ds' x dolog none = .ok .nan)) := by
  have hA2 : 0 < A.det ^ 2 := by positivity
  have hmem : ∀ {P : NDIn n → Prop}, (∀ c ∈ inPars A b gm, P c) ↔ ∀ c ∈ gm, P ⟨c.weight, A *ᵥ c.mean + b, A * c.covar * Aᵀ⟩ := by
    intro P
    simp [inPars]
  refine ⟨fun ⟨c, hc, h0⟩ => ⟨(C58_prob gm).1 ⟨c, hc, h0⟩, (C58_prob _).1
    ⟨⟨c.weight, A *ᵥ c.mean + b, A * c.covar * Aᵀ⟩, List.mem_map.2 ⟨c, hc, rfl⟩, by
      simp only [det_inPars, h0, zero_mul]⟩⟩, fun h => ?_⟩
  have h' : ∀ c ∈ inPars A b gm, c.covar.det ≠ 0 := hmem.2 fun c hc => by
    simp only [det_inPars]
    exact mul_ne_zero (h c hc) hA2.ne'
  by_cases hg : ProperND gm
  · have hg' : ProperND (inPars A b gm) := hmem.2 fun c hc => ⟨by
      simp only [det_inPars]
      exact mul_pos (hg c hc).1 hA2, (hg c hc).2⟩
    obtain ⟨ds, e, hd⟩ := (C58_prob gm).2 hg
    obtain ⟨ds', e', hd'⟩ := (C58_prob _).2 hg'
    refine ⟨ds, ds', e, e', fun _ x => ⟨mixDensity gm x, _, (hd x).1, ?_, (hd x).2.1, ?_⟩, fun hn => absurd hg hn⟩
    · rw [(hd' _).1, mixDensity_affine A hA b gm hg]
    · rw [(hd' _).2.1, mixDensity_affine A hA b gm hg, lnDensity_div (abs_pos.2 hA)]
  · have hbad : ∃ c ∈ gm, c.covar.det < 0 ∨ c.weight < 0 := by
      by_contra hcon
      push Not at hcon
      exact hg fun c hc => ⟨lt_of_le_of_ne (hcon c hc).1 (h c hc).symm, (hcon c hc).2⟩
    obtain ⟨c, hc, hb⟩ := hbad
    obtain ⟨ds, e, hn⟩ := C58_nan gm h ⟨c, hc, hb⟩
    obtain ⟨ds', e', hn'⟩ := C58_nan _ h' ⟨⟨c.weight, A *ᵥ c.mean + b, A * c.covar * Aᵀ⟩, List.mem_map.2 ⟨c, hc, rfl⟩, by
      rcases hb with hb | hb
      · left
        simp only [det_inPars]
        exact mul_neg_of_neg_of_pos hb hA2
      · exact .inr hb⟩
    exact ⟨ds, ds', e, e', fun hp => absurd hp hg, fun _ x d => ⟨hn x d, hn' x d⟩⟩

/-- C114.  All weights multiplied by `k > 0`: the probabilities are multiplied by `k`, the log probabilities larger by its
logarithm. -/
theorem C114_weights {n : ℕ} {k : ℝ} (hk : 0 < k) (gm : List (NDIn n)) (h : ProperND gm) :
    ∃ ds ds', ndSetMixture gm = .ok ds ∧ ndSetMixture (weighted k gm) = .ok ds' ∧ ∀ x, ∃ p l,
      ndProb ds x false none = .ok (.fin p) ∧ ndProb ds' x false none = .ok (.fin (k * p)) ∧
      ndProb ds x true none = .ok l ∧ ndProb ds' x true none = .ok (l + .fin (Real.log k)) := by
  have h' : ProperND (weighted k gm) := by
    intro c hc
    obtain ⟨d, hd, rfl⟩ := List.mem_map.1 hc
    exact ⟨(h d hd).1, mul_nonneg hk.le (h d hd).2⟩
  obtain ⟨ds, e, hd⟩ := (C58_prob gm).2 h
  obtain ⟨ds', e', hd'⟩ := (C58_prob _).2 h'
  have hm : ∀ x, mixDensity (weighted k gm) x = k * mixDensity gm x := by
    intro x
    unfold mixDensity weighted
    rw [List.map_map, ← List.sum_map_mul_left]
    exact congrArg List.sum (List.map_congr_left fun c _ => by simp [mul_assoc])
  refine ⟨ds, ds', e, e', fun x => ⟨mixDensity gm x, _, (hd x).1, by rw [(hd' x).1, hm], (hd x).2.1, ?_⟩⟩
  rw [(hd' x).2.1, hm]
  unfold lnDensity
  by_cases hp : mixDensity gm x = 0
  · rw [hp, mul_zero, if_pos rfl]
    rfl
  · rw [if_neg hp, if_neg (mul_ne_zero hk.ne' hp), Real.log_mul hk.ne' hp, add_comm]
    rfl

/-- C114.  A component split into two of the same mean and covariance: the same probabilities. -/
theorem C114_split {n : ℕ} (a w w' : ℝ) (μ : Fin n → ℝ) (C : Matrix (Fin n) (Fin n) ℝ) (gm : List (NDIn n)) (ha : a = w + w')
    (hw : 0 ≤ w) (hw' : 0 ≤ w') (h : ProperND (⟨a, μ, C⟩ :: gm)) :
    ∃ ds ds', ndSetMixture (⟨a, μ, C⟩ :: gm) = .ok ds ∧ ndSetMixture (⟨w, μ, C⟩ :: ⟨w', μ, C⟩ :: gm) = .ok ds' ∧
      ∀ x dolog, ndProb ds x dolog none = ndProb ds' x dolog none := by
  have h' : ProperND (⟨w, μ, C⟩ :: ⟨w', μ, C⟩ :: gm) := by
    intro c hc
    simp only [List.mem_cons] at hc
    have hC : 0 < C.det := (h ⟨a, μ, C⟩ (by simp)).1
    rcases hc with rfl | rfl | hc
    · exact ⟨hC, hw⟩
    · exact ⟨hC, hw'⟩
    · exact h c (by simp [hc])
  obtain ⟨ds, e, hd⟩ := (C58_prob _).2 h
  obtain ⟨ds', e', hd'⟩ := (C58_prob _).2 h'
  have hm : ∀ x, mixDensity (⟨a, μ, C⟩ :: gm) x = mixDensity (⟨w, μ, C⟩ :: ⟨w', μ, C⟩ :: gm) x := by
    intro x
    simp only [mixDensity, List.map_cons, List.sum_cons, ha]
    ring
  refine ⟨ds, ds', e, e', fun x b => ?_⟩
  cases b
  · rw [(hd x).1, (hd' x).1, hm]
  · rw [(hd x).2.1, (hd' x).2.1, hm]

/-! ### Concrete cases -/

/-- Two correlated gaussians, the axes exchanged and one stretched. -/
def ndPair : List (NDIn 2) := [⟨1, ![0, 0], !![2, 1; 1, 2]⟩, ⟨0.5, ![1, 3], !![1, 0; 0, 1]⟩]

theorem ndPair_proper : ProperND ndPair := by
  intro c hc
  simp only [ndPair, List.mem_cons, List.not_mem_nil, or_false] at hc
  rcases hc with rfl | rfl <;> constructor <;> norm_num [det_fin_two]

example (x : Fin 2 → ℝ) : ∃ ds ds' p, ndSetMixture ndPair = .ok ds ∧ ndSetMixture (inPars !![0, 1; 3, 0] ![5, 7] ndPair) = .ok ds' ∧
    ndProb ds x false none = .ok (.fin p) ∧ ndProb ds' (!![0, 1; 3, 0] *ᵥ x + ![5, 7]) false none = .ok (.fin (p / 3)) := by
  obtain ⟨ds, ds', h1, h2, h3, -⟩ := (C114_parameters !![0, 1; 3, 0] (by norm_num [det_fin_two]) ![5, 7] ndPair).2
    fun c hc => (ndPair_proper c hc).1.ne'
  obtain ⟨p, l, k1, k2, -⟩ := h3 ndPair_proper x
  refine ⟨ds, ds', p, h1, h2, k1, ?_⟩
  rw [k2]
  norm_num [det_fin_two]

example : ∃ ds ds', ndSetMixture ndPair = .ok ds ∧ ndSetMixture ndPair.reverse = .ok ds' ∧
    ∀ x dolog, ndProb ds x dolog none = ndProb ds' x dolog none :=
  (C114_order (List.reverse_perm ndPair).symm).2 fun c hc => (ndPair_proper c hc).1.ne'

example : ProperND (weighted 2 ndPair) ∧ inPars !![0, 1; 3, 0] ![5, 7] ndPair ≠ ndPair := by
  constructor
  · intro c hc
    obtain ⟨d, hd, rfl⟩ := List.mem_map.1 hc
    exact ⟨(ndPair_proper d hd).1, mul_nonneg (by norm_num) (ndPair_proper d hd).2⟩
  · intro h
    have := congrArg (fun l : List (NDIn 2) => (l.map fun c => c.mean 0).headD 0) h
    norm_num [inPars, ndPair, mulVec, dotProduct] at this

end

end Ngmix.Props
