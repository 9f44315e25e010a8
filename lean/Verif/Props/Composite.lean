import Verif.Props.Models

/-!
# Composite and coelliptical models (C23)
-/

namespace Ngmix.Props

open Ngmix Ngmix.Spec

theorem composite_union (row col e1 e2 T F fd Td : ℝ) :
    fillComposite row col e1 e2 T F fd Td =
      ((fvalsExp.zip pvalsExp).map fun fp => coGauss (F * (1 - fd) * fp.2) row col (0.5 * T * fp.1) e1 e2) ++
      ((fvalsDev.zip pvalsDev).map fun fp => coGauss (F * fd * fp.2) row col (0.5 * (T * Td) * fp.1) e1 e2) := by
  have h16 : List.range 16 = [0,1,2,3,4,5,6,7,8,9,10,11,12,13,14,15] := rfl
  have c : ∀ a b a' b' : ℝ, a = a' → b = b' → coGauss a row col b e1 e2 = coGauss a' row col b' e1 e2 := by
    rintro a b _ _ rfl rfl; rfl
  rw [fillComposite, h16]
  simp only [List.map_cons, List.map_nil, pvalsExp, fvalsExp, pvalsDev, fvalsDev, List.zip_cons_cons,
    List.zip_nil_right, List.cons_append, List.nil_append]
  simp only [Nat.reduceLT, if_true, if_false, Nat.reduceSub, List.getD_cons_zero, List.getD_cons_succ]
  congr 1
  · apply c <;> ring
  congr 1
  · apply c <;> ring
  congr 1
  · apply c <;> ring
  congr 1
  · apply c <;> ring
  congr 1
  · apply c <;> ring
  congr 1
  · apply c <;> ring
  congr 1
  · apply c <;> ring
  congr 1
  · apply c <;> ring
  congr 1
  · apply c <;> ring
  congr 1
  · apply c <;> ring
  congr 1
  · apply c <;> ring
  congr 1
  · apply c <;> ring
  congr 1
  · apply c <;> ring
  congr 1
  · apply c <;> ring
  congr 1
  · apply c <;> ring
  congr 1
  · apply c <;> ring

theorem cmTsum_eq (fd Td : ℝ) : cmTsum fd Td =
    (1 - fd) * ((fvalsExp.zip pvalsExp).map fun fp => fp.2 * fp.1).sum +
      fd * Td * ((fvalsDev.zip pvalsDev).map fun fp => fp.2 * fp.1).sum := by
  have h6 : List.range 6 = [0,1,2,3,4,5] := rfl
  have h10 : List.range 10 = [0,1,2,3,4,5,6,7,8,9] := rfl
  rw [cmTsum, h6, h10]
  simp only [List.foldl_cons, List.foldl_nil, pvalsExp, fvalsExp, pvalsDev, fvalsDev, List.zip_cons_cons,
    List.zip_nil_right, List.getD_cons_zero, List.getD_cons_succ, List.map_cons, List.map_nil, List.sum_cons,
    List.sum_nil]
  ring

/-- A mixture is a disk plus bulge: the union of an exponential with flux `F (1 - fd)` and size `Te` and
a de Vaucouleurs profile with flux `F fd` and size `TdByTe Te`, both as made by `make_gmix_model`, with
the same centre and shape; its flux is `F K` and its size `T / K` for a constant `K` that is one up to
rounding of the tables. -/
def DiskPlusBulge (gm : List Gauss) (row col g1 g2 T F fd TdByTe : ℝ) : Prop :=
  (∃ Te a b, makeGmixModel [row, col, g1, g2, Te, F * (1 - fd)] (.str "exp") = .ok a ∧
    makeGmixModel [row, col, g1, g2, Te * TdByTe, F * fd] (.str "dev") = .ok b ∧ gm = a.data ++ b.data) ∧
  (∀ g ∈ gm, ∃ Ti, HasShape g row col g1 g2 Ti) ∧
  ∃ K, |K - 1| ≤ 1e-14 * (|1 - fd| + |fd|) ∧ Flux gm = F * K ∧
    (F ≠ 0 → K ≠ 0 → Centroid gm row col ∧ gmGetT gm = some (T / K) ∧
      (T ≠ 0 → gmGetG1g2T gm = some (.ok (g1, g2, T / K))))

theorem flux_of_forall (TF : List (ℝ × ℝ)) (gm : List Gauss)
    (h : List.Forall₂ (fun tf g => g.p = tf.2) TF gm) : Flux gm = (TF.map fun x => x.2).sum := by
  induction h with
  | nil => rfl
  | cons h1 _ ih =>
    simp only [Flux, List.map_cons, List.sum_cons] at ih ⊢
    rw [h1, ih]

theorem mem_tables_exp : ("exp", fvalsExp, pvalsExp) ∈ simpleTables := by simp [simpleTables]
theorem mem_tables_dev : ("dev", fvalsDev, pvalsDev) ∈ simpleTables := by simp [simpleTables]

theorem composite_facts (row col g1 g2 T F fd Td k : ℝ) (hg : InDisk g1 g2) (hk : k * cmTsum fd Td = 1) :
    DiskPlusBulge (fillComposite row col (2 * g1 / (1 + (g1 ^ 2 + g2 ^ 2))) (2 * g2 / (1 + (g1 ^ 2 + g2 ^ 2)))
      (T * k) F fd Td) row col g1 g2 T F fd Td := by
  obtain ⟨t0, t1, -, -, -⟩ := C22_tables _ _ _ mem_tables_exp
  obtain ⟨u0, u1, -, -, -⟩ := C22_tables _ _ _ mem_tables_dev
  rw [cmTsum_eq] at hk
  have hze : (fvalsExp.zip pvalsExp).map (fun i => i.2) = pvalsExp :=
    List.map_snd_zip (l₁ := fvalsExp) (l₂ := pvalsExp) (by rw [t0])
  have hzd : (fvalsDev.zip pvalsDev).map (fun i => i.2) = pvalsDev :=
    List.map_snd_zip (l₁ := fvalsDev) (l₂ := pvalsDev) (by rw [u0])
  set TF := ((fvalsExp.zip pvalsExp).map fun fp => (T * k * fp.1, F * (1 - fd) * fp.2)) ++
    ((fvalsDev.zip pvalsDev).map fun fp => (T * k * Td * fp.1, F * fd * fp.2)) with hTF
  have hall : List.Forall₂ (fun tf g => g.p = tf.2 ∧ HasShape g row col g1 g2 tf.1) TF
      (fillComposite row col (2 * g1 / (1 + (g1 ^ 2 + g2 ^ 2))) (2 * g2 / (1 + (g1 ^ 2 + g2 ^ 2)))
      (T * k) F fd Td) := by
    rw [composite_union, hTF]
    refine List.rel_append ?_ ?_
    · rw [List.forall₂_map_left_iff, List.forall₂_map_right_iff, List.forall₂_same]
      exact fun fp _ => ⟨rfl, coGauss_shape _ _ _ _ _ _ _ (by ring)⟩
    · rw [List.forall₂_map_left_iff, List.forall₂_map_right_iff, List.forall₂_same]
      exact fun fp _ => ⟨rfl, coGauss_shape _ _ _ _ _ _ _ (by ring)⟩
  have s1 : (TF.map fun x => x.2).sum = F * ((1 - fd) * pvalsExp.sum + fd * pvalsDev.sum) := by
    rw [hTF, List.map_append, List.sum_append, List.map_map, List.map_map]
    simp only [Function.comp_def, List.sum_map_mul_left, hze, hzd]
    ring
  have s2 : (TF.map fun x => x.2 * x.1).sum = F * T := by
    rw [hTF, List.map_append, List.sum_append, List.map_map, List.map_map]
    have e1 : ((fun x : ℝ × ℝ => x.2 * x.1) ∘ fun fp : ℝ × ℝ => (T * k * fp.1, F * (1 - fd) * fp.2)) =
        fun fp => F * T * k * (1 - fd) * (fp.2 * fp.1) := by funext fp; simp only [Function.comp_def]; ring
    have e2 : ((fun x : ℝ × ℝ => x.2 * x.1) ∘ fun fp : ℝ × ℝ => (T * k * Td * fp.1, F * fd * fp.2)) =
        fun fp => F * T * k * fd * Td * (fp.2 * fp.1) := by funext fp; simp only [Function.comp_def]; ring
    rw [e1, e2, List.sum_map_mul_left, List.sum_map_mul_left]
    linear_combination F * T * hk
  refine ⟨?_, ?_, (1 - fd) * pvalsExp.sum + fd * pvalsDev.sum, ?_, ?_, ?_⟩
  · obtain ⟨-, -, m3⟩ := make_simple _ _ _ mem_tables_exp row col g1 g2 (T * k) (F * (1 - fd))
    obtain ⟨-, -, n3⟩ := make_simple _ _ _ mem_tables_dev row col g1 g2 (T * k * Td) (F * fd)
    obtain ⟨a, ha, ha', -, -⟩ := m3 _ (by simp only [fillSimple, g1g2ToE1E2nb_closed hg, Except.map]; rfl)
    obtain ⟨b, hb, hb', -, -⟩ := n3 _ (by simp only [fillSimple, g1g2ToE1E2nb_closed hg, Except.map]; rfl)
    refine ⟨T * k, a, b, ha, hb, ?_⟩
    rw [ha', hb', composite_union]
  · intro g hgo
    obtain ⟨i, hi, rfl⟩ := List.getElem_of_mem hgo
    exact ⟨_, ((List.forall₂_iff_get.mp hall).2 i (by rw [hall.length_eq]; exact hi) hi).2⟩
  · rw [show (1 - fd) * pvalsExp.sum + fd * pvalsDev.sum - 1 =
      (1 - fd) * (pvalsExp.sum - 1) + fd * (pvalsDev.sum - 1) by ring]
    refine le_trans (abs_add_le _ _) ?_
    rw [abs_mul, abs_mul, mul_add, mul_comm (1e-14 : ℝ), mul_comm (1e-14 : ℝ)]
    exact add_le_add (mul_le_mul_of_nonneg_left t1 (abs_nonneg _))
      (mul_le_mul_of_nonneg_left u1 (abs_nonneg _))
  · rw [← s1]
    exact flux_of_forall _ _ (hall.imp fun _ _ hh => hh.1)
  · intro hF hK
    have hm : FluxMean TF (T / ((1 - fd) * pvalsExp.sum + fd * pvalsDev.sum)) := by
      refine ⟨by rw [s1]; exact mul_ne_zero hF hK, ?_⟩
      rw [s1, s2, mul_assoc, mul_div_cancel₀ _ hK]
    obtain ⟨-, c2, c3, c4⟩ := co_mixture _ TF row col g1 g2 _ hg hall hm
    exact ⟨c2, c3, fun hT => c4 (div_ne_zero hT hK)⟩

/-- C23: the size normalisation exists for every fraction in [0,1] and every positive size ratio (its
absence is a ZeroDivisionError). -/
theorem C23_tfactor (fd Td : ℝ) :
    (0 ≤ fd → fd ≤ 1 → 0 < Td → ∃ k, getCmTfactor fd Td = .ok k ∧ 0 < k) ∧
    (∀ k, getCmTfactor fd Td = .ok k → k * cmTsum fd Td = 1) ∧
    (∀ e, getCmTfactor fd Td = .error e → e = .zeroDiv) := by
  refine ⟨?_, ?_, ?_⟩
  · intro h0 h1 hT
    obtain ⟨-, -, t2, -, -⟩ := C22_tables _ _ _ mem_tables_exp
    obtain ⟨-, -, u2, -, -⟩ := C22_tables _ _ _ mem_tables_dev
    have hA := abs_le.mp t2
    have hB := abs_le.mp u2
    have hpos : 0 < cmTsum fd Td := by
      rw [cmTsum_eq]
      set A := ((fvalsExp.zip pvalsExp).map fun fp => fp.2 * fp.1).sum
      set B := ((fvalsDev.zip pvalsDev).map fun fp => fp.2 * fp.1).sum
      have hA0 : (0:ℝ) < A := by norm_num at hA; linarith
      have hB0 : (0:ℝ) < B := by norm_num at hB; linarith
      rcases eq_or_lt_of_le h0 with rfl | hf
      · simpa using hA0
      · have h3 : 0 < fd * Td * B := by positivity
        have h4 : 0 ≤ (1 - fd) * A := mul_nonneg (by linarith) hA0.le
        linarith
    refine ⟨1 / cmTsum fd Td, by simp [getCmTfactor, hpos.ne'], by positivity⟩
  · intro k hk
    unfold getCmTfactor at hk
    split_ifs at hk with h0
    simp only [Except.ok.injEq] at hk
    rw [← hk]
    exact one_div_mul_cancel h0
  · intro e he
    unfold getCmTfactor at he
    split_ifs at he with h0
    simp only [Except.error.injEq] at he
    exact he.symm

/-- C23, `GMixCM(fracdev, TdByTe, pars)`. -/
theorem C23_cm (fd Td k row col g1 g2 T F : ℝ) (hk : getCmTfactor fd Td = .ok k) :
    (∀ pars : List ℝ, pars.length ≠ 6 → newGMixCM fd Td pars = .error .value) ∧
    (¬ InDisk g1 g2 → newGMixCM fd Td [row, col, g1, g2, T, F] = .error .gmixRange) ∧
    (InDisk g1 g2 → ∃ o, newGMixCM fd Td [row, col, g1, g2, T, F] = .ok o ∧
      DiskPlusBulge o.data row col g1 g2 T F fd Td) := by
  refine ⟨fun pars hp => ?_, fun hg => ?_, fun hg => ?_⟩
  · simp [newGMixCM, hk, Except.bind, built, fillChecked, resetObj, hp]
  · simp [newGMixCM, hk, Except.bind, built, fillChecked, resetObj, fillObj, fillFunc, fillCm,
      g1g2ToE1E2nb_err hg, Except.map]
  · refine ⟨_, by
      simp only [newGMixCM, hk, Except.bind, built, fillChecked, resetObj, fillObj, fillFunc, fillCm,
        g1g2ToE1E2nb_closed hg, Except.map]
      rfl, ?_⟩
    exact composite_facts row col g1 g2 T F fd Td k hg ((C23_tfactor fd Td).2.1 k hk)

/-- C23, `make_gmix_model(pars, "bdf")`, pars `[row, col, g1, g2, T, fracdev, F]`. -/
theorem C23_bdf (fd k row col g1 g2 T F : ℝ) (hk : getCmTfactor fd 1 = .ok k) :
    (∀ pars : List ℝ, pars.length ≠ 7 → makeGmixModel pars (.str "bdf") = .error .value) ∧
    (¬ InDisk g1 g2 → makeGmixModel [row, col, g1, g2, T, fd, F] (.str "bdf") = .error .gmixRange) ∧
    (InDisk g1 g2 → ∃ o, makeGmixModel [row, col, g1, g2, T, fd, F] (.str "bdf") = .ok o ∧
      DiskPlusBulge o.data row col g1 g2 T F fd 1) := by
  refine ⟨fun pars hp => ?_, fun hg => ?_, fun hg => ?_⟩
  · simp [makeGmixModel, newGMixModel, num_facts, name_facts, ngauss_facts, npars_facts, Except.bind,
        fillNames, built, fillChecked, resetObj, hp]
  · simp [makeGmixModel, newGMixModel, num_facts, name_facts, ngauss_facts, npars_facts, Except.bind,
        fillNames, built, fillChecked, resetObj, fillObj, fillFunc, fillBdf, hk, g1g2ToE1E2nb_err hg,
        Except.map]
  · have hc := composite_facts row col g1 g2 T F fd 1 k hg ((C23_tfactor fd 1).2.1 k hk)
    refine ⟨⟨.model "bdf", 7, 16, [row, col, g1, g2, T, fd, F], fillComposite row col _ _ (T * k) F fd 1⟩, ?_, hc⟩
    simp [makeGmixModel, newGMixModel, num_facts, name_facts, ngauss_facts, npars_facts, Except.bind,
        fillNames, built, fillChecked, resetObj, fillObj, fillFunc, fillBdf, hk, g1g2ToE1E2nb_closed hg,
        Except.map]

/-- C23, `make_gmix_model(pars, "bd")`, pars `[row, col, g1, g2, T, log10(Td/Te), fracdev, F]`. -/
theorem C23_bd (lT fd k row col g1 g2 T F : ℝ) (hk : getCmTfactor fd (10 ^ lT) = .ok k) :
    (∀ pars : List ℝ, pars.length ≠ 8 → makeGmixModel pars (.str "bd") = .error .value) ∧
    (¬ InDisk g1 g2 → makeGmixModel [row, col, g1, g2, T, lT, fd, F] (.str "bd") = .error .gmixRange) ∧
    (InDisk g1 g2 → ∃ o, makeGmixModel [row, col, g1, g2, T, lT, fd, F] (.str "bd") = .ok o ∧
      DiskPlusBulge o.data row col g1 g2 T F fd (10 ^ lT)) := by
  refine ⟨fun pars hp => ?_, fun hg => ?_, fun hg => ?_⟩
  · simp [makeGmixModel, newGMixModel, num_facts, name_facts, ngauss_facts, npars_facts, Except.bind,
        fillNames, built, fillChecked, resetObj, hp]
  · simp [makeGmixModel, newGMixModel, num_facts, name_facts, ngauss_facts, npars_facts, Except.bind,
        fillNames, built, fillChecked, resetObj, fillObj, fillFunc, fillBd, hk, g1g2ToE1E2nb_err hg,
        Except.map]
  · have hc := composite_facts row col g1 g2 T F fd (10 ^ lT) k hg ((C23_tfactor fd _).2.1 k hk)
    refine ⟨⟨.model "bd", 8, 16, [row, col, g1, g2, T, lT, fd, F],
      fillComposite row col _ _ (T * k) F fd (10 ^ lT)⟩, ?_, hc⟩
    simp [makeGmixModel, newGMixModel, num_facts, name_facts, ngauss_facts, npars_facts, Except.bind,
        fillNames, built, fillChecked, resetObj, fillObj, fillFunc, fillBd, hk, g1g2ToE1E2nb_closed hg,
        Except.map]

/-- C23, `GMixCoellip(pars)`, pars `[row, col, g1, g2, T_1..T_n, F_1..F_n]`: the gaussians have exactly
the listed sizes and fluxes and the common centre and shape. -/
theorem C23_coellip (row col g1 g2 : ℝ) (Ts Fs : List ℝ) (hl : Ts.length = Fs.length) :
    (∀ pars : List ℝ, (newGMixCoellip pars = .error .value ↔ pars.length < 4 ∨ pars.length % 2 = 1)) ∧
    (¬ InDisk g1 g2 → newGMixCoellip (row :: col :: g1 :: g2 :: (Ts ++ Fs)) = .error .gmixRange) ∧
    (InDisk g1 g2 → ∃ o, newGMixCoellip (row :: col :: g1 :: g2 :: (Ts ++ Fs)) = .ok o ∧
      makeGmixModel (row :: col :: g1 :: g2 :: (Ts ++ Fs)) (.str "coellip") = .ok o ∧
      List.Forall₂ (fun tf g => g.p = tf.2 ∧ HasShape g row col g1 g2 tf.1) (Ts.zip Fs) o.data ∧
      Flux o.data = Fs.sum ∧ (∀ m, FluxMean (Ts.zip Fs) m → Centroid o.data row col ∧
        gmGetT o.data = some m ∧ (m ≠ 0 → gmGetG1g2T o.data = some (.ok (g1, g2, m))))) := by
  have hrest : (Ts ++ Fs).length / 2 = Ts.length := by rw [List.length_append]; omega
  have htk : (Ts ++ Fs).take Ts.length = Ts := by simp
  have hdr : (Ts ++ Fs).drop Ts.length = Fs := by simp
  have hc1 : ¬ ((((row :: col :: g1 :: g2 :: (Ts ++ Fs)).length : ℕ) : ℤ) - 4) % 2 ≠ 0 := by
    simp only [List.length_cons, List.length_append]; omega
  have hc2 : ¬ ((((row :: col :: g1 :: g2 :: (Ts ++ Fs)).length : ℕ) : ℤ) - 4) < 0 := by
    simp only [List.length_cons, List.length_append]; omega
  refine ⟨fun pars => ?_, fun hg => ?_, fun hg => ?_⟩
  · constructor
    · intro h
      by_contra hc
      push Not at hc
      unfold newGMixCoellip at h
      simp only at h
      rw [if_neg (by omega), if_neg (by omega)] at h
      match pars, hc.1 with
      | a :: b :: c :: d :: rest, _ =>
        simp only [built, fillObj, resetObj, fillFunc, fillCoellip] at h
        by_cases hd : InDisk c d
        · simp [g1g2ToE1E2nb_closed hd, Except.map] at h
        · simp [g1g2ToE1E2nb_err hd, Except.map] at h
    · intro h
      unfold newGMixCoellip
      simp only
      by_cases ho : ((pars.length : ℤ) - 4) % 2 ≠ 0
      · rw [if_pos ho]
      · rw [if_neg ho, if_pos (by omega)]
  · unfold newGMixCoellip
    simp only
    rw [if_neg hc1, if_neg hc2]
    simp [built, fillObj, resetObj, fillFunc, fillCoellip, g1g2ToE1E2nb_err hg, Except.map]
  · have hall : List.Forall₂ (fun tf g => g.p = tf.2 ∧ HasShape g row col g1 g2 tf.1) (Ts.zip Fs)
        ((Ts.zip Fs).map fun tf => coGauss tf.2 row col (0.5 * tf.1)
          (2 * g1 / (1 + (g1 ^ 2 + g2 ^ 2))) (2 * g2 / (1 + (g1 ^ 2 + g2 ^ 2)))) := by
      rw [List.forall₂_map_right_iff, List.forall₂_same]
      exact fun fp _ => ⟨rfl, coGauss_shape _ _ _ _ _ _ _ rfl⟩
    have hnew : newGMixCoellip (row :: col :: g1 :: g2 :: (Ts ++ Fs)) = .ok ⟨.coellip,
        (row :: col :: g1 :: g2 :: (Ts ++ Fs)).length,
        ((((row :: col :: g1 :: g2 :: (Ts ++ Fs)).length : ℕ) - 4 : ℤ) / 2).toNat,
        row :: col :: g1 :: g2 :: (Ts ++ Fs),
        (Ts.zip Fs).map fun tf => coGauss tf.2 row col (0.5 * tf.1)
          (2 * g1 / (1 + (g1 ^ 2 + g2 ^ 2))) (2 * g2 / (1 + (g1 ^ 2 + g2 ^ 2)))⟩ := by
      unfold newGMixCoellip
      simp only
      rw [if_neg hc1, if_neg hc2]
      simp only [built, fillObj, resetObj, fillFunc, fillCoellip, g1g2ToE1E2nb_closed hg, Except.map, hrest,
        htk, hdr]
    have hmake : makeGmixModel (row :: col :: g1 :: g2 :: (Ts ++ Fs)) (.str "coellip") =
        newGMixCoellip (row :: col :: g1 :: g2 :: (Ts ++ Fs)) := by
      simp [makeGmixModel, num_facts, Except.bind]
    refine ⟨_, hnew, by rw [hmake, hnew], hall, ?_, ?_⟩
    · have hz : (Ts.zip Fs).map (fun x => x.2) = Fs := List.map_snd_zip (by omega)
      show (((Ts.zip Fs).map _).map _).sum = _
      rw [List.map_map]
      conv_rhs => rw [← hz]
      rfl
    · intro m hm
      obtain ⟨-, c2, c3, c4⟩ := co_mixture _ _ row col g1 g2 m hg hall hm
      exact ⟨c2, c3, c4⟩

/-- The hypotheses are met, e.g. by a half bulge. -/
example : ∃ o, makeGmixModel [1, 2, 0.1, -0.3, 4, 0.5, 100] (.str "bdf") = .ok o ∧
    DiskPlusBulge o.data 1 2 0.1 (-0.3) 4 100 0.5 1 := by
  obtain ⟨k, hk, -⟩ := (C23_tfactor 0.5 1).1 (by norm_num) (by norm_num) (by norm_num)
  exact (C23_bdf 0.5 k 1 2 0.1 (-0.3) 4 100 hk).2.2 (by norm_num [InDisk])

example : ∃ o, makeGmixModel [1, 2, 0.1, -0.3, 4, 9, 70, 30] (.str "coellip") = .ok o ∧
    Flux o.data = 100 ∧ gmGetT o.data = some 5.5 := by
  obtain ⟨o, -, h2, -, h3, h4⟩ := (C23_coellip 1 2 0.1 (-0.3) [4, 9] [70, 30] rfl).2.2
    (by norm_num [InDisk])
  refine ⟨o, h2, by rw [h3]; norm_num, (h4 5.5 ?_).2.1⟩
  constructor <;> norm_num

end Ngmix.Props
