import Verif.Spec.GMix
import Verif.Props.GMix
import Verif.Props.Ellip
import Mathlib.Tactic.NormNum.BigOperators

/-!
# Model mixtures: simple (C22), composite (C23), copies (C24), tables (C25)
-/

namespace Ngmix.Props

open Ngmix Ngmix.Spec

/-! ## Coelliptical mixtures in general -/

theorem g1g2ToE1E2nb_closed {g1 g2 : ℝ} (h : InDisk g1 g2) :
    g1g2ToE1E2nb g1 g2 = .ok (2 * g1 / (1 + (g1 ^ 2 + g2 ^ 2)), 2 * g2 / (1 + (g1 ^ 2 + g2 ^ 2))) := by
  have hlt := size_lt_one h
  have hmem := size_mem h
  have hsq := size_sq g1 g2
  unfold g1g2ToE1E2nb
  simp only [not_le.2 hlt, ge_iff_le, if_false]
  by_cases h0 : Real.sqrt (g1 * g1 + g2 * g2) = 0
  · obtain ⟨rfl, rfl⟩ := size_eq_zero h0
    simp
  · simp only [h0, if_false, not_le.2 (Real.tanh_lt_one _)]
    rw [tanh_two_mul', Real.tanh_artanh hmem, hsq]
    have hpos : 0 < 1 + (g1 ^ 2 + g2 ^ 2) := by positivity
    generalize Real.sqrt (g1 * g1 + g2 * g2) = g at *
    congr 2 <;> field_simp

theorem g1g2ToE1E2nb_err {g1 g2 : ℝ} (h : ¬ InDisk g1 g2) : g1g2ToE1E2nb g1 g2 = .error .gmixRange := by
  have hge : Real.sqrt (g1 * g1 + g2 * g2) ≥ 1 := (sqrt_ge_one_iff g1 g2).2 h
  unfold g1g2ToE1E2nb
  simp [hge]

theorem coGauss_shape (F row col g1 g2 T : ℝ) (T2 : ℝ) (h : T2 = 0.5 * T) :
    HasShape (coGauss F row col T2 (2 * g1 / (1 + (g1 ^ 2 + g2 ^ 2))) (2 * g2 / (1 + (g1 ^ 2 + g2 ^ 2))))
      row col g1 g2 T := by
  subst h
  refine ⟨rfl, rfl, ?_, ?_, ?_⟩ <;> simp only [coGauss, gauss2dSet] <;> ring

/-- Flux, centre, size and shape of a mixture of gaussians with common centre and shape. -/
theorem co_mixture (gm : List Gauss) (TF : List (ℝ × ℝ)) (row col g1 g2 m : ℝ) (hg : InDisk g1 g2)
    (h : List.Forall₂ (fun tf g => g.p = tf.2 ∧ HasShape g row col g1 g2 tf.1) TF gm)
    (hm : FluxMean TF m) :
    Flux gm = (TF.map fun x => x.2).sum ∧ Centroid gm row col ∧ gmGetT gm = some m ∧
    (m ≠ 0 → gmGetG1g2T gm = some (.ok (g1, g2, m))) := by
  have sums : ∀ (F : Gauss → ℝ) (G : ℝ × ℝ → ℝ),
      (∀ g tf, g.p = tf.2 → HasShape g row col g1 g2 tf.1 → F g = G tf) →
      (gm.map F).sum = (TF.map G).sum := by
    intro F G hFG
    clear hm
    induction h with
    | nil => rfl
    | cons h1 _ ih =>
      simp only [List.map_cons, List.sum_cons]
      rw [hFG _ _ h1.1 h1.2, ih]
  have hflux : Flux gm = (TF.map fun x => x.2).sum := sums _ _ fun g tf hp _ => hp
  have zeroSum : ∀ l : List (ℝ × ℝ), (l.map fun _ => (0:ℝ)).sum = 0 := by
    intro l; simp
  have hcen : Centroid gm row col := by
    refine ⟨by rw [hflux]; exact hm.1, ?_, ?_⟩
    · rw [sums _ (fun _ => 0) (fun g tf _ hs => by rw [hs.1]; ring), zeroSum]
    · rw [sums _ (fun _ => 0) (fun g tf _ hs => by rw [hs.2.1]; ring), zeroSum]
  have hmom : SecondMoments gm (m * (1 - 2 * g1 / (1 + (g1 ^ 2 + g2 ^ 2))) / 2)
      (m * (2 * g2 / (1 + (g1 ^ 2 + g2 ^ 2))) / 2)
      (m * (1 + 2 * g1 / (1 + (g1 ^ 2 + g2 ^ 2))) / 2) := by
    refine ⟨row, col, hcen, ?_, ?_, ?_⟩
    · rw [sums _ (fun tf => tf.2 * tf.1 * ((1 - 2 * g1 / (1 + (g1 ^ 2 + g2 ^ 2))) / 2)),
        List.sum_map_mul_right, hm.2, hflux]
      · ring
      · rintro g tf hp ⟨h1, h2, h3, h4, -⟩
        rw [hp, h1, show g.irr = (tf.1 - tf.1 * (2 * g1 / (1 + (g1 ^ 2 + g2 ^ 2)))) / 2 by
          linarith]
        ring
    · rw [sums _ (fun tf => tf.2 * tf.1 * ((2 * g2 / (1 + (g1 ^ 2 + g2 ^ 2))) / 2)),
        List.sum_map_mul_right, hm.2, hflux]
      · ring
      · rintro g tf hp ⟨h1, h2, -, -, h5⟩
        rw [hp, h1, show g.irc = (tf.1 * (2 * g2 / (1 + (g1 ^ 2 + g2 ^ 2)))) / 2 by linarith]
        ring
    · rw [sums _ (fun tf => tf.2 * tf.1 * ((1 + 2 * g1 / (1 + (g1 ^ 2 + g2 ^ 2))) / 2)),
        List.sum_map_mul_right, hm.2, hflux]
      · ring
      · rintro g tf hp ⟨h1, h2, h3, h4, -⟩
        rw [hp, h2, show g.icc = (tf.1 + tf.1 * (2 * g1 / (1 + (g1 ^ 2 + g2 ^ 2)))) / 2 by
          linarith]
        ring
  obtain ⟨hT, hE⟩ := C18_size_and_shape gm _ _ _ hmom
  have hTm : m * (1 - 2 * g1 / (1 + (g1 ^ 2 + g2 ^ 2))) / 2 +
      m * (1 + 2 * g1 / (1 + (g1 ^ 2 + g2 ^ 2))) / 2 = m := by ring
  refine ⟨hflux, hcen, by rw [hT, hTm], ?_⟩
  intro hm0
  rw [hTm] at hE
  have hE := hE hm0
  rw [gmGetG1g2T, hE]
  have hge := C05_g_e_g g1 g2 hg
  rw [g1g2ToE1E2_closed hg] at hge
  simp only [Option.map_some]
  have e1 : (m * (1 + 2 * g1 / (1 + (g1 ^ 2 + g2 ^ 2))) / 2 - m * (1 - 2 * g1 / (1 + (g1 ^ 2 + g2 ^ 2))) / 2) / m
      = 2 * g1 / (1 + (g1 ^ 2 + g2 ^ 2)) := by
    rw [div_eq_iff hm0]; ring
  have e2 : 2 * (m * (2 * g2 / (1 + (g1 ^ 2 + g2 ^ 2))) / 2) / m = 2 * g2 / (1 + (g1 ^ 2 + g2 ^ 2)) := by
    rw [div_eq_iff hm0]; ring
  rw [e1, e2]
  have hge' : e1e2ToG1G2 (2 * g1 / (1 + (g1 ^ 2 + g2 ^ 2))) (2 * g2 / (1 + (g1 ^ 2 + g2 ^ 2))) =
      .ok (g1, g2) := hge
  rw [hge']
  rfl

/-! ## C22 -/

/-- C22: a simple fill raises GMixRangeError exactly for a shape outside the unit disk; otherwise the
`i`-th gaussian has flux `F p_i`, size `T f_i`, the requested centre and exactly the requested shape, and
a current determinant. -/
theorem C22_fill_simple (fvals pvals : List ℝ) (row col g1 g2 T F : ℝ) :
    (¬ InDisk g1 g2 → fillSimple fvals pvals row col g1 g2 T F = .error .gmixRange) ∧
    (InDisk g1 g2 → ∃ gm, fillSimple fvals pvals row col g1 g2 T F = .ok gm ∧
      List.Forall₂ (fun fp g => g.p = F * fp.2 ∧ HasShape g row col g1 g2 (T * fp.1) ∧ DetCurrent g ∧
        g.normSet = false) (fvals.zip pvals) gm) := by
  constructor
  · intro h
    simp [fillSimple, g1g2ToE1E2nb_err h, Except.map]
  · intro h
    refine ⟨_, by simp only [fillSimple, g1g2ToE1E2nb_closed h, Except.map]; rfl, ?_⟩
    rw [List.forall₂_map_right_iff, List.forall₂_same]
    intro fp _
    exact ⟨rfl, coGauss_shape _ _ _ _ _ _ _ (by ring), rfl, rfl⟩

/-- The simple models and their tables. -/
def simpleTables : List (String × List ℝ × List ℝ) :=
  [("gauss", fvalsGauss, pvalsGauss), ("turb", fvalsTurb, pvalsTurb), ("exp", fvalsExp, pvalsExp),
   ("dev", fvalsDev, pvalsDev)]

/-- C22: in every tabulated model the fluxes add to one and the flux-weighted sizes add to one, up to
1e-14. -/
theorem C22_tables (name : String) (fvals pvals : List ℝ) (h : (name, fvals, pvals) ∈ simpleTables) :
    fvals.length = pvals.length ∧ |pvals.sum - 1| ≤ 1e-14 ∧
    |((fvals.zip pvals).map fun fp => fp.2 * fp.1).sum - 1| ≤ 1e-14 ∧
    (∀ f ∈ fvals, 0 < f) ∧ (∀ p ∈ pvals, 0 < p) := by
  simp only [simpleTables, List.mem_cons, Prod.mk.injEq, List.not_mem_nil, or_false] at h
  rcases h with ⟨-, rfl, rfl⟩ | ⟨-, rfl, rfl⟩ | ⟨-, rfl, rfl⟩ | ⟨-, rfl, rfl⟩
  · refine ⟨rfl, ?_, ?_, ?_, ?_⟩ <;> norm_num [fvalsGauss, pvalsGauss]
  · refine ⟨rfl, ?_, ?_, ?_, ?_⟩ <;> norm_num [fvalsTurb, pvalsTurb, abs_le]
  · refine ⟨rfl, ?_, ?_, ?_, ?_⟩ <;> norm_num [fvalsExp, pvalsExp, abs_le]
  · refine ⟨rfl, ?_, ?_, ?_, ?_⟩ <;> norm_num [fvalsDev, pvalsDev, abs_le]

/-- Facts about the tables. -/
theorem num_facts : getModelNum (.str "gauss") = .ok 1 ∧ getModelNum (.str "turb") = .ok 2 ∧
    getModelNum (.str "exp") = .ok 3 ∧ getModelNum (.str "dev") = .ok 4 ∧ getModelNum (.str "bdc") = .ok 5 ∧
    getModelNum (.str "bdf") = .ok 6 ∧ getModelNum (.str "coellip") = .ok 7 ∧
    getModelNum (.str "cm") = .ok 9 ∧ getModelNum (.str "bd") = .ok 10 ∧
    getModelNum (.str "full") = .ok 0 ∧ getModelNum (.num 0) = .ok 0 ∧
    getModelNum (.num 1) = .ok 1 ∧ getModelNum (.num 2) = .ok 2 ∧ getModelNum (.num 3) = .ok 3 ∧
    getModelNum (.num 4) = .ok 4 ∧ getModelNum (.num 5) = .ok 5 ∧ getModelNum (.num 6) = .ok 6 ∧
    getModelNum (.num 7) = .ok 7 ∧
    getModelNum (.num 9) = .ok 9 ∧ getModelNum (.num 10) = .ok 10 := by
  refine ⟨rfl, rfl, rfl, rfl, rfl, rfl, rfl, rfl, rfl, rfl, rfl, rfl, rfl, rfl, rfl, rfl, rfl, rfl, rfl, rfl⟩

theorem name_facts : getModelName (.num 1) = .ok "gauss" ∧ getModelName (.num 2) = .ok "turb" ∧
    getModelName (.num 3) = .ok "exp" ∧ getModelName (.num 4) = .ok "dev" ∧
    getModelName (.num 5) = .ok "bdc" ∧ getModelName (.num 6) = .ok "bdf" ∧
    getModelName (.num 9) = .ok "cm" ∧ getModelName (.num 10) = .ok "bd" := by
  refine ⟨rfl, rfl, rfl, rfl, rfl, rfl, rfl, rfl⟩

theorem ngauss_facts : getModelNgauss (.num 1) = .ok 1 ∧ getModelNgauss (.num 2) = .ok 3 ∧
    getModelNgauss (.num 3) = .ok 6 ∧ getModelNgauss (.num 4) = .ok 10 ∧
    getModelNgauss (.num 5) = .ok 16 ∧ getModelNgauss (.num 6) = .ok 16 ∧
    getModelNgauss (.num 9) = .ok 16 ∧ getModelNgauss (.num 10) = .ok 16 := by
  refine ⟨rfl, rfl, rfl, rfl, rfl, rfl, rfl, rfl⟩

theorem npars_facts : getModelNpars (.num 1) = .ok 6 ∧ getModelNpars (.num 2) = .ok 6 ∧
    getModelNpars (.num 3) = .ok 6 ∧ getModelNpars (.num 4) = .ok 6 ∧
    getModelNpars (.num 5) = .ok 8 ∧ getModelNpars (.num 6) = .ok 7 ∧
    getModelNpars (.num 9) = .ok 6 ∧ getModelNpars (.num 10) = .ok 8 := by
  refine ⟨rfl, rfl, rfl, rfl, rfl, rfl, rfl, rfl⟩

/-- `make_gmix_model(pars, name)` for a simple model is the fill of its table, with six parameters. -/
theorem make_simple (name : String) (fvals pvals : List ℝ) (h : (name, fvals, pvals) ∈ simpleTables)
    (row col g1 g2 T F : ℝ) :
    (∀ pars : List ℝ, pars.length ≠ 6 → makeGmixModel pars (.str name) = .error .value) ∧
    (∀ e, fillSimple fvals pvals row col g1 g2 T F = .error e →
      makeGmixModel [row, col, g1, g2, T, F] (.str name) = .error e) ∧
    (∀ gm, fillSimple fvals pvals row col g1 g2 T F = .ok gm →
      ∃ o, makeGmixModel [row, col, g1, g2, T, F] (.str name) = .ok o ∧ o.data = gm ∧
        o.kind = .model name ∧ o.pars = [row, col, g1, g2, T, F]) := by
  simp only [simpleTables, List.mem_cons, Prod.mk.injEq, List.not_mem_nil, or_false] at h
  have hlen : ([row, col, g1, g2, T, F] : List ℝ).length = 6 := rfl
  rcases h with ⟨rfl, rfl, rfl⟩ | ⟨rfl, rfl, rfl⟩ | ⟨rfl, rfl, rfl⟩ | ⟨rfl, rfl, rfl⟩
  all_goals
    refine ⟨fun pars hp => ?_, fun e he => ?_, fun gm hgm => ?_⟩
    · simp [makeGmixModel, newGMixModel, num_facts, name_facts, ngauss_facts, npars_facts, Except.bind,
        fillNames, built, fillChecked, resetObj, hp]
    · simp [makeGmixModel, newGMixModel, num_facts, name_facts, ngauss_facts, npars_facts, Except.bind,
        fillNames, built, fillChecked, resetObj, fillObj, fillFunc, he]
    · simp [makeGmixModel, newGMixModel, num_facts, name_facts, ngauss_facts, npars_facts, Except.bind,
        fillNames, built, fillChecked, resetObj, fillObj, fillFunc, hgm]

/-- C22 at the API: a simple model is rejected with ValueError for a wrong number of parameters and
with GMixRangeError for a shape outside the disk, and otherwise has the requested centre, the requested
shape exactly, and flux and size within 1e-13 of the requested ones. -/
theorem C22_model (name : String) (fvals pvals : List ℝ) (h : (name, fvals, pvals) ∈ simpleTables)
    (row col g1 g2 T F : ℝ) :
    (∀ pars : List ℝ, pars.length ≠ 6 → makeGmixModel pars (.str name) = .error .value) ∧
    (¬ InDisk g1 g2 → makeGmixModel [row, col, g1, g2, T, F] (.str name) = .error .gmixRange) ∧
    (InDisk g1 g2 → ∃ o, makeGmixModel [row, col, g1, g2, T, F] (.str name) = .ok o ∧
      o.data.length = pvals.length ∧
      (∀ g ∈ o.data, ∃ Ti, HasShape g row col g1 g2 Ti) ∧
      |Flux o.data - F| ≤ 1e-13 * |F| ∧
      (F ≠ 0 → Centroid o.data row col ∧ ∃ T', gmGetT o.data = some T' ∧ |T' - T| ≤ 1e-13 * |T| ∧
        (T ≠ 0 → gmGetG1g2T o.data = some (.ok (g1, g2, T'))))) := by
  obtain ⟨m1, m2, m3⟩ := make_simple name fvals pvals h row col g1 g2 T F
  obtain ⟨f1, f2⟩ := C22_fill_simple fvals pvals row col g1 g2 T F
  obtain ⟨t0, t1, t2, t3, t4⟩ := C22_tables name fvals pvals h
  refine ⟨m1, fun hg => m2 _ (f1 hg), fun hg => ?_⟩
  obtain ⟨gm, hgm, hall⟩ := f2 hg
  obtain ⟨o, ho, rfl, -, -⟩ := m3 gm hgm
  set TF := (fvals.zip pvals).map fun fp => (T * fp.1, F * fp.2) with hTF
  have hall' : List.Forall₂ (fun tf g => g.p = tf.2 ∧ HasShape g row col g1 g2 tf.1) TF o.data := by
    rw [hTF, List.forall₂_map_left_iff]
    exact hall.imp fun _ _ hh => ⟨hh.1, hh.2.1⟩
  have s1 : (TF.map fun x => x.2).sum = F * pvals.sum := by
    rw [hTF, List.map_map]
    simp only [Function.comp_def, List.sum_map_mul_left]
    have : (fvals.zip pvals).map (fun i => i.2) = pvals := by
      have := List.map_snd_zip (l₁ := fvals) (l₂ := pvals) (by omega)
      exact this
    rw [this]
  have s2 : (TF.map fun x => x.2 * x.1).sum = F * T * ((fvals.zip pvals).map fun fp => fp.2 * fp.1).sum := by
    rw [hTF, List.map_map, ← List.sum_map_mul_left]
    congr 1
    refine List.map_congr_left fun a _ => ?_
    simp only [Function.comp_def]
    ring
  have hfl : Flux o.data = F * pvals.sum := by
    rw [← s1]
    have : ∀ (TF : List (ℝ × ℝ)) (gm : List Gauss),
        List.Forall₂ (fun tf g => g.p = tf.2 ∧ HasShape g row col g1 g2 tf.1) TF gm →
        Flux gm = (TF.map fun x => x.2).sum := by
      intro TF gm hh
      induction hh with
      | nil => rfl
      | cons h1 _ ih =>
        simp only [Flux, List.map_cons, List.sum_cons] at ih ⊢
        rw [h1.1, ih]
    exact this _ _ hall'
  set A := pvals.sum
  set B := ((fvals.zip pvals).map fun fp => fp.2 * fp.1).sum
  have hA := abs_le.mp t1
  have hB := abs_le.mp t2
  have hA0 : (0:ℝ) < A := by norm_num at hA; linarith
  refine ⟨o, ho, ?_, ?_, ?_, ?_⟩
  · rw [← hall.length_eq]; simp [t0]
  · intro g hgo
    obtain ⟨i, hi, rfl⟩ := List.getElem_of_mem hgo
    exact ⟨_, ((List.forall₂_iff_get.mp hall').2 i (by rw [hall'.length_eq]; exact hi) hi).2⟩
  · rw [hfl, show F * A - F = (A - 1) * F by ring, abs_mul]
    exact mul_le_mul_of_nonneg_right (le_trans t1 (by norm_num)) (abs_nonneg _)
  · intro hF
    have hm : FluxMean TF (T * B / A) := by
      refine ⟨by rw [s1]; exact mul_ne_zero hF hA0.ne', ?_⟩
      rw [s1, s2]
      field_simp
    obtain ⟨-, c2, c3, c4⟩ := co_mixture o.data TF row col g1 g2 _ hg hall' hm
    refine ⟨c2, _, c3, ?_, fun hT => c4 ?_⟩
    · rw [show T * B / A - T = (B - A) / A * T by field_simp, abs_mul]
      refine mul_le_mul_of_nonneg_right ?_ (abs_nonneg _)
      rw [abs_div, abs_of_pos hA0, div_le_iff₀ hA0, abs_le]
      norm_num at hA hB ⊢
      constructor <;> linarith
    · have : (0:ℝ) < B := by norm_num at hB; linarith
      exact div_ne_zero (mul_ne_zero hT this.ne') hA0.ne'

/-- A non-trivial case: an elliptical exponential. -/
example : ∃ o, makeGmixModel [1, 2, 0.1, -0.3, 4, 100] (.str "exp") = .ok o ∧ o.data.length = 6 ∧
    |Flux o.data - 100| ≤ 1e-11 := by
  obtain ⟨-, -, h⟩ := C22_model "exp" fvalsExp pvalsExp (by simp [simpleTables]) 1 2 0.1 (-0.3) 4 100
  obtain ⟨o, h1, h2, -, h3, -⟩ := h (by norm_num [InDisk])
  refine ⟨o, h1, h2, le_trans h3 ?_⟩
  norm_num

end Ngmix.Props
