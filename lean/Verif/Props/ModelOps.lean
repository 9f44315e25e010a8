import Verif.Props.Round

/-!
# Sheared and rounded models are models (C117)
-/

namespace Ngmix.Props

open Ngmix Ngmix.Spec

noncomputable section

/-- The gaussians of a model are scaled copies of each other. -/
theorem fillFunc_form (kind : GKind) (hk : kind ≠ .coellip) (hf : kind ≠ .full) (row col g1 g2 T : ℝ) (rest : List ℝ) (d : List Gauss)
    (h : fillFunc kind (row :: col :: g1 :: g2 :: T :: rest) = .ok d) :
    ∃ L : List (ℝ × ℝ), ∀ g1' g2' T', fillFunc kind (row :: col :: g1' :: g2' :: T' :: rest) =
      (g1g2ToE1E2nb g1' g2').map fun e => L.map fun pf => coGauss pf.1 row col (T' * pf.2) e.1 e.2 := by
  have simp_case : ∀ (fvals pvals : List ℝ) (F : ℝ), ∃ L : List (ℝ × ℝ), ∀ g1' g2' T',
      fillSimple fvals pvals row col g1' g2' T' F =
      (g1g2ToE1E2nb g1' g2').map fun e => L.map fun pf => coGauss pf.1 row col (T' * pf.2) e.1 e.2 := by
    intro fvals pvals F
    refine ⟨(fvals.zip pvals).map fun fp => (F * fp.2, 0.5 * fp.1), fun g1' g2' T' => ?_⟩
    unfold fillSimple
    congr 1
    funext e
    rw [List.map_map]
    apply List.map_congr_left
    intro fp _
    simp only [Function.comp]
    congr 1
    ring
  have comp_case : ∀ k F fd Td : ℝ, ∃ L : List (ℝ × ℝ), ∀ g1' g2' T',
      ((g1g2ToE1E2nb g1' g2').map fun e => fillComposite row col e.1 e.2 (T' * k) F fd Td) =
      (g1g2ToE1E2nb g1' g2').map fun e => L.map fun pf => coGauss pf.1 row col (T' * pf.2) e.1 e.2 := by
    intro k F fd Td
    refine ⟨(List.range 16).map fun i =>
      (F * (if i < 6 then pvalsExp.getD i 0 * (1 - fd) else pvalsDev.getD (i - 6) 0 * fd),
       0.5 * k * (if i < 6 then fvalsExp.getD i 0 else fvalsDev.getD (i - 6) 0 * Td)), fun g1' g2' T' => ?_⟩
    congr 1
    funext e
    unfold fillComposite
    rw [List.map_map]
    apply List.map_congr_left
    intro i _
    simp only [Function.comp]
    congr 1
    ring
  unfold fillFunc at h
  split at h
  · exact absurd rfl hf
  · exact absurd rfl hk
  · rename_i heq
    simp only [List.cons.injEq] at heq
    obtain ⟨rfl, rfl, rfl, rfl, rfl, rfl⟩ := heq
    exact simp_case _ _ _
  · rename_i heq
    simp only [List.cons.injEq] at heq
    obtain ⟨rfl, rfl, rfl, rfl, rfl, rfl⟩ := heq
    exact simp_case _ _ _
  · rename_i heq
    simp only [List.cons.injEq] at heq
    obtain ⟨rfl, rfl, rfl, rfl, rfl, rfl⟩ := heq
    exact simp_case _ _ _
  · rename_i heq
    simp only [List.cons.injEq] at heq
    obtain ⟨rfl, rfl, rfl, rfl, rfl, rfl⟩ := heq
    exact simp_case _ _ _
  · rename_i heq
    simp only [List.cons.injEq] at heq
    obtain ⟨rfl, rfl, rfl, rfl, rfl, rfl⟩ := heq
    unfold fillBd at h
    rename_i lT fd F
    rcases hk' : getCmTfactor fd (10 ^ lT) with e | k
    · simp only [hk', Except.bind] at h
      cases h
    · obtain ⟨L, hL⟩ := comp_case k F fd (10 ^ lT)
      refine ⟨L, fun g1' g2' T' => ?_⟩
      rw [← hL]
      simp only [fillFunc, fillBd, hk', Except.bind]
  · rename_i heq
    simp only [List.cons.injEq] at heq
    obtain ⟨rfl, rfl, rfl, rfl, rfl, rfl⟩ := heq
    unfold fillBdf at h
    rename_i fd F
    rcases hk' : getCmTfactor fd 1 with e | k
    · simp only [hk', Except.bind] at h
      cases h
    · obtain ⟨L, hL⟩ := comp_case k F fd 1
      refine ⟨L, fun g1' g2' T' => ?_⟩
      rw [← hL]
      simp only [fillFunc, fillBdf, hk', Except.bind]
  · rename_i heq
    simp only [List.cons.injEq] at heq
    obtain ⟨rfl, rfl, rfl, rfl, rfl, rfl⟩ := heq
    exact comp_case _ _ _ _
  · cases h
  · cases h

/-- The factor by which a shear changes the size of an object with a shape. -/
def sizeFactor (g1 g2 s1 s2 : ℝ) : ℝ := getT (getTround 1 g1 g2) (shearReduced g1 g2 s1 s2).1 (shearReduced g1 g2 s1 s2).2

theorem size_factor (g1 g2 s1 s2 T : ℝ) :
    getT (getTround T g1 g2) (shearReduced g1 g2 s1 s2).1 (shearReduced g1 g2 s1 s2).2 = T * sizeFactor g1 g2 s1 s2 := by
  unfold sizeFactor getT getTround
  ring

theorem shear_co_moms (g1 g2 s1 s2 t : ℝ) (hg : InDisk g1 g2) (hs : InDisk s1 s2) :
    shearedMoms s1 s2 (t * (1 - 2 * g1 / (1 + (g1 ^ 2 + g2 ^ 2)))) (t * (2 * g2 / (1 + (g1 ^ 2 + g2 ^ 2))))
        (t * (1 + 2 * g1 / (1 + (g1 ^ 2 + g2 ^ 2)))) =
      (t * sizeFactor g1 g2 s1 s2 * (1 - 2 * (shearReduced g1 g2 s1 s2).1 /
          (1 + ((shearReduced g1 g2 s1 s2).1 ^ 2 + (shearReduced g1 g2 s1 s2).2 ^ 2))),
       t * sizeFactor g1 g2 s1 s2 * (2 * (shearReduced g1 g2 s1 s2).2 /
          (1 + ((shearReduced g1 g2 s1 s2).1 ^ 2 + (shearReduced g1 g2 s1 s2).2 ^ 2))),
       t * sizeFactor g1 g2 s1 s2 * (1 + 2 * (shearReduced g1 g2 s1 s2).1 /
          (1 + ((shearReduced g1 g2 s1 s2).1 ^ 2 + (shearReduced g1 g2 s1 s2).2 ^ 2)))) := by
  obtain ⟨-, c1, c2, c3⟩ := sheared_core g1 g2 t s1 s2 hg hs
  simp only [size_factor] at c1 c2 c3
  have hP : 1 + (g1 ^ 2 + g2 ^ 2) ≠ 0 := by positivity
  have hk : 1 - (s1 ^ 2 + s2 ^ 2) ≠ 0 := by unfold InDisk at hs; linarith
  generalize t * sizeFactor g1 g2 s1 s2 = A at c1 c2 c3 ⊢
  generalize 2 * (shearReduced g1 g2 s1 s2).1 / (1 + ((shearReduced g1 g2 s1 s2).1 ^ 2 + (shearReduced g1 g2 s1 s2).2 ^ 2)) = E1
    at c2 ⊢
  generalize 2 * (shearReduced g1 g2 s1 s2).2 / (1 + ((shearReduced g1 g2 s1 s2).1 ^ 2 + (shearReduced g1 g2 s1 s2).2 ^ 2)) = E2
    at c3 ⊢
  rw [show A * (1 - E1) = A - A * E1 by ring, show A * (1 + E1) = A + A * E1 by ring, c2, c3, c1]
  clear c1 c2 c3
  simp only [shearedMoms, Prod.mk.injEq]
  refine ⟨?_, ?_, ?_⟩ <;> field_simp <;> ring

/-- The shear of a list of gaussians of one shape. -/
theorem shear_co (L : List (ℝ × ℝ)) (row col g1 g2 s1 s2 : ℝ) (hg : InDisk g1 g2) (hs : InDisk s1 s2)
    (hpos : ∀ pt ∈ L, 0 < pt.2) :
    shearData s1 s2 (L.map fun pt => coGauss pt.1 row col pt.2 (2 * g1 / (1 + (g1 ^ 2 + g2 ^ 2))) (2 * g2 / (1 + (g1 ^ 2 + g2 ^ 2)))) =
      .ok (L.map fun pt => coGauss pt.1 row col (pt.2 * sizeFactor g1 g2 s1 s2)
        (2 * (shearReduced g1 g2 s1 s2).1 / (1 + ((shearReduced g1 g2 s1 s2).1 ^ 2 + (shearReduced g1 g2 s1 s2).2 ^ 2)))
        (2 * (shearReduced g1 g2 s1 s2).2 / (1 + ((shearReduced g1 g2 s1 s2).1 ^ 2 + (shearReduced g1 g2 s1 s2).2 ^ 2)))) := by
  rw [shearData_ok s1 s2 hs]
  · rw [List.map_map]
    congr 1
    apply List.map_congr_left
    intro pt _
    have h := shear_co_moms g1 g2 s1 s2 pt.2 hg hs
    simp only [Function.comp, shearedG, coGauss, gauss2dSet, h]
  · intro g hgm
    obtain ⟨pt, hpt, rfl⟩ := List.mem_map.1 hgm
    have ht := hpos pt hpt
    have hg' : g1 ^ 2 + g2 ^ 2 < 1 := hg
    have hP : 0 < 1 + (g1 ^ 2 + g2 ^ 2) := by positivity
    have hd : 1 - (2 * g1 / (1 + (g1 ^ 2 + g2 ^ 2))) ^ 2 - (2 * g2 / (1 + (g1 ^ 2 + g2 ^ 2))) ^ 2 =
        ((1 - (g1 ^ 2 + g2 ^ 2)) / (1 + (g1 ^ 2 + g2 ^ 2))) ^ 2 := by
      field_simp
      ring
    have hd0 : 0 < ((1 - (g1 ^ 2 + g2 ^ 2)) / (1 + (g1 ^ 2 + g2 ^ 2))) ^ 2 :=
      pow_pos (div_pos (by linarith) hP) 2
    have habs := (sq_lt_one_iff_abs_lt_one _).1 (show (2 * g1 / (1 + (g1 ^ 2 + g2 ^ 2))) ^ 2 < 1 by
      nlinarith [sq_nonneg (2 * g2 / (1 + (g1 ^ 2 + g2 ^ 2)))])
    obtain ⟨h1, h2⟩ := abs_lt.1 habs
    simp only [coGauss, gauss2dSet]
    refine ⟨mul_pos ht (by linarith), mul_pos ht (by linarith), ?_⟩
    have : pt.2 * (1 - 2 * g1 / (1 + (g1 ^ 2 + g2 ^ 2))) * (pt.2 * (1 + 2 * g1 / (1 + (g1 ^ 2 + g2 ^ 2)))) -
        (pt.2 * (2 * g2 / (1 + (g1 ^ 2 + g2 ^ 2)))) ^ 2 =
        pt.2 ^ 2 * (1 - (2 * g1 / (1 + (g1 ^ 2 + g2 ^ 2))) ^ 2 - (2 * g2 / (1 + (g1 ^ 2 + g2 ^ 2))) ^ 2) := by ring
    rw [this, hd]
    positivity

theorem fill_inDisk {g1 g2 : ℝ} {L : List Gauss} {F : ℝ × ℝ → List Gauss} (h : (g1g2ToE1E2nb g1 g2).map F = .ok L) : InDisk g1 g2 := by
  by_contra hg
  rw [g1g2ToE1E2nb_err hg] at h
  cases h

theorem coGauss_size (p row col t e1 e2 : ℝ) : (coGauss p row col t e1 e2).irr + (coGauss p row col t e1 e2).icc = 2 * t := by
  simp only [coGauss, gauss2dSet]
  ring

theorem fillChecked_ok (o : GMixObj) (pars : List ℝ) (d : List Gauss) (hl : pars.length = o.npars) (hf : fillFunc o.kind pars = .ok d) :
    fillChecked o pars = ({ o with pars := pars, data := d }, .ok ()) := by
  unfold fillChecked
  rw [if_neg (by simp [hl])]
  unfold fillObj
  simp only [hf]

theorem getShearedObj_ok (o : GMixObj) (h : ModelReach o) (s1 s2 : ℝ) (d : List Gauss) (hs : shearData s1 s2 o.data = .ok d) :
    getShearedObj o s1 s2 = .ok { o with data := d } := by
  unfold getShearedObj
  rw [C24_copy o h]
  simp only [Except.bind, hs, Except.map]

/-- C117.  The shear of a model mixture (gauss, turb, exp, dev, cm, bd, bdf; any history of fills and moves; gaussians of
positive size) has the gaussians that filling the model with the sheared shape and size would give, the other parameters
unchanged. -/
theorem C117_sheared (o : GMixObj) (h : ModelReach o) (hk : o.kind ≠ .coellip) (row col g1 g2 T : ℝ) (rest : List ℝ)
    (hp : o.pars = row :: col :: g1 :: g2 :: T :: rest) (hpos : ∀ g ∈ o.data, 0 < g.irr + g.icc)
    (s1 s2 : ℝ) (hs : InDisk s1 s2) :
    ∃ h1 h2 T' o' r, getShearedG1G2T g1 g2 T s1 s2 = .ok (h1, h2, T') ∧
      fillChecked o (row :: col :: h1 :: h2 :: T' :: rest) = (o', .ok ()) ∧
      getShearedObj o s1 s2 = .ok r ∧ r.data = o'.data := by
  obtain ⟨hko, hlen, hfill⟩ := reach_synced o h
  have hkf : o.kind ≠ .full := by
    intro hf
    rw [KindOK, hf] at hko
    exact hko
  rw [hp] at hfill hlen
  obtain ⟨L, hL⟩ := fillFunc_form o.kind hk hkf row col g1 g2 T rest o.data hfill
  rw [hL] at hfill
  have hg := fill_inDisk hfill
  rw [g1g2ToE1E2nb_closed hg] at hfill
  simp only [Except.map, Except.ok.injEq] at hfill
  have hgs := shear_inDisk hg hs
  have hposL : ∀ pt ∈ L.map (fun pf : ℝ × ℝ => (pf.1, T * pf.2)), 0 < pt.2 := by
    intro pt hpt
    obtain ⟨pf, hpf, rfl⟩ := List.mem_map.1 hpt
    have := hpos _ (by rw [← hfill]; exact List.mem_map.2 ⟨pf, hpf, rfl⟩)
    rw [coGauss_size] at this
    simp only
    linarith
  have hsh := shear_co (L.map fun pf => (pf.1, T * pf.2)) row col g1 g2 s1 s2 hg hs hposL
  rw [List.map_map, List.map_map] at hsh
  change shearData s1 s2 (L.map fun pf => coGauss pf.1 row col (T * pf.2) (2 * g1 / (1 + (g1 ^ 2 + g2 ^ 2))) (2 * g2 / (1 + (g1 ^ 2 + g2 ^ 2)))) = _ at hsh
  rw [hfill] at hsh
  have hf2 : fillFunc o.kind (row :: col :: (shearReduced g1 g2 s1 s2).1 :: (shearReduced g1 g2 s1 s2).2 ::
      (T * sizeFactor g1 g2 s1 s2) :: rest) = .ok (L.map fun pf => coGauss pf.1 row col (T * pf.2 * sizeFactor g1 g2 s1 s2)
        (2 * (shearReduced g1 g2 s1 s2).1 / (1 + ((shearReduced g1 g2 s1 s2).1 ^ 2 + (shearReduced g1 g2 s1 s2).2 ^ 2)))
        (2 * (shearReduced g1 g2 s1 s2).2 / (1 + ((shearReduced g1 g2 s1 s2).1 ^ 2 + (shearReduced g1 g2 s1 s2).2 ^ 2)))) := by
    rw [hL, g1g2ToE1E2nb_closed hgs]
    simp only [Except.map, Except.ok.injEq]
    apply List.map_congr_left
    intro pf _
    congr 1
    ring
  have hfc := fillChecked_ok o _ _ (by rw [← hlen]; simp) hf2
  rw [← size_factor] at hfc
  refine ⟨_, _, _, _, _, shearedG_ok g1 g2 T s1 s2 hg hs, hfc, getShearedObj_ok o h s1 s2 _ hsh, ?_⟩
  apply List.map_congr_left
  intro pf _
  simp only [Function.comp]

/-- C117.  The same for GMixCoellip: each of its sizes is sheared. -/
theorem C117_sheared_coellip (o : GMixObj) (h : ModelReach o) (hk : o.kind = .coellip) (row col g1 g2 : ℝ) (Ts Fs : List ℝ)
    (hl : Ts.length = Fs.length) (hp : o.pars = row :: col :: g1 :: g2 :: (Ts ++ Fs)) (hpos : ∀ T ∈ Ts, 0 < T)
    (s1 s2 : ℝ) (hs : InDisk s1 s2) :
    ∃ h1 h2 Ts' o' r, List.Forall₂ (fun T T' => getShearedG1G2T g1 g2 T s1 s2 = .ok (h1, h2, T')) Ts Ts' ∧
      fillChecked o (row :: col :: h1 :: h2 :: (Ts' ++ Fs)) = (o', .ok ()) ∧
      getShearedObj o s1 s2 = .ok r ∧ r.data = o'.data := by
  obtain ⟨hko, hlen, hfill⟩ := reach_synced o h
  rw [hp] at hfill hlen
  have form : ∀ (g1' g2' : ℝ) (Ts' : List ℝ), Ts'.length = Fs.length →
      fillFunc .coellip (row :: col :: g1' :: g2' :: (Ts' ++ Fs)) = fillCoellip row col g1' g2' (Ts'.zip Fs) := by
    intro g1' g2' Ts' hl'
    have hr : (Ts' ++ Fs).length / 2 = Ts'.length := by rw [List.length_append]; omega
    simp only [fillFunc, hr]
    simp
  rw [hk, form g1 g2 Ts hl] at hfill
  unfold fillCoellip at hfill
  have hg := fill_inDisk hfill
  rw [g1g2ToE1E2nb_closed hg] at hfill
  simp only [Except.map, Except.ok.injEq] at hfill
  have hgs := shear_inDisk hg hs
  have hsh := shear_co ((Ts.zip Fs).map fun tf => (tf.2, 0.5 * tf.1)) row col g1 g2 s1 s2 hg hs (by
    intro pt hpt
    obtain ⟨tf, htf, rfl⟩ := List.mem_map.1 hpt
    have := hpos _ (List.of_mem_zip htf).1
    simp only
    linarith)
  rw [List.map_map, List.map_map] at hsh
  change shearData s1 s2 ((Ts.zip Fs).map fun tf => coGauss tf.2 row col (0.5 * tf.1) (2 * g1 / (1 + (g1 ^ 2 + g2 ^ 2))) (2 * g2 / (1 + (g1 ^ 2 + g2 ^ 2)))) = _ at hsh
  rw [hfill] at hsh
  refine ⟨_, _, Ts.map fun T => T * sizeFactor g1 g2 s1 s2, _, _, ?_,
    fillChecked_ok o _ _ (by rw [← hlen]; simp) (by
      rw [hk, form _ _ (Ts.map fun T => T * sizeFactor g1 g2 s1 s2) (by simpa using hl), fillCoellip, g1g2ToE1E2nb_closed hgs]
      rfl), getShearedObj_ok o h s1 s2 _ hsh, ?_⟩
  · rw [List.forall₂_map_right_iff, List.forall₂_same]
    intro T _
    rw [shearedG_ok g1 g2 T s1 s2 hg hs, size_factor]
  · simp only
    rw [List.zip_map_left, List.map_map]
    apply List.map_congr_left
    intro tf _
    simp only [Function.comp, Prod.map]
    congr 1
    ring

/-! ### Round versions -/

/-- The round version of a list of gaussians of one shape. -/
theorem round_co (L : List (ℝ × ℝ)) (row col g1 g2 : ℝ) :
    roundData (getRoundFactor g1 g2) (L.map fun pt => coGauss pt.1 row col pt.2 (2 * g1 / (1 + (g1 ^ 2 + g2 ^ 2)))
        (2 * g2 / (1 + (g1 ^ 2 + g2 ^ 2)))) =
      L.map fun pt => coGauss pt.1 row col (pt.2 * ((1 - (g1 ^ 2 + g2 ^ 2)) / (1 + (g1 ^ 2 + g2 ^ 2)))) 0 0 := by
  unfold roundData
  rw [List.map_map]
  apply List.map_congr_left
  intro pt _
  have hp : 1 + (g1 ^ 2 + g2 ^ 2) ≠ 0 := by positivity
  simp only [Function.comp, coGauss, gauss2dSet, getRoundFactor]
  have h05 : (0.5 : ℝ) = 1 / 2 := by norm_num
  rw [h05]
  congr 1
  · ring
  · ring
  · ring
  · generalize hP : 1 + (g1 ^ 2 + g2 ^ 2) = P at hp ⊢
    have hQ : 1 - (g1 ^ 2 + g2 ^ 2) = 2 - P := by linarith
    have hR : g2 ^ 2 = P - 1 - g1 ^ 2 := by linarith
    rw [hQ]
    field_simp
    rw [hR]
    ring

theorem makeRoundObj_ok (o : GMixObj) (h : ModelReach o) (L : List (ℝ × ℝ)) (row col g1 g2 S : ℝ) (hg : InDisk g1 g2)
    (hd : (L.map fun pt => coGauss pt.1 row col pt.2 (2 * g1 / (1 + (g1 ^ 2 + g2 ^ 2))) (2 * g2 / (1 + (g1 ^ 2 + g2 ^ 2)))) = o.data)
    (hS : gmGetT o.data = some S) (hS0 : S ≠ 0) :
    makeRoundObj o false = .ok (some { o with data :=
      (L.map fun pt => coGauss pt.1 row col (pt.2 * ((1 - (g1 ^ 2 + g2 ^ 2)) / (1 + (g1 ^ 2 + g2 ^ 2)))) 0 0) }) := by
  have hshape : OneShape o.data row col g1 g2 := by
    rw [← hd]
    intro g hgm
    obtain ⟨pt, -, rfl⟩ := List.mem_map.1 hgm
    rw [coGauss_size]
    exact coGauss_shape _ _ _ _ _ _ _ (by ring)
  have hG := oneShape_g1g2T o.data row col g1 g2 S hg hshape hS hS0
  unfold makeRoundObj
  rw [C24_copy o h]
  simp only [Except.bind, makeRound, roundFactorOf, hG, Bool.false_eq_true, if_false, Option.map_some, Except.map]
  rw [← round_co, hd]

/-- C117.  The round version of a model mixture (`preserve_size` not set; size not zero) has the gaussians that filling the
model with no shape and the size `T (1-g^2)/(1+g^2)` would give, the other parameters unchanged. -/
theorem C117_rounded (o : GMixObj) (h : ModelReach o) (hk : o.kind ≠ .coellip) (row col g1 g2 T : ℝ) (rest : List ℝ)
    (hp : o.pars = row :: col :: g1 :: g2 :: T :: rest) (S : ℝ) (hS : gmGetT o.data = some S) (hS0 : S ≠ 0) :
    ∃ o' r, fillChecked o (row :: col :: 0 :: 0 :: (T * ((1 - (g1 ^ 2 + g2 ^ 2)) / (1 + (g1 ^ 2 + g2 ^ 2)))) :: rest) =
        (o', .ok ()) ∧ makeRoundObj o false = .ok (some r) ∧ r.data = o'.data := by
  obtain ⟨hko, hlen, hfill⟩ := reach_synced o h
  have hkf : o.kind ≠ .full := by
    intro hf
    rw [KindOK, hf] at hko
    exact hko
  rw [hp] at hfill hlen
  obtain ⟨L, hL⟩ := fillFunc_form o.kind hk hkf row col g1 g2 T rest o.data hfill
  rw [hL] at hfill
  have hg := fill_inDisk hfill
  rw [g1g2ToE1E2nb_closed hg] at hfill
  simp only [Except.map, Except.ok.injEq] at hfill
  have hr := makeRoundObj_ok o h (L.map fun pf => (pf.1, T * pf.2)) row col g1 g2 S hg (by rw [List.map_map]; exact hfill) hS hS0
  refine ⟨_, _, fillChecked_ok o _ _ (by rw [← hlen]; simp) (by
    rw [hL, g1g2ToE1E2nb_closed (show InDisk 0 0 by norm_num [InDisk])]
    rfl), hr, ?_⟩
  simp only [List.map_map]
  apply List.map_congr_left
  intro pf _
  simp only [Function.comp, mul_zero, zero_div]
  congr 1
  ring

/-- C117.  The same for GMixCoellip: each of its sizes is multiplied. -/
theorem C117_rounded_coellip (o : GMixObj) (h : ModelReach o) (hk : o.kind = .coellip) (row col g1 g2 : ℝ) (Ts Fs : List ℝ)
    (hl : Ts.length = Fs.length) (hp : o.pars = row :: col :: g1 :: g2 :: (Ts ++ Fs)) (S : ℝ) (hS : gmGetT o.data = some S)
    (hS0 : S ≠ 0) :
    ∃ o' r, fillChecked o (row :: col :: 0 :: 0 ::
        ((Ts.map fun T => T * ((1 - (g1 ^ 2 + g2 ^ 2)) / (1 + (g1 ^ 2 + g2 ^ 2)))) ++ Fs)) = (o', .ok ()) ∧
      makeRoundObj o false = .ok (some r) ∧ r.data = o'.data := by
  obtain ⟨hko, hlen, hfill⟩ := reach_synced o h
  rw [hp] at hfill hlen
  have form : ∀ (g1' g2' : ℝ) (Ts' : List ℝ), Ts'.length = Fs.length →
      fillFunc .coellip (row :: col :: g1' :: g2' :: (Ts' ++ Fs)) = fillCoellip row col g1' g2' (Ts'.zip Fs) := by
    intro g1' g2' Ts' hl'
    have hr : (Ts' ++ Fs).length / 2 = Ts'.length := by rw [List.length_append]; omega
    simp only [fillFunc, hr]
    simp
  rw [hk, form g1 g2 Ts hl] at hfill
  unfold fillCoellip at hfill
  have hg := fill_inDisk hfill
  rw [g1g2ToE1E2nb_closed hg] at hfill
  simp only [Except.map, Except.ok.injEq] at hfill
  have hr := makeRoundObj_ok o h ((Ts.zip Fs).map fun tf => (tf.2, 0.5 * tf.1)) row col g1 g2 S hg
    (by rw [List.map_map]; exact hfill) hS hS0
  refine ⟨_, _, fillChecked_ok o _ _ (by rw [← hlen]; simp) (by
    rw [hk, form _ _ _ (by simpa using hl), fillCoellip, g1g2ToE1E2nb_closed (show InDisk 0 0 by norm_num [InDisk])]
    rfl), hr, ?_⟩
  simp only [List.map_map]
  rw [List.zip_map_left, List.map_map]
  apply List.map_congr_left
  intro tf _
  simp only [Function.comp, Prod.map, mul_zero, zero_div, id]
  congr 1
  ring

/-! ### Cases -/

/-- An object of the model bdf, and one of GMixCoellip, sheared. -/
example : ∃ o o' r, makeGmixModel [1, 2, 0.1, -0.3, 4, 0.5, 100] (.str "bdf") = .ok o ∧
    (∃ h1 h2 T', fillChecked o [1, 2, h1, h2, T', 0.5, 100] = (o', .ok ())) ∧ getShearedObj o 0.02 0.01 = .ok r ∧ r.data = o'.data := by
  obtain ⟨k, hk, hk0⟩ := (C23_tfactor 0.5 1).1 (by norm_num) (by norm_num) (by norm_num)
  obtain ⟨L, hL⟩ : ∃ L : List Gauss, fillBdf 1 2 0.1 (-0.3) 4 0.5 100 = .ok L := by
    simp only [fillBdf, hk, Except.bind, g1g2ToE1E2nb_closed (show InDisk 0.1 (-0.3) by norm_num [InDisk]), Except.map]
    exact ⟨_, rfl⟩
  have ho : newGMixModel [1, 2, 0.1, -0.3, 4, 0.5, 100] (.num 6) =
      .ok ⟨.model "bdf", 7, 16, [1, 2, 0.1, -0.3, 4, 0.5, 100], L⟩ := by
    simp [newGMixModel, num_facts, name_facts, ngauss_facts, npars_facts, Except.bind, fillNames, built, fillChecked, resetObj,
      fillObj, fillFunc, hL]
  have hpos : ∀ g ∈ L, 0 < g.irr + g.icc := by
    simp only [fillBdf, hk, Except.bind, g1g2ToE1E2nb_closed (show InDisk 0.1 (-0.3) by norm_num [InDisk]), Except.map,
      Except.ok.injEq] at hL
    rw [← hL, composite_union]
    obtain ⟨-, -, -, t3, -⟩ := C22_tables _ _ _ mem_tables_exp
    obtain ⟨-, -, -, u3, -⟩ := C22_tables _ _ _ mem_tables_dev
    intro g hgm
    rcases List.mem_append.1 hgm with hgm | hgm
    · obtain ⟨fp, hfp, rfl⟩ := List.mem_map.1 hgm
      have := t3 _ (List.of_mem_zip hfp).1
      rw [coGauss_size]
      positivity
    · obtain ⟨fp, hfp, rfl⟩ := List.mem_map.1 hgm
      have := u3 _ (List.of_mem_zip hfp).1
      rw [coGauss_size]
      positivity
  obtain ⟨h1, h2, T', o', r, -, e2, e3, e4⟩ := C117_sheared ⟨.model "bdf", 7, 16, [1, 2, 0.1, -0.3, 4, 0.5, 100], L⟩
    (.make _ _ _ ho) (by simp) 1 2 0.1 (-0.3) 4 [0.5, 100] rfl hpos 0.02 0.01 (by norm_num [InDisk])
  refine ⟨_, o', r, ?_, ⟨h1, h2, T', e2⟩, e3, e4⟩
  rw [← ho]
  simp [makeGmixModel, num_facts, Except.bind]

/-- A GMixCoellip of two gaussians, sheared and made round. -/
example : ∃ o o1 r1 o2 r2, newGMixCoellip [1, 2, 0.1, -0.3, 4, 8, 3, 1] = .ok o ∧
    (∃ h1 h2 T1 T2, fillChecked o [1, 2, h1, h2, T1, T2, 3, 1] = (o1, .ok ())) ∧ getShearedObj o 0.02 0.01 = .ok r1 ∧
    r1.data = o1.data ∧
    fillChecked o [1, 2, 0, 0, 4 * ((1 - (0.1 ^ 2 + (-0.3) ^ 2)) / (1 + (0.1 ^ 2 + (-0.3) ^ 2))),
      8 * ((1 - (0.1 ^ 2 + (-0.3) ^ 2)) / (1 + (0.1 ^ 2 + (-0.3) ^ 2))), 3, 1] = (o2, .ok ()) ∧
    makeRoundObj o false = .ok (some r2) ∧ r2.data = o2.data := by
  obtain ⟨L, hL, S, hS, hS0⟩ : ∃ L : List Gauss, fillCoellip 1 2 0.1 (-0.3) [(4, 3), (8, 1)] = .ok L ∧
      ∃ S, gmGetT L = some S ∧ S ≠ 0 := by
    simp only [fillCoellip, g1g2ToE1E2nb_closed (show InDisk 0.1 (-0.3) by norm_num [InDisk]), Except.map]
    refine ⟨_, rfl, 5, ?_, by norm_num⟩
    norm_num [gmGetT, getMoms, getCen, psum, coGauss, gauss2dSet]
  have ho : newGMixCoellip [1, 2, 0.1, -0.3, 4, 8, 3, 1] = .ok ⟨.coellip, 8, 2, [1, 2, 0.1, -0.3, 4, 8, 3, 1], L⟩ := by
    simp [newGMixCoellip, built, resetObj, fillObj, fillFunc, hL]
  have hr : ModelReach ⟨.coellip, 8, 2, [1, 2, 0.1, -0.3, 4, 8, 3, 1], L⟩ := .makeCoellip _ _ ho
  obtain ⟨h1, h2, Ts', o1, r1, e1, e2, e3, e4⟩ := C117_sheared_coellip _ hr rfl 1 2 0.1 (-0.3) [4, 8] [3, 1] rfl rfl (by norm_num)
    0.02 0.01 (by norm_num [InDisk])
  obtain ⟨o2, r2, f1, f2, f3⟩ := C117_rounded_coellip _ hr rfl 1 2 0.1 (-0.3) [4, 8] [3, 1] rfl rfl S hS hS0
  obtain ⟨T1, T2, rfl⟩ : ∃ T1 T2, Ts' = [T1, T2] := by
    rcases Ts' with _ | ⟨a, _ | ⟨b, _ | ⟨c, l⟩⟩⟩ <;> simp_all
  exact ⟨_, o1, r1, o2, r2, ho, ⟨h1, h2, T1, T2, e2⟩, e3, e4, f1, f2, f3⟩

end

end Ngmix.Props
