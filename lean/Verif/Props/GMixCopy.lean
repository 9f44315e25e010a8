import Verif.Props.Composite
import Verif.Props.Norms

/-!
# Copies of model mixtures (C24), model tables and concatenation (C25)
-/

namespace Ngmix.Props

open Ngmix Ngmix.Spec

theorem lookup_mem {α β : Type} [BEq α] [LawfulBEq α] {l : List (α × β)} {a : α} {b : β}
    (h : l.lookup a = some b) : (a, b) ∈ l := by
  induction l with
  | nil => simp at h
  | cons x l ih =>
    obtain ⟨x1, x2⟩ := x
    by_cases hx : a = x1
    · subst hx
      simp only [List.lookup_cons_self, Option.some.injEq] at h
      subst h
      exact List.mem_cons_self
    · have : (a == x1) = false := by simpa using hx
      rw [List.lookup_cons, this] at h
      exact List.mem_cons_of_mem _ (ih h)

/-! ## C24 -/

/-- Objects reachable from a constructor by `fill` (successful) and `set_cen`. -/
inductive ModelReach : GMixObj → Prop
  | make (pars : List ℝ) (m : ModelArg) (o : GMixObj) (h : newGMixModel pars m = .ok o) : ModelReach o
  | makeCM (fd Td : ℝ) (pars : List ℝ) (o : GMixObj) (h : newGMixCM fd Td pars = .ok o) : ModelReach o
  | makeCoellip (pars : List ℝ) (o : GMixObj) (h : newGMixCoellip pars = .ok o) : ModelReach o
  | fill (o o' : GMixObj) (pars : List ℝ) (h : ModelReach o) (hf : fillChecked o pars = (o', .ok ())) :
      ModelReach o'
  | setCen (o o' : GMixObj) (row col : ℝ) (h : ModelReach o) (hs : setCenObj o row col = some o') :
      ModelReach o'

/-- The data are what the stored parameters say. -/
def Synced (o : GMixObj) : Prop := o.pars.length = o.npars ∧ fillFunc o.kind o.pars = .ok o.data

theorem composite_at (row col e1 e2 T F fd Td : ℝ) :
    (∀ g ∈ fillComposite row col e1 e2 T F fd Td, g.row = row ∧ g.col = col) ∧
    ∀ r c, fillComposite r c e1 e2 T F fd Td =
      (fillComposite row col e1 e2 T F fd Td).map fun g => { g with row := r, col := c } := by
  constructor
  · intro g hg
    simp only [fillComposite, List.mem_map] at hg
    obtain ⟨i, -, rfl⟩ := hg
    exact ⟨rfl, rfl⟩
  · intro r c
    simp only [fillComposite, List.map_map]
    rfl

theorem simple_at (fv pv : List ℝ) (row col g1 g2 T F : ℝ) (d : List Gauss)
    (h : fillSimple fv pv row col g1 g2 T F = .ok d) :
    (∀ g ∈ d, g.row = row ∧ g.col = col) ∧
    ∀ r c, fillSimple fv pv r c g1 g2 T F = .ok (d.map fun g => { g with row := r, col := c }) := by
  unfold fillSimple at h ⊢
  rcases he : g1g2ToE1E2nb g1 g2 with e | e
  · rw [he] at h; simp [Except.map] at h
  · rw [he] at h
    simp only [Except.map, Except.ok.injEq] at h ⊢
    subst h
    constructor
    · intro g hg
      rw [List.mem_map] at hg
      obtain ⟨i, -, rfl⟩ := hg
      exact ⟨rfl, rfl⟩
    · intro r c
      rw [List.map_map]
      rfl

/-- Every model fill puts all gaussians at the first two parameters and depends on them in no other
way. -/
theorem fillFunc_cen (k : GKind) (hk : k ≠ .full) (pars : List ℝ) (d : List Gauss)
    (h : fillFunc k pars = .ok d) :
    ∃ row col rest, pars = row :: col :: rest ∧ (∀ g ∈ d, g.row = row ∧ g.col = col) ∧
      ∀ r c, fillFunc k (r :: c :: rest) = .ok (d.map fun g => { g with row := r, col := c }) := by
  unfold fillFunc at h
  split at h
  · exact absurd rfl hk
  · rename_i row col g1 g2 rest
    refine ⟨row, col, g1 :: g2 :: rest, rfl, ?_⟩
    unfold fillCoellip at h
    rcases he : g1g2ToE1E2nb g1 g2 with e | e
    · rw [he] at h; simp [Except.map] at h
    · rw [he] at h
      simp only [Except.map, Except.ok.injEq] at h
      subst h
      constructor
      · intro g hg
        rw [List.mem_map] at hg
        obtain ⟨i, -, rfl⟩ := hg
        exact ⟨rfl, rfl⟩
      · intro r c
        simp only [fillFunc, fillCoellip, he, Except.map, List.map_map]
        rfl
  · exact ⟨_, _, _, rfl, simple_at _ _ _ _ _ _ _ _ _ h⟩
  · exact ⟨_, _, _, rfl, simple_at _ _ _ _ _ _ _ _ _ h⟩
  · exact ⟨_, _, _, rfl, simple_at _ _ _ _ _ _ _ _ _ h⟩
  · exact ⟨_, _, _, rfl, simple_at _ _ _ _ _ _ _ _ _ h⟩
  · rename_i row col g1 g2 T lT fd F
    refine ⟨_, _, _, rfl, ?_⟩
    simp only [fillBd] at h
    rcases ht : getCmTfactor fd (10 ^ lT) with e | k
    · rw [ht] at h; simp [Except.bind] at h
    · rcases he : g1g2ToE1E2nb g1 g2 with e | e
      · rw [ht, he] at h; simp [Except.map, Except.bind] at h
      · rw [ht, he] at h
        simp only [Except.map, Except.bind, Except.ok.injEq] at h
        subst h
        refine ⟨(composite_at _ _ _ _ _ _ _ _).1, fun r c => ?_⟩
        simp only [fillFunc, fillBd, ht, he, Except.map, Except.bind]
        rw [(composite_at row col _ _ _ _ _ _).2 r c]
  · rename_i row col g1 g2 T fd F
    refine ⟨_, _, _, rfl, ?_⟩
    simp only [fillBdf] at h
    rcases ht : getCmTfactor fd 1 with e | k
    · rw [ht] at h; simp [Except.bind] at h
    · rcases he : g1g2ToE1E2nb g1 g2 with e | e
      · rw [ht, he] at h; simp [Except.map, Except.bind] at h
      · rw [ht, he] at h
        simp only [Except.map, Except.bind, Except.ok.injEq] at h
        subst h
        refine ⟨(composite_at _ _ _ _ _ _ _ _).1, fun r c => ?_⟩
        simp only [fillFunc, fillBdf, ht, he, Except.map, Except.bind]
        rw [(composite_at row col _ _ _ _ _ _).2 r c]
  · rename_i fd Td k row col g1 g2 T F
    refine ⟨_, _, _, rfl, ?_⟩
    simp only [fillCm] at h
    rcases he : g1g2ToE1E2nb g1 g2 with e | e
    · rw [he] at h; simp [Except.map] at h
    · rw [he] at h
      simp only [Except.map, Except.ok.injEq] at h
      subst h
      refine ⟨(composite_at _ _ _ _ _ _ _ _).1, fun r c => ?_⟩
      simp only [fillFunc, fillCm, he, Except.map]
      rw [(composite_at row col _ _ _ _ _ _).2 r c]
  · simp at h
  · simp at h

/-- Constructing from a name of a class that exists. -/
theorem newGMixModel_ok (pars : List ℝ) (m : ModelArg) (o : GMixObj) (h : newGMixModel pars m = .ok o) :
    ∃ n, o.kind = .model n ∧ Synced o ∧ o.pars = pars ∧ newGMixModel pars (.str n) = .ok o := by
  rcases h1 : getModelNum m with e | num
  · simp [newGMixModel, h1, Except.bind] at h
  rcases h2 : getModelName (.num num) with e | name
  · simp [newGMixModel, h1, h2, Except.bind] at h
  rcases h3 : getModelNgauss (.num num) with e | ng
  · simp [newGMixModel, h1, h2, h3, Except.bind] at h
  rcases h4 : getModelNpars (.num num) with e | np
  · simp [newGMixModel, h1, h2, h3, h4, Except.bind] at h
  simp only [newGMixModel, h1, h2, h3, h4, Except.bind] at h
  split_ifs at h with h5
  have hn : getModelNum (.str name) = .ok num := by
    have hmem : (ModelArg.num num, name) ∈ stringDict := by
      unfold getModelName at h2
      rcases hl : stringDict.lookup (.num num) with _ | x
      · simp [hl] at h2
      · rw [hl] at h2
        simp only [Except.ok.injEq] at h2
        subst h2
        exact lookup_mem hl
    simp only [stringDict, List.mem_cons, Prod.mk.injEq, ModelArg.num.injEq, reduceCtorEq, false_and,
      List.not_mem_nil, or_false, false_or] at hmem
    rcases hmem with ⟨rfl, rfl⟩ | ⟨rfl, rfl⟩ | ⟨rfl, rfl⟩ | ⟨rfl, rfl⟩ | ⟨rfl, rfl⟩ | ⟨rfl, rfl⟩ |
      ⟨rfl, rfl⟩ | ⟨rfl, rfl⟩ | ⟨rfl, rfl⟩ | ⟨rfl, rfl⟩ <;> simp [num_facts]
  have key : o.kind = .model name ∧ Synced o ∧ o.pars = pars := by
    unfold built fillChecked at h
    by_cases hl : pars.length = np
    · rcases hf : fillFunc (.model name) pars with e | d
      · simp [resetObj, fillObj, hl, hf] at h
      · simp only [resetObj, fillObj, hl, hf, ne_eq, not_true_eq_false, if_false, Except.ok.injEq] at h
        subst h
        exact ⟨rfl, ⟨hl, hf⟩, rfl⟩
    · simp [resetObj, hl] at h
  refine ⟨name, key.1, key.2.1, key.2.2, ?_⟩
  simp only [newGMixModel, hn, h2, h3, h4, Except.bind]
  rw [if_neg (not_not.mpr h5)]
  exact h

theorem newGMixCM_ok (fd Td : ℝ) (pars : List ℝ) (o : GMixObj) (h : newGMixCM fd Td pars = .ok o) :
    ∃ k, getCmTfactor fd Td = .ok k ∧ o.kind = .cm fd Td k ∧ Synced o ∧ o.pars = pars ∧ o.npars = 6 ∧
      o.ngauss = 16 := by
  rcases hk : getCmTfactor fd Td with e | k
  · simp [newGMixCM, hk, Except.bind] at h
  · refine ⟨k, rfl, ?_⟩
    simp only [newGMixCM, hk, Except.bind, built, fillChecked, resetObj] at h
    by_cases hl : pars.length = 6
    · rcases hf : fillFunc (.cm fd Td k) pars with e | d
      · simp [fillObj, hl, hf] at h
      · simp only [fillObj, hl, hf, ne_eq, not_true_eq_false, if_false, Except.ok.injEq] at h
        subst h
        exact ⟨rfl, ⟨hl, hf⟩, rfl, rfl, rfl⟩
    · simp [hl] at h

theorem newGMixCoellip_ok (pars : List ℝ) (o : GMixObj) (h : newGMixCoellip pars = .ok o) :
    o.kind = .coellip ∧ Synced o ∧ o.pars = pars ∧ ((pars.length : ℤ) - 4) % 2 = 0 ∧
      0 ≤ ((pars.length : ℤ) - 4) ∧ o.ngauss = (((pars.length : ℤ) - 4) / 2).toNat := by
  unfold newGMixCoellip at h
  simp only at h
  split_ifs at h with h1 h2
  rcases hf : fillFunc .coellip pars with e | d
  · simp [built, fillObj, resetObj, hf] at h
  · simp only [built, fillObj, resetObj, hf, Except.ok.injEq] at h
    subst h
    exact ⟨rfl, ⟨rfl, hf⟩, rfl, by omega, by omega, rfl⟩

/-- What is kept along a history: synchrony, and that the class accepts this number of parameters. -/
def KindOK (o : GMixObj) : Prop :=
  match o.kind with
  | .full => False
  | .model n => ∃ ng np num, getModelNum (.str n) = .ok num ∧ getModelName (.num num) = .ok n ∧
      getModelNgauss (.num num) = .ok ng ∧ getModelNpars (.num num) = .ok np ∧ n ∈ fillNames ∧
      o.npars = np ∧ o.ngauss = ng
  | .cm fd Td k => getCmTfactor fd Td = .ok k ∧ o.npars = 6 ∧ o.ngauss = 16
  | .coellip => ((o.npars : ℤ) - 4) % 2 = 0 ∧ 0 ≤ ((o.npars : ℤ) - 4) ∧
      o.ngauss = (((o.npars : ℤ) - 4) / 2).toNat

theorem kindOK_model (pars : List ℝ) (m : ModelArg) (o : GMixObj) (h : newGMixModel pars m = .ok o) :
    KindOK o := by
  obtain ⟨n, hk, -, -, h'⟩ := newGMixModel_ok pars m o h
  rcases h1 : getModelNum (.str n) with e | num
  · simp [newGMixModel, h1, Except.bind] at h'
  rcases h2 : getModelName (.num num) with e | name
  · simp [newGMixModel, h1, h2, Except.bind] at h'
  rcases h3 : getModelNgauss (.num num) with e | ng
  · simp [newGMixModel, h1, h2, h3, Except.bind] at h'
  rcases h4 : getModelNpars (.num num) with e | np
  · simp [newGMixModel, h1, h2, h3, h4, Except.bind] at h'
  simp only [newGMixModel, h1, h2, h3, h4, Except.bind] at h'
  split_ifs at h' with h5
  unfold built fillChecked at h'
  by_cases hl : pars.length = np
  · rcases hf : fillFunc (.model name) pars with e | d
    · simp [resetObj, fillObj, hl, hf] at h'
    · simp only [resetObj, fillObj, hl, hf, ne_eq, not_true_eq_false, if_false, Except.ok.injEq] at h'
      subst h'
      simp only [GKind.model.injEq] at hk
      subst hk
      exact ⟨ng, np, num, h1, h2, h3, h4, h5, rfl, rfl⟩
  · simp [resetObj, hl] at h'

/-- A synchronised object copies to itself. -/
theorem copy_synced (o : GMixObj) (hk : KindOK o) (hs : Synced o) : copyGMix o = .ok o := by
  obtain ⟨kind, npars, ngauss, pars, data⟩ := o
  obtain ⟨hl, hf⟩ := hs
  simp only at hl hf
  cases kind with
  | full => exact hk.elim
  | model n =>
    obtain ⟨ng, np, num, h1, h2, h3, h4, h5, h6, h7⟩ := hk
    simp only at h6 h7
    subst h6 h7
    simp only [copyGMix, newGMixModel, h1, h2, h3, h4, Except.bind]
    rw [if_neg (not_not.mpr h5)]
    simp only [built, fillChecked, resetObj, hl, ne_eq, not_true_eq_false, if_false, fillObj, hf]
  | cm fd Td k =>
    obtain ⟨h1, h2, h3⟩ := hk
    simp only at h2 h3
    subst h2 h3
    simp only [copyGMix, newGMixCM, h1, Except.bind, built, fillChecked, resetObj, hl, ne_eq,
      not_true_eq_false, if_false, fillObj, hf]
  | coellip =>
    obtain ⟨h1, h2, h3⟩ := hk
    simp only at h1 h2 h3
    subst hl
    simp only [copyGMix, newGMixCoellip]
    rw [if_neg (by omega), if_neg (by omega)]
    simp only [built, resetObj, fillObj, hf, ← h3]

theorem reach_synced (o : GMixObj) (h : ModelReach o) : KindOK o ∧ Synced o := by
  induction h with
  | make pars m o h =>
    obtain ⟨n, -, hs, -⟩ := newGMixModel_ok pars m o h
    exact ⟨kindOK_model pars m o h, hs⟩
  | makeCM fd Td pars o h =>
    obtain ⟨k, hk, h1, h2, -, h3, h4⟩ := newGMixCM_ok fd Td pars o h
    refine ⟨?_, h2⟩
    unfold KindOK
    rw [h1]
    exact ⟨hk, h3, h4⟩
  | makeCoellip pars o h =>
    obtain ⟨h1, h2, h3, h4, h5, h6⟩ := newGMixCoellip_ok pars o h
    refine ⟨?_, h2⟩
    have hn : o.npars = pars.length := by rw [← h2.1, h3]
    unfold KindOK
    rw [h1]
    exact ⟨by rw [hn]; exact h4, by rw [hn]; exact h5, by rw [hn]; exact h6⟩
  | fill o o' pars _ hf ih =>
    unfold fillChecked at hf
    by_cases hl : pars.length = o.npars
    · rw [if_neg (not_not.mpr hl)] at hf
      rcases hff : fillFunc o.kind pars with e | d
      · simp [fillObj, hff] at hf
      · simp only [fillObj, hff, Prod.mk.injEq, and_true] at hf
        subst hf
        exact ⟨ih.1, hl, hff⟩
    · rw [if_pos hl] at hf
      simp at hf
  | setCen o o' row col _ hs ih =>
    obtain ⟨hk, hl, hf⟩ := ih
    have hnf : o.kind ≠ .full := by
      intro hc
      unfold KindOK at hk
      rw [hc] at hk
      exact hk
    obtain ⟨r0, c0, rest, hp, hat, hmove⟩ := fillFunc_cen o.kind hnf o.pars o.data hf
    unfold setCenObj at hs
    rw [Option.map_eq_some_iff] at hs
    obtain ⟨d, hd, ho⟩ := hs
    have ho' : o' = { o with data := d, pars := (o.pars.set 0 row).set 1 col } := by
      rw [← ho]
      cases hkk : o.kind with
      | full => exact absurd hkk hnf
      | model n => rfl
      | cm a b c => rfl
      | coellip => rfl
    subst ho'
    refine ⟨hk, by simpa using hl, ?_⟩
    rw [setCen, Option.map_eq_some_iff] at hd
    obtain ⟨c, hc, rfl⟩ := hd
    have hcen : c = (r0, c0) := by
      have hc' := (getCen_iff o.data c.1 c.2).mp hc
      have hz : ∀ (l : List Gauss) (F : Gauss → ℝ) (v : ℝ), (∀ g ∈ l, F g = v) →
          ∀ x, (l.map fun g => g.p * (F g - x)).sum = (l.map fun g => g.p).sum * (v - x) := by
        intro l F v
        induction l with
        | nil => intro _ x; simp
        | cons a l ih =>
          intro ha x
          simp only [List.map_cons, List.sum_cons]
          rw [ih (fun g hg => ha g (List.mem_cons_of_mem _ hg)), ha a List.mem_cons_self]
          ring
      obtain ⟨h0, h1, h2⟩ := hc'
      rw [hz o.data (fun g => g.row) r0 fun g hg => (hat g hg).1] at h1
      rw [hz o.data (fun g => g.col) c0 fun g hg => (hat g hg).2] at h2
      have e1 : r0 - c.1 = 0 := (mul_eq_zero.mp h1).resolve_left h0
      have e2 : c0 - c.2 = 0 := (mul_eq_zero.mp h2).resolve_left h0
      exact Prod.ext (by simp only; linarith) (by simp only; linarith)
    rw [hcen]
    simp only [hp, List.set_cons_zero, List.set_cons_succ]
    rw [hmove row col]
    congr 1
    refine List.map_congr_left fun g hg => ?_
    obtain ⟨h1, h2⟩ := hat g hg
    rw [h1, h2]
    simp

/-- C24: after any history of construction, successful `fill` and `set_cen`, a copy of a model mixture
is the same mixture with the same parameters. -/
theorem C24_copy (o : GMixObj) (h : ModelReach o) : copyGMix o = .ok o :=
  copy_synced o (reach_synced o h).1 (reach_synced o h).2

/-- C24 (violation): `set_flux` is forgotten by `copy`, for every model class and every new flux. -/
theorem C24_set_flux_lost (o o1 : GMixObj) (h : ModelReach o) (f : ℝ) (hf : setFluxObj o f = some o1) :
    Flux o1.data = f ∧ copyGMix o1 = .ok o := by
  obtain ⟨hk, hs⟩ := reach_synced o h
  unfold setFluxObj at hf
  rw [Option.map_eq_some_iff] at hf
  obtain ⟨d, hd, rfl⟩ := hf
  refine ⟨((C18_set_flux o.data f).2 d hd).1, ?_⟩
  rw [← copy_synced o hk hs]
  unfold KindOK at hk
  unfold copyGMix
  cases hkk : o.kind with
  | full => rw [hkk] at hk; exact hk.elim
  | model n => rfl
  | cm a b c => rfl
  | coellip => rfl

/-- C24 (violation): shearing is forgotten too. The sheared mixture is a model object, and its copy is
the unsheared one; so shearing twice is shearing once. -/
theorem C24_shear_lost (o o1 : GMixObj) (h : ModelReach o) (s1 s2 : ℝ)
    (hs : getShearedObj o s1 s2 = .ok o1) : copyGMix o1 = .ok o ∧
    ∀ t1 t2, getShearedObj o1 t1 t2 = getShearedObj o t1 t2 := by
  have hc := C24_copy o h
  obtain ⟨hk, -⟩ := reach_synced o h
  rw [getShearedObj, hc] at hs
  simp only [Except.bind] at hs
  rcases hd : shearData s1 s2 o.data with e | d
  · rw [hd] at hs; simp [Except.map] at hs
  · rw [hd] at hs
    simp only [Except.map, Except.ok.injEq] at hs
    subst hs
    have hcopy : copyGMix { o with data := d } = copyGMix o := by
      unfold KindOK at hk
      unfold copyGMix
      cases hkk : o.kind with
      | full => rw [hkk] at hk; exact hk.elim
      | model n => rfl
      | cm a b c => rfl
      | coellip => rfl
    refine ⟨by rw [hcopy, hc], fun t1 t2 => ?_⟩
    simp only [getShearedObj, hcopy]

/-- The violation is not vacuous: an exponential of flux 100 set to 5 copies back to about 100. -/
example : ∃ o o1 o2, makeGmixModel [1, 2, 0.1, -0.3, 4, 100] (.str "exp") = .ok o ∧
    setFluxObj o 5 = some o1 ∧ copyGMix o1 = .ok o2 ∧ Flux o1.data = 5 ∧ |Flux o2.data - 100| ≤ 1e-11 := by
  obtain ⟨-, -, h⟩ := C22_model "exp" fvalsExp pvalsExp (by simp [simpleTables]) 1 2 0.1 (-0.3) 4 100
  obtain ⟨o, h1, h2, -, h3, h4⟩ := h (by norm_num [InDisk])
  have hreach : ModelReach o := by
    refine .make [1, 2, 0.1, -0.3, 4, 100] (.num 3) o ?_
    have : makeGmixModel [1, 2, 0.1, -0.3, 4, 100] (.str "exp") =
        newGMixModel [1, 2, 0.1, -0.3, 4, 100] (.num 3) := by
      simp [makeGmixModel, num_facts, Except.bind]
    rw [← this, h1]
  have h0 : Flux o.data ≠ 0 := by
    intro hc
    rw [hc] at h3
    norm_num at h3
  have : setFlux o.data 5 ≠ none := fun hc => h0 ((C18_set_flux o.data 5).1.mp hc)
  obtain ⟨d, hd⟩ := Option.ne_none_iff_exists'.mp this
  have hset : setFluxObj o 5 = some { o with data := d } := by simp [setFluxObj, hd]
  obtain ⟨h5, h6⟩ := C24_set_flux_lost o _ hreach 5 hset
  exact ⟨o, _, o, h1, hset, h6, h5, le_trans h3 (by norm_num)⟩

/-! ## C25 -/

/-- C25: concatenation keeps all gaussians in order; it fails exactly on an empty list. -/
theorem C25_concat (l : List GMixObj) :
    (gmixConcat l = .error .value ↔ l = []) ∧
    (l ≠ [] → ∃ o, gmixConcat l = .ok o ∧ o.kind = .full ∧
      List.Forall₂ SameGauss (l.flatMap fun x => x.data) o.data ∧
      o.data.length = (l.map fun x => x.data.length).sum ∧
      Flux o.data = (l.map fun x => Flux x.data).sum) := by
  have hfp : (l.flatMap fun x => getFullPars x.data) = getFullPars (l.flatMap fun x => x.data) := by
    induction l with
    | nil => rfl
    | cons a l ih =>
      rw [List.flatMap_cons, ih, List.flatMap_cons]
      simp only [getFullPars, List.flatMap_append]
  have hok : l ≠ [] → ∃ o, gmixConcat l = .ok o ∧ o.kind = .full ∧
      List.Forall₂ SameGauss (l.flatMap fun x => x.data) o.data := by
    intro hl
    unfold gmixConcat
    rw [if_neg (by simpa using hl), hfp]
    set gm := l.flatMap fun x => x.data
    refine ⟨⟨.full, (getFullPars gm).length, (getFullPars gm).length / 6, getFullPars gm,
      fillFull (getFullPars gm)⟩, ?_, rfl, ?_⟩
    · simp only [newGMix]
      rw [if_neg (by rw [getFullPars_length]; omega)]
      rfl
    · clear_value gm
      simp only
      clear hl hfp
      induction gm with
      | nil => exact .nil
      | cons g gs ih =>
        exact .cons ⟨rfl, rfl, rfl, rfl, rfl, rfl⟩ ih
  constructor
  · constructor
    · intro h
      by_contra hl
      obtain ⟨o, ho, -⟩ := hok hl
      rw [ho] at h
      simp at h
    · rintro rfl; rfl
  · intro hl
    obtain ⟨o, h1, h2, h3⟩ := hok hl
    refine ⟨o, h1, h2, h3, ?_, ?_⟩
    · rw [← h3.length_eq, List.length_flatMap]
    · have : Flux o.data = Flux (l.flatMap fun x => x.data) := by
        generalize (l.flatMap fun x => x.data) = gm at h3
        generalize o.data = gm' at h3
        induction h3 with
        | nil => rfl
        | cons hh _ ih =>
          simp only [Flux, List.map_cons, List.sum_cons] at ih ⊢
          rw [← hh.1, ih]
      rw [this]
      clear this h1 h2 h3 hok hl hfp
      induction l with
      | nil => rfl
      | cons a l ih =>
        simp only [List.flatMap_cons, List.map_cons, List.sum_cons]
        rw [← ih]
        simp [Flux]

/-- C25: `get_model_npars` is the number of parameters the constructor accepts: any other number is a
ValueError. -/
theorem C25_npars (m : ModelArg) (num n : ℕ) (h0 : getModelNum m = .ok num) (hn : num ≠ 5)
    (h : getModelNpars m = .ok n) (pars : List ℝ) (hp : pars.length ≠ n) :
    makeGmixModel pars m = .error .value := by
  have hmem : (m, num) ∈ modelDict := by
    unfold getModelNum at h0
    rcases hl : modelDict.lookup m with _ | x
    · simp [hl] at h0
    · rw [hl] at h0
      simp only [Except.ok.injEq] at h0
      subst h0
      exact lookup_mem hl
  have hnp : getModelNpars (.num num) = .ok n := by
    unfold getModelNum at h0
    rcases hl : modelDict.lookup m with _ | x
    · simp [hl] at h0
    · rw [hl] at h0
      simp only [Except.ok.injEq] at h0
      subst h0
      unfold getModelNpars at h ⊢
      rw [hl] at h
      simp only at h
      simp only [modelDict, List.mem_cons, Prod.mk.injEq, List.not_mem_nil, or_false] at hmem
      have : modelDict.lookup (.num x) = some x := by
        rcases hmem with ⟨-, rfl⟩ | ⟨-, rfl⟩ | ⟨-, rfl⟩ | ⟨-, rfl⟩ | ⟨-, rfl⟩ | ⟨-, rfl⟩ | ⟨-, rfl⟩ |
          ⟨-, rfl⟩ | ⟨-, rfl⟩ | ⟨-, rfl⟩ | ⟨-, rfl⟩ | ⟨-, rfl⟩ | ⟨-, rfl⟩ | ⟨-, rfl⟩ | ⟨-, rfl⟩ | ⟨-, rfl⟩ |
          ⟨-, rfl⟩ | ⟨-, rfl⟩ | ⟨-, rfl⟩ | ⟨-, rfl⟩ <;> rfl
      rw [this]
      exact h
  have hcases : (num = 1 ∧ n = 6) ∨ (num = 2 ∧ n = 6) ∨ (num = 3 ∧ n = 6) ∨ (num = 4 ∧ n = 6) ∨
      (num = 9 ∧ n = 6) ∨ (num = 10 ∧ n = 8) ∨ (num = 6 ∧ n = 7) ∨ (num = 5 ∧ n = 8) := by
    unfold getModelNpars at hnp
    rcases hl : modelDict.lookup (.num num) with _ | x
    · simp [hl] at hnp
    · rw [hl] at hnp
      simp only at hnp
      have hx : x = num := by
        have := lookup_mem hl
        simp only [modelDict, List.mem_cons, Prod.mk.injEq, ModelArg.num.injEq, reduceCtorEq, false_and,
          List.not_mem_nil, or_false, false_or] at this
        omega
      subst hx
      rcases hl2 : nparsDict.lookup x with _ | y
      · simp [hl2] at hnp
      · rw [hl2] at hnp
        simp only [Except.ok.injEq] at hnp
        subst hnp
        have := lookup_mem hl2
        simpa [nparsDict] using this
  rcases hcases with ⟨rfl, rfl⟩ | ⟨rfl, rfl⟩ | ⟨rfl, rfl⟩ | ⟨rfl, rfl⟩ | ⟨rfl, rfl⟩ | ⟨rfl, rfl⟩ | ⟨rfl, rfl⟩ |
    ⟨rfl, rfl⟩
  all_goals
    first
    | exact absurd rfl hn
    | simp [makeGmixModel, h0, newGMixModel, num_facts, name_facts, ngauss_facts, npars_facts, Except.bind,
        fillNames, built, fillChecked, resetObj, hp]

theorem zip_len (fv pv : List ℝ) (row col g1 g2 T F : ℝ) (d : List Gauss)
    (h : fillSimple fv pv row col g1 g2 T F = .ok d) : d.length = min fv.length pv.length := by
  unfold fillSimple at h
  rcases he : g1g2ToE1E2nb g1 g2 with e | e
  · rw [he] at h; simp [Except.map] at h
  · rw [he] at h
    simp only [Except.map, Except.ok.injEq] at h
    subst h
    simp

theorem fillFunc_len (n : String) (pars : List ℝ) (d : List Gauss) (h : fillFunc (.model n) pars = .ok d) :
    d.length = if n = "gauss" then 1 else if n = "turb" then 3 else if n = "exp" then 6 else
      if n = "dev" then 10 else 16 := by
  have comp : ∀ row col e1 e2 T F fd Td, (fillComposite row col e1 e2 T F fd Td).length = 16 := by
    intros; simp [fillComposite]
  generalize hk : GKind.model n = k at h
  unfold fillFunc at h
  split at h
  · simp at hk
  · simp at hk
  · cases hk; rw [zip_len _ _ _ _ _ _ _ _ _ h]; simp [fvalsGauss, pvalsGauss]
  · cases hk; rw [zip_len _ _ _ _ _ _ _ _ _ h]; simp [fvalsTurb, pvalsTurb]
  · cases hk; rw [zip_len _ _ _ _ _ _ _ _ _ h]; simp [fvalsExp, pvalsExp]
  · cases hk; rw [zip_len _ _ _ _ _ _ _ _ _ h]; simp [fvalsDev, pvalsDev]
  · cases hk
    rename_i row col g1 g2 T lT fd F
    simp only [fillBd] at h
    rcases ht : getCmTfactor fd (10 ^ lT) with e | k
    · rw [ht] at h; simp [Except.bind] at h
    · rcases he : g1g2ToE1E2nb g1 g2 with e | e
      · rw [ht, he] at h; simp [Except.map, Except.bind] at h
      · rw [ht, he] at h
        simp only [Except.map, Except.bind, Except.ok.injEq] at h
        subst h
        simp [comp]
  · cases hk
    rename_i row col g1 g2 T fd F
    simp only [fillBdf] at h
    rcases ht : getCmTfactor fd 1 with e | k
    · rw [ht] at h; simp [Except.bind] at h
    · rcases he : g1g2ToE1E2nb g1 g2 with e | e
      · rw [ht, he] at h; simp [Except.map, Except.bind] at h
      · rw [ht, he] at h
        simp only [Except.map, Except.bind, Except.ok.injEq] at h
        subst h
        simp [comp]
  · simp at hk
  · simp at h
  · simp at h

/-- C25: `get_model_ngauss` of a model that could be made is the number of gaussians it has. -/
theorem C25_ngauss (m : ModelArg) (pars : List ℝ) (o : GMixObj) (h : newGMixModel pars m = .ok o)
    (num : ℕ) (hm : getModelNum m = .ok num) :
    getModelNgauss (.num num) = .ok o.data.length ∧ o.ngauss = o.data.length := by
  rcases h2 : getModelName (.num num) with e | name
  · simp [newGMixModel, hm, h2, Except.bind] at h
  rcases h3 : getModelNgauss (.num num) with e | ng
  · simp [newGMixModel, hm, h2, h3, Except.bind] at h
  rcases h4 : getModelNpars (.num num) with e | np
  · simp [newGMixModel, hm, h2, h3, h4, Except.bind] at h
  simp only [newGMixModel, hm, h2, h3, h4, Except.bind] at h
  split_ifs at h with h5
  unfold built fillChecked at h
  by_cases hl : pars.length = np
  · rcases hf : fillFunc (.model name) pars with e | d
    · simp [resetObj, fillObj, hl, hf] at h
    · simp only [resetObj, fillObj, hl, hf, ne_eq, not_true_eq_false, if_false, Except.ok.injEq] at h
      subst h
      simp only
      suffices hng : ng = d.length by rw [hng]; exact ⟨rfl, rfl⟩
      have hmem : (ModelArg.num num, name) ∈ stringDict := by
        unfold getModelName at h2
        rcases hl : stringDict.lookup (.num num) with _ | x
        · simp [hl] at h2
        · rw [hl] at h2
          simp only [Except.ok.injEq] at h2
          subst h2
          exact lookup_mem hl
      have hmem2 : (ModelArg.num num, ng) ∈ ngaussDict := by
        unfold getModelNgauss at h3
        rcases hl : ngaussDict.lookup (.num num) with _ | x
        · simp [hl] at h3
        · rw [hl] at h3
          simp only [Except.ok.injEq] at h3
          subst h3
          exact lookup_mem hl
      simp only [stringDict, ngaussDict, List.mem_cons, Prod.mk.injEq, ModelArg.num.injEq, reduceCtorEq,
        false_and, List.not_mem_nil, or_false, false_or] at hmem hmem2
      have hlen := fillFunc_len name pars d hf
      rcases hmem2 with ⟨rfl, rfl⟩ | ⟨rfl, rfl⟩ | ⟨rfl, rfl⟩ | ⟨rfl, rfl⟩ | ⟨rfl, rfl⟩ | ⟨rfl, rfl⟩ |
        ⟨rfl, rfl⟩ | ⟨rfl, rfl⟩ <;> norm_num at hmem <;> subst hmem <;> rw [hlen] <;> simp
  · simp [resetObj, hl] at h

/-- C25 (violations): models in the tables that cannot be made. `make_gmix_model(pars, "cm")` is a
TypeError for every parameter vector of the advertised length, `"bdc"` a ValueError; and
`get_model_npars` is a KeyError for the makeable `"full"` and `"coellip"`, `get_model_ngauss` a ValueError
for the names `"bd"`, `"bdf"`, `"cm"`. -/
theorem C25_tables_disagree (pars : List ℝ) :
    getModelNpars (.str "cm") = .ok 6 ∧ (pars.length = 6 → makeGmixModel pars (.str "cm") = .error .type) ∧
    getModelNpars (.str "bdc") = .ok 8 ∧ makeGmixModel pars (.str "bdc") = .error .value ∧
    getModelNpars (.str "full") = .error .key ∧ getModelNpars (.str "coellip") = .error .key ∧
    getModelNgauss (.str "bd") = .error .value ∧ getModelNgauss (.str "bdf") = .error .value ∧
    getModelNgauss (.str "cm") = .error .value := by
  refine ⟨rfl, fun hp => ?_, rfl, ?_, rfl, rfl, rfl, rfl, rfl⟩
  · have : fillFunc (.model "cm") pars = .error .type := by simp [fillFunc]
    simp [makeGmixModel, newGMixModel, num_facts, name_facts, ngauss_facts, npars_facts, Except.bind,
        fillNames, built, fillChecked, resetObj, hp, fillObj, this]
  · simp [makeGmixModel, newGMixModel, num_facts, name_facts, ngauss_facts, npars_facts, Except.bind,
        fillNames]

/-- C25: names and numbers are two ways to say the same model. -/
theorem C25_names_numbers (m : ModelArg) (n : ℕ) (h : getModelNum m = .ok n) :
    getModelNum (.num n) = .ok n ∧ ∃ s, getModelName m = .ok s ∧ getModelName (.num n) = .ok s ∧
      getModelNum (.str s) = .ok n ∧ getModelName (.str s) = .ok s := by
  have hmem : (m, n) ∈ modelDict := by
    unfold getModelNum at h
    rcases hl : modelDict.lookup m with _ | x
    · simp [hl] at h
    · rw [hl] at h
      simp only [Except.ok.injEq] at h
      subst h
      exact lookup_mem hl
  simp only [modelDict, List.mem_cons, Prod.mk.injEq, List.not_mem_nil, or_false] at hmem
  rcases hmem with ⟨rfl, rfl⟩ | ⟨rfl, rfl⟩ | ⟨rfl, rfl⟩ | ⟨rfl, rfl⟩ | ⟨rfl, rfl⟩ | ⟨rfl, rfl⟩ |
    ⟨rfl, rfl⟩ | ⟨rfl, rfl⟩ | ⟨rfl, rfl⟩ | ⟨rfl, rfl⟩ | ⟨rfl, rfl⟩ | ⟨rfl, rfl⟩ | ⟨rfl, rfl⟩ | ⟨rfl, rfl⟩ |
    ⟨rfl, rfl⟩ | ⟨rfl, rfl⟩ | ⟨rfl, rfl⟩ | ⟨rfl, rfl⟩ | ⟨rfl, rfl⟩ | ⟨rfl, rfl⟩ <;>
    exact ⟨rfl, _, rfl, rfl, rfl, rfl⟩

/-- C25: where `get_model_ngauss` knows the name of a model that can be made, it is the number of gaussians too. -/
theorem C25_ngauss_name (m : ModelArg) (pars : List ℝ) (o : GMixObj) (h : newGMixModel pars m = .ok o) (n : ℕ)
    (hn : getModelNgauss m = .ok n) : o.data.length = n := by
  rcases hm : getModelNum m with e | num
  · simp [newGMixModel, hm, Except.bind] at h
  have h1 := (C25_ngauss m pars o h num hm).1
  have hmem : (m, num) ∈ modelDict := by
    unfold getModelNum at hm
    rcases hl : modelDict.lookup m with _ | x
    · simp [hl] at hm
    · rw [hl] at hm
      simp only [Except.ok.injEq] at hm
      subst hm
      exact lookup_mem hl
  simp only [modelDict, List.mem_cons, Prod.mk.injEq, List.not_mem_nil, or_false] at hmem
  have key : getModelNgauss m = getModelNgauss (.num num) ∨ getModelNgauss m = .error .value := by
    rcases hmem with ⟨rfl, rfl⟩ | ⟨rfl, rfl⟩ | ⟨rfl, rfl⟩ | ⟨rfl, rfl⟩ | ⟨rfl, rfl⟩ | ⟨rfl, rfl⟩ |
      ⟨rfl, rfl⟩ | ⟨rfl, rfl⟩ | ⟨rfl, rfl⟩ | ⟨rfl, rfl⟩ | ⟨rfl, rfl⟩ | ⟨rfl, rfl⟩ | ⟨rfl, rfl⟩ | ⟨rfl, rfl⟩ |
      ⟨rfl, rfl⟩ | ⟨rfl, rfl⟩ | ⟨rfl, rfl⟩ | ⟨rfl, rfl⟩ | ⟨rfl, rfl⟩ | ⟨rfl, rfl⟩ <;>
      first | exact .inl rfl | exact .inr rfl
  rcases key with key | key
  · rw [key, h1] at hn
    simpa using hn
  · rw [key] at hn
    cases hn

/-- C24: `make_round` of a model mixture works on the mixture as `copy` gives it: everything but the gaussians is kept, and
the gaussians are those that rounding the mixture gives.  The parameters are not rounded, so a copy of the round mixture is
the mixture before rounding. -/
theorem C24_make_round (o : GMixObj) (h : ModelReach o) (preserve : Bool) :
    (makeRound o.data preserve = none → makeRoundObj o preserve = .ok none) ∧
    (∀ e, makeRound o.data preserve = some (.error e) → makeRoundObj o preserve = .error e) ∧
    (∀ gm, makeRound o.data preserve = some (.ok gm) → ∃ r, makeRoundObj o preserve = .ok (some r) ∧ r.data = gm ∧
      r.pars = o.pars ∧ r.kind = o.kind ∧ r.ngauss = o.ngauss ∧ copyGMix r = .ok o) := by
  have hc := C24_copy o h
  unfold makeRoundObj
  rw [hc]
  refine ⟨fun h1 => ?_, fun e h1 => ?_, fun gm h1 => ?_⟩
  · simp only [Except.bind, h1]
  · simp only [Except.bind, h1, Except.map]
  · refine ⟨{ o with data := gm }, ?_, rfl, rfl, rfl, rfl, ?_⟩
    · simp only [Except.bind, h1, Except.map]
    · obtain ⟨hk, hs⟩ := reach_synced o h
      rw [← hc]
      unfold copyGMix
      cases hkk : o.kind with
      | full => rw [KindOK, hkk] at hk; exact hk.elim
      | model n => rfl
      | cm a b c => rfl
      | coellip => rfl

example : ∃ o r, makeGmixModel [1, 2, 0.1, -0.3, 4, 100] (.str "exp") = .ok o ∧ makeRoundObj o false = .ok (some r) ∧
    copyGMix r = .ok o ∧ r.data.length = o.data.length := by
  obtain ⟨-, -, h⟩ := C22_model "exp" fvalsExp pvalsExp (by simp [simpleTables]) 1 2 0.1 (-0.3) 4 100
  obtain ⟨o, h1, h2, -, -, h4⟩ := h (by norm_num [InDisk])
  obtain ⟨-, T', -, -, hg⟩ := h4 (by norm_num)
  have hreach : ModelReach o := by
    refine .make [1, 2, 0.1, -0.3, 4, 100] (.num 3) o ?_
    have : makeGmixModel [1, 2, 0.1, -0.3, 4, 100] (.str "exp") =
        newGMixModel [1, 2, 0.1, -0.3, 4, 100] (.num 3) := by
      simp [makeGmixModel, num_facts, Except.bind]
    rw [← this, h1]
  have hr : makeRound o.data false = some (.ok (roundData (getRoundFactor 0.1 (-0.3)) o.data)) := by
    simp [makeRound, roundFactorOf, hg (by norm_num), Except.map]
  obtain ⟨r, hr1, hr2, -, -, -, hr3⟩ := (C24_make_round o hreach false).2.2 _ hr
  exact ⟨o, r, h1, hr1, hr3, by rw [hr2]; simp [roundData]⟩

end Ngmix.Props
