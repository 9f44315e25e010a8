import Verif.Spec.GMixHeap
import Verif.Props.GMix
import Verif.Props.Jacobian

/-!
# Mixtures and Jacobians do not share state (C101)
-/

namespace Ngmix.Props

open Ngmix Ngmix.Spec

theorem upd_same {α : Type} (f : ℕ → α) (a : ℕ) (v : α) : upd f a v a = v := if_pos rfl

theorem upd_other {α : Type} (f : ℕ → α) (a b : ℕ) (v : α) (h : b ≠ a) : upd f a v b = f b := if_neg h

/-- No two objects, and no object and the caller, hold the same array. -/
structure WSep (w : MixHeap) : Prop where
  pars_lt : ∀ i < w.nMix, (w.mix i).pars < w.nNum
  data_lt : ∀ i < w.nMix, (w.mix i).data < w.nDat
  pars_ne : ∀ i < w.nMix, ∀ k < w.nMix, i ≠ k → (w.mix i).pars ≠ (w.mix k).pars
  data_ne : ∀ i < w.nMix, ∀ k < w.nMix, i ≠ k → (w.mix i).data ≠ (w.mix k).data
  handed_lt : ∀ a, w.handed a → a < w.nNum
  handed_ne : ∀ a, w.handed a → ∀ i < w.nMix, (w.mix i).pars ≠ a
  jobj_lt : ∀ j < w.nJobj, w.jobj j < w.nJac
  jobj_ne : ∀ i < w.nJobj, ∀ k < w.nJobj, i ≠ k → w.jobj i ≠ w.jobj k

theorem sep_empty : WSep MixHeap.empty := by
  constructor <;> intros <;> simp_all [MixHeap.empty]

/-- What a step keeps of the heap before it. -/
structure WKeeps (w w' : MixHeap) (ci cj ca : Option ℕ) : Prop where
  nMix : w.nMix ≤ w'.nMix
  nJobj : w.nJobj ≤ w'.nJobj
  handed : ∀ a, w.handed a → w'.handed a
  mix : ∀ i < w.nMix, ci ≠ some i → w'.get i = w.get i
  jac : ∀ j < w.nJobj, cj ≠ some j → w'.getJac j = w.getJac j
  arr : ∀ a, w.handed a → ca ≠ some a → w'.num a = w.num a

theorem keeps_refl (w : MixHeap) (ci cj ca : Option ℕ) : WKeeps w w ci cj ca :=
  ⟨le_refl _, le_refl _, fun _ h => h, fun _ _ _ => rfl, fun _ _ _ => rfl, fun _ _ _ => rfl⟩

theorem put_mix (w : MixHeap) (i : ℕ) (o : GMixObj) : (w.put i o).mix = w.mix := rfl

theorem put_get (w : MixHeap) (i : ℕ) (o : GMixObj) (hk : o.kind = (w.mix i).kind)
    (hn : o.npars = (w.mix i).npars) (hg : o.ngauss = (w.mix i).ngauss) : (w.put i o).get i = o := by
  cases o
  simp only at hk hn hg
  subst hk hn hg
  simp [MixHeap.get, MixHeap.put, upd_same]

theorem put_sep {w : MixHeap} (h : WSep w) (i : ℕ) (o : GMixObj) : WSep (w.put i o) :=
  ⟨h.pars_lt, h.data_lt, h.pars_ne, h.data_ne, h.handed_lt, h.handed_ne, h.jobj_lt, h.jobj_ne⟩

theorem put_keeps {w : MixHeap} (h : WSep w) (i : ℕ) (hi : i < w.nMix) (o : GMixObj) :
    WKeeps w (w.put i o) (some i) none none := by
  refine ⟨le_refl _, le_refl _, fun _ h => h, ?_, fun _ _ _ => rfl, ?_⟩
  · intro k hk hne
    have hki : k ≠ i := fun e => hne (by rw [e])
    simp only [MixHeap.get, MixHeap.put]
    rw [upd_other _ _ _ _ (h.pars_ne k hk i hi hki), upd_other _ _ _ _ (h.data_ne k hk i hi hki)]
  · intro a ha _
    simp only [MixHeap.put]
    exact upd_other _ _ _ _ (h.handed_ne a ha i hi).symm

theorem reset_sep {w : MixHeap} (h : WSep w) (kind : GKind) (np ng : ℕ) : WSep (w.reset kind np ng) := by
  have key : ∀ i < w.nMix, (w.reset kind np ng).mix i = w.mix i := fun i hi =>
    upd_other _ _ _ _ (Nat.ne_of_lt hi)
  have new : (w.reset kind np ng).mix w.nMix = ⟨kind, np, ng, w.nNum, w.nDat⟩ := upd_same _ _ _
  have cases : ∀ i < (w.reset kind np ng).nMix, i < w.nMix ∨ i = w.nMix := fun i hi =>
    Nat.lt_succ_iff_lt_or_eq.1 hi
  refine ⟨?_, ?_, ?_, ?_, ?_, ?_, h.jobj_lt, h.jobj_ne⟩
  · intro i hi
    rcases cases i hi with hi | rfl
    · rw [key i hi]; exact Nat.lt_succ_of_lt (h.pars_lt i hi)
    · rw [new]; exact Nat.lt_succ_self _
  · intro i hi
    rcases cases i hi with hi | rfl
    · rw [key i hi]; exact Nat.lt_succ_of_lt (h.data_lt i hi)
    · rw [new]; exact Nat.lt_succ_self _
  · intro i hi k hk hne
    rcases cases i hi with hi | rfl <;> rcases cases k hk with hk | rfl
    · rw [key i hi, key k hk]; exact h.pars_ne i hi k hk hne
    · rw [key i hi, new]; exact (h.pars_lt i hi).ne
    · rw [key k hk, new]; exact (h.pars_lt k hk).ne'
    · exact absurd rfl hne
  · intro i hi k hk hne
    rcases cases i hi with hi | rfl <;> rcases cases k hk with hk | rfl
    · rw [key i hi, key k hk]; exact h.data_ne i hi k hk hne
    · rw [key i hi, new]; exact (h.data_lt i hi).ne
    · rw [key k hk, new]; exact (h.data_lt k hk).ne'
    · exact absurd rfl hne
  · intro a ha
    exact Nat.lt_succ_of_lt (h.handed_lt a ha)
  · intro a ha i hi
    rcases cases i hi with hi | rfl
    · rw [key i hi]; exact h.handed_ne a ha i hi
    · rw [new]; exact (h.handed_lt a ha).ne'

theorem reset_keeps {w : MixHeap} (h : WSep w) (kind : GKind) (np ng : ℕ) :
    WKeeps w (w.reset kind np ng) none none none := by
  refine ⟨Nat.le_succ _, le_refl _, fun _ h => h, ?_, fun _ _ _ => rfl, ?_⟩
  · intro k hk _
    have e : (w.reset kind np ng).mix k = w.mix k := upd_other _ _ _ _ (Nat.ne_of_lt hk)
    simp only [MixHeap.get, e]
    simp only [MixHeap.reset]
    rw [upd_other _ _ _ _ (h.pars_lt k hk).ne, upd_other _ _ _ _ (h.data_lt k hk).ne]
  · intro a ha _
    exact upd_other _ _ _ _ (h.handed_lt a ha).ne

theorem create_step {w : MixHeap} (h : WSep w) (r : Except PyErr GMixObj) :
    WSep (w.create r).1 ∧ WKeeps w (w.create r).1 none none none ∧
    (∀ e, r = .error e → w.create r = (w, .error e)) ∧
    (∀ o, r = .ok o → (w.create r).2 = .ok () ∧ (w.create r).1.nMix = w.nMix + 1 ∧
      (w.create r).1.get w.nMix = o) := by
  cases r with
  | error e =>
    exact ⟨h, keeps_refl _ _ _ _, fun e' he => by cases he; rfl, fun o ho => by cases ho⟩
  | ok o =>
    have hs := reset_sep h o.kind o.npars o.ngauss
    have hk := reset_keeps h o.kind o.npars o.ngauss
    have new : (w.reset o.kind o.npars o.ngauss).mix w.nMix = ⟨o.kind, o.npars, o.ngauss, w.nNum, w.nDat⟩ :=
      upd_same _ _ _
    have hp := put_keeps hs w.nMix (Nat.lt_succ_self _) o
    refine ⟨put_sep hs _ _, ?_, fun e he => (by cases he), ?_⟩
    · refine ⟨hk.nMix, le_refl _, fun _ h => h, ?_, fun _ _ _ => rfl, ?_⟩
      · intro k hk' _
        have e1 : ((w.reset o.kind o.npars o.ngauss).put w.nMix o).get k =
            (w.reset o.kind o.npars o.ngauss).get k :=
          hp.mix k (Nat.lt_succ_of_lt hk') (fun e => (Nat.ne_of_lt hk') (Option.some.inj e).symm)
        exact e1.trans (hk.mix k hk' (by simp))
      · intro a ha _
        exact (hp.arr a ha (by simp)).trans (hk.arr a ha (by simp))
    · intro o' ho
      cases ho
      refine ⟨rfl, rfl, ?_⟩
      exact put_get _ _ _ (by rw [new]) (by rw [new]) (by rw [new])

theorem array_step {w : MixHeap} (h : WSep w) (l : List ℝ) :
    WSep (w.newArray l) ∧ WKeeps w (w.newArray l) none none none ∧ (w.newArray l).num w.nNum = l ∧
    (w.newArray l).handed w.nNum := by
  refine ⟨⟨?_, h.data_lt, h.pars_ne, h.data_ne, ?_, ?_, h.jobj_lt, h.jobj_ne⟩,
    ⟨le_refl _, le_refl _, fun _ h => .inr h, ?_, fun _ _ _ => rfl, ?_⟩, upd_same _ _ _, .inl rfl⟩
  · intro i hi
    exact Nat.lt_succ_of_lt (h.pars_lt i hi)
  · intro a ha
    rcases ha with rfl | ha
    · exact Nat.lt_succ_self _
    · exact Nat.lt_succ_of_lt (h.handed_lt a ha)
  · intro a ha i hi
    rcases ha with rfl | ha
    · exact (h.pars_lt i hi).ne
    · exact h.handed_ne a ha i hi
  · intro k hk _
    simp only [MixHeap.get, MixHeap.newArray]
    rw [upd_other _ _ _ _ (h.pars_lt k hk).ne]
  · intro a ha _
    exact upd_other _ _ _ _ (h.handed_lt a ha).ne

theorem createJac_step {w : MixHeap} (h : WSep w) (r : Except PyErr Jacobian) :
    WSep (w.createJac r).1 ∧ WKeeps w (w.createJac r).1 none none none ∧
    (∀ e, r = .error e → w.createJac r = (w, .error e)) ∧
    (∀ j, r = .ok j → (w.createJac r).2 = .ok () ∧ (w.createJac r).1.nJobj = w.nJobj + 1 ∧
      (w.createJac r).1.getJac w.nJobj = j) := by
  cases r with
  | error e => exact ⟨h, keeps_refl _ _ _ _, fun e' he => by cases he; rfl, fun o ho => by cases ho⟩
  | ok j =>
    have key : ∀ i < w.nJobj, (w.createJac (.ok j)).1.jobj i = w.jobj i := fun i hi =>
      upd_other _ _ _ _ (Nat.ne_of_lt hi)
    have new : (w.createJac (.ok j)).1.jobj w.nJobj = w.nJac := upd_same _ _ _
    have cases : ∀ i < (w.createJac (.ok j)).1.nJobj, i < w.nJobj ∨ i = w.nJobj := fun i hi =>
      Nat.lt_succ_iff_lt_or_eq.1 hi
    refine ⟨⟨h.pars_lt, h.data_lt, h.pars_ne, h.data_ne, h.handed_lt, h.handed_ne, ?_, ?_⟩,
      ⟨le_refl _, Nat.le_succ _, fun _ h => h, fun _ _ _ => rfl, ?_, fun _ _ _ => rfl⟩,
      fun e he => (by cases he), ?_⟩
    · intro i hi
      rcases cases i hi with hi | rfl
      · rw [key i hi]; exact Nat.lt_succ_of_lt (h.jobj_lt i hi)
      · rw [new]; exact Nat.lt_succ_self _
    · intro i hi k hk hne
      rcases cases i hi with hi | rfl <;> rcases cases k hk with hk | rfl
      · rw [key i hi, key k hk]; exact h.jobj_ne i hi k hk hne
      · rw [key i hi, new]; exact (h.jobj_lt i hi).ne
      · rw [key k hk, new]; exact (h.jobj_lt k hk).ne'
      · exact absurd rfl hne
    · intro i hi _
      simp only [MixHeap.getJac, key i hi]
      exact upd_other _ _ _ _ (h.jobj_lt i hi).ne
    · intro j' hj
      cases hj
      refine ⟨rfl, rfl, ?_⟩
      simp only [MixHeap.getJac, new]
      exact upd_same _ _ _

theorem step_all {w w' : MixHeap} (h : WSep w) (op : WOp) (hc : WCall w op w') :
    WSep w' ∧ WKeeps w w' (changes op) (changesJac op) (changesArray op) := by
  obtain ⟨hl, r, hr⟩ := hc
  cases op with
  | newArray l =>
    simp only [wStep, Option.some.injEq, Prod.mk.injEq] at hr
    obtain ⟨rfl, -⟩ := hr
    exact ⟨(array_step h l).1, (array_step h l).2.1⟩
  | fullPars i =>
    simp only [wStep, Option.some.injEq, Prod.mk.injEq] at hr
    obtain ⟨rfl, -⟩ := hr
    exact ⟨(array_step h _).1, (array_step h _).2.1⟩
  | writeArray a k v =>
    simp only [wStep] at hr
    split at hr
    · simp only [Option.some.injEq, Prod.mk.injEq] at hr
      obtain ⟨rfl, -⟩ := hr
      refine ⟨⟨h.pars_lt, h.data_lt, h.pars_ne, h.data_ne, h.handed_lt, h.handed_ne, h.jobj_lt, h.jobj_ne⟩,
        ⟨le_refl _, le_refl _, fun _ h => h, ?_, fun _ _ _ => rfl, ?_⟩⟩
      · intro i hi _
        simp only [MixHeap.get]
        rw [upd_other _ _ _ _ (h.handed_ne a hl i hi)]
      · intro b _ hne
        exact upd_other _ _ _ _ (fun e => hne (by simp [changesArray, e]))
    · simp only [Option.some.injEq, Prod.mk.injEq] at hr
      obtain ⟨rfl, -⟩ := hr
      exact ⟨h, keeps_refl _ _ _ _⟩
  | make a m | makeCM fd Td a | makeEmpty n | copy i | shear i s1 s2 | convolve i k | concat l =>
    simp only [wStep, Option.some.injEq] at hr
    have e := congrArg Prod.fst hr
    simp only at e
    rw [← e]
    exact ⟨(create_step h _).1, (create_step h _).2.1⟩
  | round i p =>
    simp only [wStep] at hr
    split at hr
    · simp only [Option.some.injEq, Prod.mk.injEq] at hr
      obtain ⟨rfl, -⟩ := hr
      exact ⟨h, keeps_refl _ _ _ _⟩
    · exact absurd hr (by simp)
    · simp only [Option.some.injEq] at hr
      have e := congrArg Prod.fst hr
      simp only at e
      rw [← e]
      exact ⟨(create_step h _).1, (create_step h _).2.1⟩
  | fill i a =>
    simp only [wStep, Option.some.injEq, Prod.mk.injEq] at hr
    obtain ⟨rfl, -⟩ := hr
    exact ⟨put_sep h _ _, put_keeps h i hl.1 _⟩
  | norms i =>
    simp only [wStep, Option.some.injEq, Prod.mk.injEq] at hr
    obtain ⟨rfl, -⟩ := hr
    exact ⟨put_sep h _ _, put_keeps h i hl _⟩
  | setCen i row col =>
    simp only [wStep, Option.map_eq_some_iff, Prod.mk.injEq] at hr
    obtain ⟨o, -, rfl, -⟩ := hr
    exact ⟨put_sep h _ _, put_keeps h i hl _⟩
  | setFlux i f =>
    simp only [wStep, Option.map_eq_some_iff, Prod.mk.injEq] at hr
    obtain ⟨o, -, rfl, -⟩ := hr
    exact ⟨put_sep h _ _, put_keeps h i hl _⟩
  | writeData i k g =>
    simp only [wStep] at hr
    split at hr
    · simp only [Option.some.injEq, Prod.mk.injEq] at hr
      obtain ⟨rfl, -⟩ := hr
      exact ⟨put_sep h _ _, put_keeps h i hl _⟩
    · simp only [Option.some.injEq, Prod.mk.injEq] at hr
      obtain ⟨rfl, -⟩ := hr
      exact ⟨h, keeps_refl _ _ _ _⟩
  | newJac kw | copyJac j =>
    simp only [wStep, Option.some.injEq] at hr
    have e := congrArg Prod.fst hr
    simp only at e
    rw [← e]
    exact ⟨(createJac_step h _).1, (createJac_step h _).2.1⟩
  | setCenJac j kw =>
    simp only [wStep, Option.some.injEq, Prod.mk.injEq] at hr
    obtain ⟨rfl, -⟩ := hr
    refine ⟨⟨h.pars_lt, h.data_lt, h.pars_ne, h.data_ne, h.handed_lt, h.handed_ne, h.jobj_lt, h.jobj_ne⟩,
      ⟨le_refl _, le_refl _, fun _ h => h, fun _ _ _ => rfl, ?_, fun _ _ _ => rfl⟩⟩
    intro i hi hne
    simp only [MixHeap.getJac]
    exact upd_other _ _ _ _ (h.jobj_ne i hi j hl (fun e => hne (by simp [changesJac, e])))

theorem run_sep {w w' : MixHeap} {ops : List WOp} (hr : WRun w ops w') (h : WSep w) : WSep w' := by
  induction hr with
  | nil => exact h
  | cons hc _ ih => exact ih (step_all h _ hc).1

theorem reach_sep {w : MixHeap} (h : WReach w) : WSep w := by
  obtain ⟨ops, hr⟩ := h
  exact run_sep hr sep_empty

/-- C101: a call changes no mixture, no Jacobian and no array of the caller other than the one it is
meant to change, whatever its outcome. -/
theorem C101_frame (w w' : MixHeap) (h : WReach w) (op : WOp) (hc : WCall w op w') :
    (∀ i < w.nMix, changes op ≠ some i → w'.get i = w.get i) ∧
    (∀ j < w.nJobj, changesJac op ≠ some j → w'.getJac j = w.getJac j) ∧
    (∀ a, w.handed a → changesArray op ≠ some a → w'.num a = w.num a) := by
  have := (step_all (reach_sep h) op hc).2
  exact ⟨this.mix, this.jac, this.arr⟩

/-- C101: over any history, an object is changed only by the calls on it: copies, sheared, rounded or
convolved versions, the arrays it was filled from, and all other objects can be used freely. -/
theorem C101_history (w w' : MixHeap) (h : WReach w) (ops : List WOp) (hr : WRun w ops w') :
    (∀ i < w.nMix, (∀ op ∈ ops, changes op ≠ some i) → w'.get i = w.get i) ∧
    (∀ j < w.nJobj, (∀ op ∈ ops, changesJac op ≠ some j) → w'.getJac j = w.getJac j) ∧
    (∀ a, w.handed a → (∀ op ∈ ops, changesArray op ≠ some a) → w'.num a = w.num a) := by
  have hs := reach_sep h
  clear h
  induction hr with
  | nil => exact ⟨fun _ _ _ => rfl, fun _ _ _ => rfl, fun _ _ _ => rfl⟩
  | cons hc _ ih =>
    obtain ⟨s1, k1⟩ := step_all hs _ hc
    obtain ⟨a1, a2, a3⟩ := ih s1
    refine ⟨?_, ?_, ?_⟩
    · intro i hi hne
      rw [a1 i (lt_of_lt_of_le hi k1.nMix) fun op ho => hne op (List.mem_cons_of_mem _ ho)]
      exact k1.mix i hi (hne _ List.mem_cons_self)
    · intro i hi hne
      rw [a2 i (lt_of_lt_of_le hi k1.nJobj) fun op ho => hne op (List.mem_cons_of_mem _ ho)]
      exact k1.jac i hi (hne _ List.mem_cons_self)
    · intro a ha hne
      rw [a3 a (k1.handed a ha) fun op ho => hne op (List.mem_cons_of_mem _ ho)]
      exact k1.arr a ha (hne _ List.mem_cons_self)

/-- C101: a call that makes a mixture makes a new object with the value it should have, or (when it
is refused) leaves the heap as it was. -/
theorem C101_makes (w w' : MixHeap) (h : WReach w) (op : WOp) (m : Except PyErr GMixObj)
    (hm : makes w op = some m) (r : Except PyErr Unit) (hs : wStep w op = some (w', r)) :
    (∀ e, m = .error e → w' = w ∧ r = .error e) ∧
    (∀ o, m = .ok o → r = .ok () ∧ w'.nMix = w.nMix + 1 ∧ w'.get w.nMix = o) := by
  have hsep := reach_sep h
  have key : w.create m = (w', r) := by
    cases op <;> simp only [makes, Option.some.injEq, reduceCtorEq] at hm <;> subst hm <;>
      simpa only [wStep, Option.some.injEq] using hs
  obtain ⟨-, -, he, ho⟩ := create_step hsep m
  rw [key] at he ho
  refine ⟨fun e hm => ?_, ho⟩
  have := he e hm
  simp only [Prod.mk.injEq] at this
  exact this

theorem fillChecked_attrs (o : GMixObj) (p : List ℝ) : (fillChecked o p).1.kind = o.kind ∧
    (fillChecked o p).1.npars = o.npars ∧ (fillChecked o p).1.ngauss = o.ngauss := by
  unfold fillChecked
  split
  · exact ⟨rfl, rfl, rfl⟩
  · unfold fillObj
    simp only
    split <;> exact ⟨rfl, rfl, rfl⟩

/-- C101: the calls that change a mixture leave in it what they should: `fill` (also when it is
refused), `set_cen`, `set_flux`, the norms, and a write to the array `get_data` returned, which is the
array of the object itself. -/
theorem C101_changes (w w' : MixHeap) (r : Except PyErr Unit) (i : ℕ) :
    (∀ a, wStep w (.fill i a) = some (w', r) →
      fillChecked (w.get i) (w.num a) = (w'.get i, r)) ∧
    (∀ row col, wStep w (.setCen i row col) = some (w', r) →
      setCenObj (w.get i) row col = some (w'.get i) ∧ r = .ok ()) ∧
    (∀ f, wStep w (.setFlux i f) = some (w', r) →
      setFluxObj (w.get i) f = some (w'.get i) ∧ r = .ok ()) ∧
    (wStep w (.norms i) = some (w', r) →
      (w'.get i).data = (setNormsIfNeeded (w.get i).data).1 ∧ r = (setNormsIfNeeded (w.get i).data).2 ∧
      (w'.get i).pars = (w.get i).pars ∧ (w'.get i).kind = (w.get i).kind) ∧
    (∀ k g, k < (w.get i).data.length → wStep w (.writeData i k g) = some (w', r) →
      (w'.get i).data = (w.get i).data.set k g ∧ (w'.get i).pars = (w.get i).pars ∧ r = .ok ()) ∧
    (∀ kw, wStep w (.setCenJac i kw) = some (w', r) → (w.getJac i).setCen kw = (w'.getJac i, r)) := by
  refine ⟨?_, ?_, ?_, ?_, ?_, ?_⟩
  · intro a hr
    simp only [wStep, Option.some.injEq, Prod.mk.injEq] at hr
    obtain ⟨rfl, rfl⟩ := hr
    obtain ⟨h1, h2, h3⟩ := fillChecked_attrs (w.get i) (w.num a)
    rw [put_get _ _ _ h1 h2 h3]
  · intro row col hr
    simp only [wStep, Option.map_eq_some_iff, Prod.mk.injEq] at hr
    obtain ⟨o, ho, rfl, rfl⟩ := hr
    refine ⟨?_, rfl⟩
    rw [ho, put_get]
    all_goals
      simp only [setCenObj, Option.map_eq_some_iff] at ho
      obtain ⟨d, -, rfl⟩ := ho
      split <;> rfl
  · intro f hr
    simp only [wStep, Option.map_eq_some_iff, Prod.mk.injEq] at hr
    obtain ⟨o, ho, rfl, rfl⟩ := hr
    refine ⟨?_, rfl⟩
    rw [ho, put_get]
    all_goals
      simp only [setFluxObj, Option.map_eq_some_iff] at ho
      obtain ⟨d, -, rfl⟩ := ho
      rfl
  · intro hr
    simp only [wStep, Option.some.injEq, Prod.mk.injEq] at hr
    obtain ⟨rfl, rfl⟩ := hr
    rw [put_get _ _ _ rfl rfl rfl]
    exact ⟨rfl, rfl, rfl, rfl⟩
  · intro k g hk hr
    simp only [wStep, if_pos hk, Option.some.injEq, Prod.mk.injEq] at hr
    obtain ⟨rfl, rfl⟩ := hr
    rw [put_get _ _ _ rfl rfl rfl]
    exact ⟨rfl, rfl, rfl⟩
  · intro kw hr
    simp only [wStep, Option.some.injEq, Prod.mk.injEq] at hr
    obtain ⟨rfl, rfl⟩ := hr
    simp only [MixHeap.getJac, upd_same]

theorem run_append {w w1 : MixHeap} {l : List WOp} (h : WRun w l w1) {op : WOp} {w2 : MixHeap}
    (hc : WCall w1 op w2) : WRun w (l ++ [op]) w2 := by
  induction h with
  | nil => exact .cons hc (.nil _)
  | cons h' _ ih => exact .cons h' (ih hc)

theorem reach_call {w w1 : MixHeap} (h : WReach w) {op : WOp} (hc : WCall w op w1) : WReach w1 := by
  obtain ⟨ops, hr⟩ := h
  exact ⟨_, run_append hr hc⟩

/-- C101: a copy of a mixture and the original are independent: whatever is done later with one, its
derived mixtures and everything else, the other stays as it was. -/
theorem C101_copy_independent (w w1 w2 : MixHeap) (h : WReach w) (i : ℕ) (hi : i < w.nMix)
    (hc : wStep w (.copy i) = some (w1, .ok ())) (ops : List WOp) (hr : WRun w1 ops w2) :
    w1.nMix = w.nMix + 1 ∧ copyGMix (w.get i) = .ok (w1.get w.nMix) ∧
    ((∀ op ∈ ops, changes op ≠ some i) → w2.get i = w.get i) ∧
    ((∀ op ∈ ops, changes op ≠ some w.nMix) → w2.get w.nMix = w1.get w.nMix) := by
  have call : WCall w (.copy i) w1 := ⟨hi, _, hc⟩
  obtain ⟨m1, m2⟩ := C101_makes w w1 h (.copy i) _ rfl _ hc
  cases e : copyGMix (w.get i) with
  | error x =>
    have := (m1 x e).2
    cases this
  | ok o =>
    obtain ⟨-, n1, n2⟩ := m2 o e
    obtain ⟨h1, -, -⟩ := C101_history w1 w2 (reach_call h call) ops hr
    refine ⟨n1, by rw [n2], fun hn => ?_, fun hn => h1 _ (by omega) hn⟩
    rw [h1 i (by omega) hn]
    exact (C101_frame w w1 h _ call).1 i hi (by simp [changes])

/-- C101: the same for a copy of a Jacobian. -/
theorem C101_jacobian_copy_independent (w w1 w2 : MixHeap) (h : WReach w) (j : ℕ) (hj : j < w.nJobj)
    (hc : wStep w (.copyJac j) = some (w1, .ok ())) (ops : List WOp) (hr : WRun w1 ops w2) :
    w1.nJobj = w.nJobj + 1 ∧ (w.getJac j).copy = .ok (w1.getJac w.nJobj) ∧
    ((∀ op ∈ ops, changesJac op ≠ some j) → w2.getJac j = w.getJac j) ∧
    ((∀ op ∈ ops, changesJac op ≠ some w.nJobj) → w2.getJac w.nJobj = w1.getJac w.nJobj) := by
  have call : WCall w (.copyJac j) w1 := ⟨hj, _, hc⟩
  obtain ⟨-, -, m1, m2⟩ := createJac_step (reach_sep h) (w.getJac j).copy
  have key : w.createJac (w.getJac j).copy = (w1, .ok ()) := by
    simpa only [wStep, Option.some.injEq] using hc
  cases e : (w.getJac j).copy with
  | error x =>
    have := m1 x e
    rw [key] at this
    simp at this
  | ok o =>
    obtain ⟨-, n1, n2⟩ := m2 o e
    rw [key] at n1 n2
    simp only at n1 n2
    obtain ⟨-, h1, -⟩ := C101_history w1 w2 (reach_call h call) ops hr
    refine ⟨n1, by rw [n2], fun hn => ?_, fun hn => h1 _ (by omega) hn⟩
    rw [h1 j (by omega) hn]
    exact (C101_frame w w1 h _ call).2.1 j hj (by simp [changesJac])

/-- A program: an array, a gaussian made from it, a copy, then the copy is moved and the array
overwritten.  The first mixture has not changed, the copy has. -/
example : ∃ w w1 w2 : MixHeap, WReach w ∧ 0 < w.nMix ∧ wStep w (.copy 0) = some (w1, .ok ()) ∧
    WRun w1 [.setCen 1 5 6, .writeArray 0 5 99] w2 ∧ w2.get 0 = w.get 0 ∧
    Flux (w2.get 0).data = 7 ∧ (w2.get 1).data.map Gauss.row = [5] ∧
    (w2.get 0).data.map Gauss.row = [1] := by
  have hmk : makeGmixModel [7, 1, 2, 3, 0, 4] (.num 0) =
      .ok ⟨.full, 6, 1, [7, 1, 2, 3, 0, 4], fillFull [7, 1, 2, 3, 0, 4]⟩ := by
    have h0 : getModelNum (.num 0) = .ok 0 := by decide +kernel
    simp [makeGmixModel, h0, Except.bind, newGMix, built, fillObj, fillFunc, resetObj]
  have hr0 : WReach (MixHeap.empty.newArray [7, 1, 2, 3, 0, 4]) :=
    ⟨[.newArray [7, 1, 2, 3, 0, 4]], .cons ⟨trivial, _, rfl⟩ (.nil _)⟩
  have a0 := array_step sep_empty [7, 1, 2, 3, 0, 4]
  set w0 := MixHeap.empty.newArray [7, 1, 2, 3, 0, 4] with hw0
  have hs0 : wStep w0 (.make 0 (.num 0)) = some (w0.create (.ok
      ⟨.full, 6, 1, [7, 1, 2, 3, 0, 4], fillFull [7, 1, 2, 3, 0, 4]⟩)) := by
    have : w0.num 0 = [7, 1, 2, 3, 0, 4] := a0.2.2.1
    simp only [wStep, this, hmk]
  have c0 : WCall w0 (.make 0 (.num 0)) (w0.create (.ok
      ⟨.full, 6, 1, [7, 1, 2, 3, 0, 4], fillFull [7, 1, 2, 3, 0, 4]⟩)).1 := ⟨a0.2.2.2, _, hs0⟩
  have hr1 := reach_call hr0 c0
  obtain ⟨-, -, -, hcr⟩ := create_step (reach_sep hr0)
    (.ok ⟨.full, 6, 1, [7, 1, 2, 3, 0, 4], fillFull [7, 1, 2, 3, 0, 4]⟩)
  obtain ⟨-, hn, hg⟩ := hcr _ rfl
  have hh := (step_all (reach_sep hr0) _ c0).2.handed 0 a0.2.2.2
  have hnum := (step_all (reach_sep hr0) _ c0).2.arr 0 a0.2.2.2 (by simp [changesArray])
  rw [show w0.num 0 = [7, 1, 2, 3, 0, 4] from a0.2.2.1] at hnum
  set w := (w0.create (.ok ⟨.full, 6, 1, [7, 1, 2, 3, 0, 4], fillFull [7, 1, 2, 3, 0, 4]⟩)).1 with hw
  have z : w0.nMix = 0 := rfl
  rw [z] at hn hg
  have hcp : wStep w (.copy 0) = some (w.create (copyGMix (w.get 0))) := rfl
  have hco : copyGMix (w.get 0) =
      .ok { resetObj .full 6 1 with data := fillFull [7, 1, 2, 3, 0, 4] } := by
    rw [hg]; rfl
  rw [hco] at hcp
  have c1 : WCall w (.copy 0)
      (w.create (.ok { resetObj .full 6 1 with data := fillFull [7, 1, 2, 3, 0, 4] })).1 :=
    ⟨by simp only [WLegal]; omega, _, hcp⟩
  obtain ⟨-, -, -, hcr1⟩ := create_step (w := w) (reach_sep hr1)
    (.ok { resetObj .full 6 1 with data := fillFull [7, 1, 2, 3, 0, 4] })
  obtain ⟨k1, k2, k3⟩ := hcr1 _ rfl
  rw [hn] at k2 k3
  have hcp' : wStep w (.copy 0) =
      some ((w.create (.ok { resetObj .full 6 1 with data := fillFull [7, 1, 2, 3, 0, 4] })).1, .ok ()) := by
    rw [hcp, ← k1]
  have hh1 := (step_all (reach_sep hr1) _ c1).2.handed 0 hh
  have hnum1 := (step_all (reach_sep hr1) _ c1).2.arr 0 hh (by simp [changesArray])
  rw [hnum] at hnum1
  have hr2 := reach_call hr1 c1
  set w1 := (w.create (.ok { resetObj .full 6 1 with data := fillFull [7, 1, 2, 3, 0, 4] })).1 with hw1
  obtain ⟨o, ho, hrow⟩ : ∃ o, setCenObj (w1.get 1) 5 6 = some o ∧ o.data.map Gauss.row = [5] := by
    rw [k3]
    have hc : getCen (fillFull [7, 1, 2, 3, 0, 4]) = some (1, 2) := by
      norm_num [getCen, fillFull, gauss2dSet, psum]
    have hc' : setCen (fillFull [7, 1, 2, 3, 0, 4]) 5 6 = some ((fillFull [7, 1, 2, 3, 0, 4]).map
        fun g => { g with row := g.row + (5 - 1), col := g.col + (6 - 2) }) := by
      rw [setCen, hc]; rfl
    refine ⟨{ resetObj .full 6 1 with data := ((fillFull [7, 1, 2, 3, 0, 4]).map
        (fun g => { g with row := g.row + (5 - 1), col := g.col + (6 - 2) })) }, ?_, ?_⟩
    · unfold setCenObj
      rw [hc']
      rfl
    · norm_num [fillFull, gauss2dSet]
  have hs2 : wStep w1 (.setCen 1 5 6) = some (w1.put 1 o, .ok ()) := by simp [wStep, ho]
  have c2 : WCall w1 (.setCen 1 5 6) (w1.put 1 o) := ⟨by simp only [WLegal]; omega, _, hs2⟩
  have k4 := (step_all (reach_sep hr2) _ c2).2
  have hr3 := reach_call hr2 c2
  have hnum2 := (k4.arr 0 hh1 (by simp [changesArray])).trans hnum1
  obtain ⟨w2, hs3⟩ : ∃ w2, wStep (w1.put 1 o) (.writeArray 0 5 99) = some (w2, .ok ()) :=
    ⟨_, by simp only [wStep]; rw [if_pos (by rw [hnum2]; simp)]⟩
  have c3 : WCall (w1.put 1 o) (.writeArray 0 5 99) w2 := ⟨hh1, _, hs3⟩
  have run : WRun w1 [.setCen 1 5 6, .writeArray 0 5 99] w2 := .cons c2 (.cons c3 (.nil _))
  have same := (C101_copy_independent w w1 w2 hr1 0 (by omega) hcp' _ run).2.2.1 (by simp [changes])
  have o1 : w2.get 1 = o := by
    rw [(C101_frame _ _ hr3 _ c3).1 1 (by show 1 < w1.nMix; omega) (by simp [changes])]
    have := ((C101_changes w1 (w1.put 1 o) (.ok ()) 1).2.1 5 6 hs2).1
    rw [ho] at this
    exact (Option.some.inj this).symm
  refine ⟨w, w1, w2, hr1, by omega, hcp', run, same, ?_, ?_, ?_⟩
  · rw [same, hg]; norm_num [Flux, fillFull, gauss2dSet]
  · rw [o1]; exact hrow
  · rw [same, hg]; norm_num [fillFull, gauss2dSet]

end Ngmix.Props
