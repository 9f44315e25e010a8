import Verif.Proof.ObsInv
import Mathlib.Tactic.Common
import Mathlib.Data.List.Basic

/-! Every operation preserves the invariant, and what each operation leaves alone. -/

namespace Ngmix

open Ngmix.Props Ngmix.Spec

variable {G M : Type}

/-- Heaps that differ in contents and in what the caller knows, not in observations. -/
theorem Inv.contents {s s' : Store G M} (i : Inv s) (b : Base s') (ho : s'.obs = s.obs)
    (hno : s'.nObs = s.nObs)
    (hn : s.nArr ≤ s'.nArr) (ha : ∀ a < s.nArr, (s'.arr a).shape = (s.arr a).shape)
    (hj : s.nJac ≤ s'.nJac) (hg : s.nGm ≤ s'.nGm) (hd : s.nDict ≤ s'.nDict)
    (hk : ∀ a ∈ s'.knownGm, a ∈ s.knownGm ∨ s.nGm ≤ a)
    (hkj : ∀ a ∈ s'.knownJac, a ∈ s.knownJac ∨ s.nJac ≤ a) : Inv s' where
  base := b
  wf o h := by
    rw [hno] at h; rw [ho]
    exact (i.wf o h).mono hn ha hj hg hd (le_of_eq hno.symm) hk hkj
  gmDisj o h o' h' := by rw [hno] at h h'; rw [ho]; exact i.gmDisj o h o' h'
  jacDisj o h o' h' := by rw [hno] at h h'; rw [ho]; exact i.jacDisj o h o' h'

theorem writeArr_shape (s : Store G M) (a r c : ℕ) (v : ℝ) (b : ℕ) :
    ((writeArr s a r c v).arr b).shape = (s.arr b).shape := by
  unfold writeArr
  by_cases h : b = a
  · subst h; simp
  · simp [h]

theorem Inv.writeArr {s : Store G M} (i : Inv s) (a r c : ℕ) (v : ℝ) : Inv (writeArr s a r c v) :=
  i.contents ⟨i.base.knownGm, i.base.knownJac, i.base.jwf⟩ rfl rfl (le_refl _)
    (fun b _ => writeArr_shape s a r c v b) (le_refl _) (le_refl _) (le_refl _)
    (fun _ h => Or.inl h) (fun _ h => Or.inl h)

theorem Inv.setJac {s : Store G M} (i : Inv s) (a : ℕ) (j : Jacobian) (hj : JacWF j) :
    Inv { s with jac := Function.update s.jac a j } := by
  refine i.contents ⟨i.base.knownGm, i.base.knownJac, ?_⟩ rfl rfl (le_refl _)
    (fun b _ => rfl) (le_refl _) (le_refl _) (le_refl _)
    (fun _ h => Or.inl h) (fun _ h => Or.inl h)
  intro b hb
  simp only
  by_cases h : b = a
  · subst h; simpa using hj
  · simpa [h] using i.base.jwf b hb

theorem setCen_wf {j : Jacobian} (h : JacWF j) (kw : Kw) : JacWF (j.setCen kw).1 :=
  ((C15_set_cen j kw).2.2.2.2 h).1

theorem Inv.legalArgs {s : Store G M} (i : Inv s) {a : ObsArgs}
    (h : (ObsOp.construct (G := G) (M := M) a).Legal s) : ArgsOK s a := by
  obtain ⟨h1, h2, h3, h4, h5, h6, h7, h8, h9, h10⟩ := h
  refine ⟨h1, h2, h3, h4, h5, h6, ?_, h9, h10⟩
  cases hj : a.jacobian with
  | obj j => exact h7 j hj
  | none => trivial
  | wrongType => trivial

/-- The invariant is preserved by every legal operation, successful or not. -/
theorem Inv.step (ops : ObsOps G M) {s : Store G M} (i : Inv s) (op : ObsOp G M) (hl : op.Legal s) :
    Inv (obsStep ops s op).1 := by
  cases op with
  | newArr a => exact i.allocArr a
  | newJac j =>
    obtain ⟨kw, hkw⟩ := hl
    have b := allocJac_base i.base (C15_constructed_wellformed kw j hkw)
    have e := ext_allocJac s s.nObs j
    refine i.contents ⟨b.knownGm, ?_, b.jwf⟩ rfl rfl e.nArr (fun _ _ => rfl) e.nJac e.nGm e.nDict
      (fun _ h => Or.inl h) ?_
    · intro a ha
      rcases List.mem_cons.1 ha with h | h
      · subst h; exact Nat.lt_succ_self _
      · exact b.knownJac a h
    · intro a ha
      rcases List.mem_cons.1 ha with h | h
      · subst h; exact Or.inr (le_refl _)
      · exact Or.inl h
  | newGm g =>
    have b := (i.allocGm g).base
    have e := ext_allocGm s s.nObs g
    refine i.contents ⟨?_, b.knownJac, b.jwf⟩ rfl rfl e.nArr (fun _ _ => rfl) e.nJac e.nGm e.nDict
      ?_ (fun _ h => Or.inl h)
    · intro a ha
      rcases List.mem_cons.1 ha with h | h
      · subst h; exact Nat.lt_succ_self _
      · exact b.knownGm a h
    · intro a ha
      rcases List.mem_cons.1 ha with h | h
      · subst h; exact Or.inr (le_refl _)
      · exact Or.inl h
  | newDict m => exact i.allocDict m
  | writeOwnArr a r c v => exact i.writeArr a r c v
  | writeOwnGm a g =>
    exact i.contents ⟨i.base.knownGm, i.base.knownJac, i.base.jwf⟩ rfl rfl (le_refl _)
      (fun _ _ => rfl) (le_refl _) (le_refl _) (le_refl _) (fun _ h => Or.inl h) (fun _ h => Or.inl h)
  | setCenOwnJac a kw =>
    exact i.setJac a _ (setCen_wf (i.base.jwf a hl) kw)
  | construct a => exact (newObs_inv ops i a (i.legalArgs hl)).1
  | copy o fuel => exact (copyObs_spec ops fuel s o i hl).1
  | setImage o a => exact i.setter hl.1 (setImage_ok s o a true hl.2)
  | setWeight o a => exact i.setter hl.1 (setWeight_ok True True s o a true hl.2)
  | setAux o f a => exact i.setter hl.1 (setAuxArr_ok True True s o f a hl.2)
  | setJacobian o a =>
    refine i.setter hl.1 (setJacobian_ok True True s o a true ?_ i.base)
    cases a with
    | obj j => exact hl.2 j rfl
    | none => trivial
    | wrongType => trivial
  | setPsf o a => exact i.setter hl.1 (setPsf_ok True True s o a hl.2)
  | setGmix o a => exact i.setter hl.1 (setGmix_ok ops True True s o a)
  | getGmix o =>
    simp only [obsStep, dropVal, Ngmix.getGmix]
    cases hg : (s.obs o).gmix with
    | none => exact i
    | some a =>
      have b := (i.allocGm (ops.gcopy (s.gm a))).base
      have e := ext_allocGm s s.nObs (ops.gcopy (s.gm a))
      refine i.contents ⟨?_, b.knownJac, b.jwf⟩ rfl rfl e.nArr (fun _ _ => rfl) e.nJac e.nGm e.nDict
        ?_ (fun _ h => Or.inl h)
      · intro a ha
        rcases List.mem_cons.1 ha with h | h
        · subst h; exact Nat.lt_succ_self _
        · exact b.knownGm a h
      · intro a ha
        rcases List.mem_cons.1 ha with h | h
        · subst h; exact Or.inr (le_refl _)
        · exact Or.inl h
  | writeOwnDict a m =>
    exact i.contents ⟨i.base.knownGm, i.base.knownJac, i.base.jwf⟩ rfl rfl (le_refl _)
      (fun _ _ => rfl) (le_refl _) (le_refl _) (le_refl _) (fun _ h => Or.inl h) (fun _ h => Or.inl h)
  | updateMeta o f =>
    cases f with
    | none => exact i
    | some f =>
      exact i.contents ⟨i.base.knownGm, i.base.knownJac, i.base.jwf⟩ rfl rfl (le_refl _)
        (fun _ _ => rfl) (le_refl _) (le_refl _) (le_refl _) (fun _ h => Or.inl h) (fun _ h => Or.inl h)
  | setMeta o a => exact i.setter hl.1 (setMeta_ok ops True True s o a hl.2)
  | setStorePixels o b => exact i.setter hl (setStorePixels_ok True True s o b)
  | setIgnoreZero o b => exact i.setter hl (setIgnoreZero_ok True True s o b)
  | enter o => exact i.setter hl (enterWriteable_ok True True s o)
  | exit o => exact i.setter hl (exitWriteable_ok True True s o)
  | writeView o f r c v =>
    simp only [obsStep, Ngmix.writeView]
    split
    · exact i
    · split_ifs
      · exact i.writeArr _ r c v
      · exact i
      · exact i
  | writeJacCen o kw =>
    simp only [obsStep, Ngmix.writeJacCen]
    split_ifs
    · exact i.setJac _ _ (setCen_wf (i.base.jwf _ ((i.wf o hl).jac trivial).1) kw)
    · exact i

theorem inv_empty {s : Store G M} (h : s.Empty) : Inv s := by
  obtain ⟨h1, h2, h3, h4, h5, h6, h7⟩ := h
  refine ⟨⟨by simp [h6], by simp [h7], by simp [h2]⟩, by simp [h5], by simp [h5], by simp [h5]⟩

theorem reach_inv {ops : ObsOps G M} {s : Store G M} (h : Reach ops s) : Inv s := by
  induction h with
  | start s h => exact inv_empty h
  | step s op _ hl ih => exact ih.step ops op hl

/-! ### What each setter does to the record -/

theorem maybeUpdate_rec (s : Store G M) (o : ℕ) (r : Obs) (u : Bool) :
    ∃ px, (maybeUpdate (s.setObs o r) o u).1.obs o = { r with pixels := px } := by
  obtain ⟨-, -, -, ⟨px, h⟩, -, -, -⟩ := maybeUpdate_spec (s.setObs o r) o u
  exact ⟨px, by rw [h, setObs_obs]⟩

theorem setImage_rec (s : Store G M) (o : ℕ) (a : ArrArg) (u : Bool) (ha : a.addr < s.nArr) :
    ∃ im px, (setImage s o a u).1.obs o = { s.obs o with image := im, pixels := px } := by
  obtain ⟨-, hobs, -⟩ := asArray_spec s o a ha
  unfold setImage
  simp only
  split_ifs
  · exact ⟨_, _, by rw [hobs]⟩
  · exact ⟨_, _, by rw [hobs]⟩
  · obtain ⟨px, h⟩ := maybeUpdate_rec (asArray s a).1 o
      { (asArray s a).1.obs o with image := (asArray s a).2 } u
    exact ⟨_, px, by rw [h, hobs]⟩

theorem setWeight_rec (s : Store G M) (o : ℕ) (a : Option ArrArg) (u : Bool)
    (ha : ∀ x ∈ a, x.addr < s.nArr) :
    ∃ wt px, (setWeight s o a u).1.obs o = { s.obs o with weight := wt, pixels := px } := by
  cases a with
  | none =>
    obtain ⟨px, h⟩ := maybeUpdate_rec (s.allocArr ⟨(s.arr (s.obs o).image).shape, fun _ _ => 1⟩) o
      { s.obs o with weight := s.nArr } u
    exact ⟨_, px, h⟩
  | some a =>
    obtain ⟨-, hobs, -⟩ := asArray_spec s o a (ha a rfl)
    unfold setWeight
    simp only
    split_ifs
    · exact ⟨_, _, by rw [hobs]⟩
    · exact ⟨_, _, by rw [hobs]⟩
    · obtain ⟨px, h⟩ := maybeUpdate_rec (asArray s a).1 o
        { (asArray s a).1.obs o with weight := (asArray s a).2 } u
      exact ⟨_, px, by rw [h, hobs]⟩

theorem setAuxArr_rec (s : Store G M) (o : ℕ) (f : AuxField) (a : Option ArrArg)
    (ha : ∀ x ∈ a, x.addr < s.nArr) :
    ∃ v, (setAuxArr s o f a).1.obs o = (s.obs o).setAux f v := by
  have hself : (s.obs o).setAux f ((s.obs o).aux f) = s.obs o := by
    cases f <;> rfl
  cases a with
  | none => exact ⟨none, by simp [setAuxArr]⟩
  | some a =>
    obtain ⟨-, hobs, -⟩ := asArray_spec s o a (ha a rfl)
    unfold setAuxArr
    simp only
    split_ifs
    · exact ⟨_, by rw [hobs]; exact hself.symm⟩
    · exact ⟨_, by rw [hobs]; exact hself.symm⟩
    · exact ⟨_, by rw [setObs_obs, hobs]⟩

theorem setJacobian_rec (s : Store G M) (o : ℕ) (a : ObjArg) (u : Bool) :
    ∃ j px, (setJacobian s o a u).1.obs o = { s.obs o with jac := j, pixels := px } := by
  unfold setJacobian
  cases a with
  | wrongType => exact ⟨_, _, rfl⟩
  | none =>
    simp only
    split
    · exact ⟨_, _, rfl⟩
    · rename_i j _
      obtain ⟨px, h⟩ := maybeUpdate_rec (s.allocJac j) o { s.obs o with jac := s.nJac } u
      exact ⟨_, px, h⟩
  | obj j =>
    simp only
    split
    · exact ⟨_, _, rfl⟩
    · rename_i j _
      obtain ⟨px, h⟩ := maybeUpdate_rec (s.allocJac j) o { s.obs o with jac := s.nJac } u
      exact ⟨_, px, h⟩

theorem setPsf_rec (s : Store G M) (o : ℕ) (a : ObjArg) :
    ∃ p, (setPsf s o a).1.obs o = { s.obs o with psf := p } := by
  unfold setPsf
  cases a <;> simp

theorem setGmix_rec (ops : ObsOps G M) (s : Store G M) (o : ℕ) (a : ObjArg) :
    ∃ g, (setGmix ops s o a).1.obs o = { s.obs o with gmix := g } := by
  unfold setGmix
  cases a <;> simp [Store.allocGm]

theorem setMeta_rec (ops : ObsOps G M) (s : Store G M) (o : ℕ) (a : ObjArg) :
    ∃ m, (setMeta ops s o a).1.obs o = { s.obs o with md := m } := by
  unfold setMeta
  cases a <;> simp [Store.allocDict]
  exact ⟨_, rfl⟩

theorem setStorePixels_rec (s : Store G M) (o : ℕ) (b : Bool) :
    ∃ px, (setStorePixels s o b).1.obs o = { s.obs o with storePixels := b, pixels := px } :=
  maybeUpdate_rec _ _ _ _

theorem setIgnoreZero_rec (s : Store G M) (o : ℕ) (b : Bool) :
    ∃ px, (setIgnoreZero s o b).1.obs o = { s.obs o with ignoreZero := b, pixels := px } :=
  maybeUpdate_rec _ _ _ _

theorem exitWriteable_rec (s : Store G M) (o : ℕ) :
    ∃ px, (exitWriteable s o).1.obs o = { s.obs o with writeable := false, pixels := px } :=
  maybeUpdate_rec s o { s.obs o with writeable := false } true

/-- The observation an operation sets an attribute of. -/
def ObsOp.target : ObsOp G M → Option ℕ
  | .setImage o _ | .setWeight o _ | .setAux o _ _ | .setJacobian o _ | .setPsf o _ | .setGmix o _
  | .setMeta o _ | .setStorePixels o _ | .setIgnoreZero o _ | .enter o | .exit o => some o
  | _ => none

/-- Operations on other objects leave the attributes of an observation alone. -/
theorem step_obs_other (ops : ObsOps G M) {s : Store G M} (i : Inv s) (op : ObsOp G M)
    (hl : op.Legal s) (o : ℕ) (ho : o < s.nObs) (ht : op.target ≠ some o) :
    (obsStep ops s op).1.obs o = s.obs o := by
  have ne : ∀ p : ℕ, some p ≠ some o → o ≠ p := fun p h h' => h (by rw [h'])
  cases op with
  | newArr | newJac | newGm | newDict | writeOwnArr | writeOwnGm | setCenOwnJac | writeOwnDict => rfl
  | updateMeta p f => cases f <;> rfl
  | construct a => exact (newObs_inv ops i a (i.legalArgs hl)).2.obs o ho
  | copy p fuel => exact (copyObs_spec ops fuel s p i hl).2.1.obs o ho
  | setImage p a => exact (setImage_ok s p a true hl.2).ext.obs o (ne p ht)
  | setWeight p a => exact (setWeight_ok True True s p a true hl.2).ext.obs o (ne p ht)
  | setAux p f a => exact (setAuxArr_ok True True s p f a hl.2).ext.obs o (ne p ht)
  | setJacobian p a =>
    refine (setJacobian_ok True True s p a true ?_ i.base).ext.obs o (ne p ht)
    cases a with
    | obj j => exact hl.2 j rfl
    | none => trivial
    | wrongType => trivial
  | setPsf p a => exact (setPsf_ok True True s p a hl.2).ext.obs o (ne p ht)
  | setGmix p a => exact (setGmix_ok ops True True s p a).ext.obs o (ne p ht)
  | getGmix p =>
    simp only [obsStep, dropVal, Ngmix.getGmix]
    split <;> rfl
  | setMeta p a => exact (setMeta_ok ops True True s p a hl.2).ext.obs o (ne p ht)
  | setStorePixels p b => exact (setStorePixels_ok True True s p b).ext.obs o (ne p ht)
  | setIgnoreZero p b => exact (setIgnoreZero_ok True True s p b).ext.obs o (ne p ht)
  | enter p => exact (enterWriteable_ok True True s p).ext.obs o (ne p ht)
  | exit p => exact (exitWriteable_ok True True s p).ext.obs o (ne p ht)
  | writeView p f r c v =>
    simp only [obsStep, Ngmix.writeView]
    split
    · rfl
    · split_ifs <;> rfl
  | writeJacCen p kw =>
    simp only [obsStep, Ngmix.writeJacCen]
    split_ifs <;> rfl

/-- Operations that are not in-place writes keep all buffers, Jacobians and mixtures. -/
theorem step_ext (ops : ObsOps G M) {s : Store G M} (i : Inv s) (op : ObsOp G M) (hl : op.Legal s)
    (o : ℕ) (ht : op.target = some o) : Ext s (obsStep ops s op).1 o := by
  cases op <;> simp only [ObsOp.target, Option.some.injEq, reduceCtorEq] at ht <;> subst ht
  · exact (setImage_ok s _ _ true hl.2).ext
  · exact (setWeight_ok True True s _ _ true hl.2).ext
  · exact (setAuxArr_ok True True s _ _ _ hl.2).ext
  · rename_i a
    refine (setJacobian_ok True True s _ a true ?_ i.base).ext
    cases a with
    | obj j => exact hl.2 j rfl
    | none => trivial
    | wrongType => trivial
  · exact (setPsf_ok True True s _ _ hl.2).ext
  · exact (setGmix_ok ops True True s _ _).ext
  · exact (setMeta_ok ops True True s _ _ hl.2).ext
  · exact (setStorePixels_ok True True s _ _).ext
  · exact (setIgnoreZero_ok True True s _ _).ext
  · exact (enterWriteable_ok True True s _).ext
  · exact (exitWriteable_ok True True s _).ext

/-- The mixture of an observation, and whether it has one, changes only through `set_gmix`. -/
theorem step_gmix (ops : ObsOps G M) {s : Store G M} (i : Inv s) (op : ObsOp G M) (hl : op.Legal s)
    (o : ℕ) (ho : o < s.nObs) (hne : ∀ a, op ≠ .setGmix o a) :
    ((obsStep ops s op).1.obs o).gmix = (s.obs o).gmix ∧
    ∀ h, (s.obs o).gmix = some h → (obsStep ops s op).1.gm h = s.gm h := by
  constructor
  · by_cases ht : op.target = some o
    · cases op <;> simp only [ObsOp.target, Option.some.injEq, reduceCtorEq] at ht <;> subst ht
      · obtain ⟨_, _, h⟩ := setImage_rec s _ _ true hl.2; simp only [obsStep]; rw [h]
      · obtain ⟨_, _, h⟩ := setWeight_rec s _ _ true hl.2; simp only [obsStep]; rw [h]
      · rename_i f _; obtain ⟨_, h⟩ := setAuxArr_rec s _ f _ hl.2; simp only [obsStep]; rw [h]; cases f <;> rfl
      · rename_i a; obtain ⟨_, _, h⟩ := setJacobian_rec s _ a true; simp only [obsStep]; rw [h]
      · rename_i a; obtain ⟨_, h⟩ := setPsf_rec s _ a; simp only [obsStep]; rw [h]
      · exact absurd rfl (hne _)
      · rename_i a; obtain ⟨_, h⟩ := setMeta_rec ops s _ a; simp only [obsStep]; rw [h]
      · rename_i a; obtain ⟨_, h⟩ := setStorePixels_rec s _ a; simp only [obsStep]; rw [h]
      · rename_i a; obtain ⟨_, h⟩ := setIgnoreZero_rec s _ a; simp only [obsStep]; rw [h]
      · simp [obsStep, enterWriteable]
      · rename_i p; obtain ⟨_, h⟩ := exitWriteable_rec s p; simp only [obsStep]; rw [h]
    · rw [step_obs_other ops i op hl o ho ht]
  · intro h hh
    obtain ⟨hlt, hk⟩ := (i.wf o ho).gmix h hh
    by_cases ht : ∃ p, op.target = some p
    · obtain ⟨p, hp⟩ := ht
      exact (step_ext ops i op hl p hp).gm h hlt
    · cases op <;> simp only [ObsOp.target, Option.some.injEq, exists_eq', not_true, reduceCtorEq] at ht
      · rfl
      · rfl
      · exact (ext_allocGm s 0 _).gm h hlt
      · rfl
      · rfl
      · rename_i a g
        have : h ≠ a := fun e => hk (by rw [e]; exact hl)
        simp [obsStep, this]
      · rfl
      · exact (newObs_inv ops i _ (i.legalArgs hl)).2.gm h hlt
      · exact (copyObs_spec ops _ s _ i hl).2.1.gm h hlt
      · simp only [obsStep, dropVal, Ngmix.getGmix]
        split
        · rfl
        · exact (ext_allocGm s 0 _).gm h hlt
      · simp only [obsStep, Ngmix.writeView]
        split
        · rfl
        · split_ifs <;> rfl
      · simp only [obsStep, Ngmix.writeJacCen]
        split_ifs <;> rfl
      · rfl
      · rename_i p f; cases f <;> rfl

/-- The psf attribute changes only through `set_psf`. -/
theorem step_psf (ops : ObsOps G M) {s : Store G M} (i : Inv s) (op : ObsOp G M) (hl : op.Legal s)
    (o : ℕ) (ho : o < s.nObs) (hne : ∀ a, op ≠ .setPsf o a) :
    ((obsStep ops s op).1.obs o).psf = (s.obs o).psf := by
  by_cases ht : op.target = some o
  · cases op <;> simp only [ObsOp.target, Option.some.injEq, reduceCtorEq] at ht <;> subst ht
    · obtain ⟨_, _, h⟩ := setImage_rec s _ _ true hl.2; simp only [obsStep]; rw [h]
    · obtain ⟨_, _, h⟩ := setWeight_rec s _ _ true hl.2; simp only [obsStep]; rw [h]
    · rename_i f _; obtain ⟨_, h⟩ := setAuxArr_rec s _ f _ hl.2; simp only [obsStep]; rw [h]; cases f <;> rfl
    · rename_i a; obtain ⟨_, _, h⟩ := setJacobian_rec s _ a true; simp only [obsStep]; rw [h]
    · exact absurd rfl (hne _)
    · rename_i a; obtain ⟨_, h⟩ := setGmix_rec ops s _ a; simp only [obsStep]; rw [h]
    · rename_i a; obtain ⟨_, h⟩ := setMeta_rec ops s _ a; simp only [obsStep]; rw [h]
    · rename_i a; obtain ⟨_, h⟩ := setStorePixels_rec s _ a; simp only [obsStep]; rw [h]
    · rename_i a; obtain ⟨_, h⟩ := setIgnoreZero_rec s _ a; simp only [obsStep]; rw [h]
    · simp [obsStep, enterWriteable]
    · rename_i p; obtain ⟨_, h⟩ := exitWriteable_rec s p; simp only [obsStep]; rw [h]
  · rw [step_obs_other ops i op hl o ho ht]

end Ngmix
