import Verif.Proof.ObsSteps
import Mathlib.Tactic.Common
import Mathlib.Data.List.Basic

/-! When the stored pixels stay in step with image, weight and Jacobian. -/

namespace Ngmix

open Ngmix.Props Ngmix.Spec

variable {G M : Type}

theorem updatePixels_total {kj km : Prop} (s : Store G M) (o : ℕ) (w : WfRec kj km s (s.obs o)) :
    (updatePixels s o).2 = .ok () ∨ (updatePixels s o).2 = .error .gmixFatal := by
  unfold updatePixels
  simp only
  split_ifs with hs
  · cases hi : (s.obs o).ignoreZero with
    | false =>
      obtain ⟨px, h, -⟩ := C17_make_pixels_all (s.arr (s.obs o).image).image
        (s.arr (s.obs o).weight).image (s.jac (s.obs o).jac)
      rw [h]; exact Or.inl rfl
    | true =>
      obtain ⟨h1, h2⟩ := C17_make_pixels_ignore (s.arr (s.obs o).image).image
        (s.arr (s.obs o).weight).image (s.jac (s.obs o).jac)
        (by simp only [Arr.image, w.weightShape]; exact ⟨trivial, trivial⟩)
      by_cases hg : positiveWeight (s.arr (s.obs o).image).image.nrow (s.arr (s.obs o).image).image.ncol
          (s.arr (s.obs o).weight).image.get = []
      · rw [h1 hg]; exact Or.inr rfl
      · obtain ⟨px, h, -⟩ := h2 hg
        rw [h]; exact Or.inl rfl
  · exact Or.inl rfl

theorem updatePixels_sync {kj km : Prop} (t : Store G M) (o : ℕ)
    (hne : (updatePixels t o).2 ≠ .error .gmixFatal)
    (w : WfRec kj km (updatePixels t o).1 ((updatePixels t o).1.obs o)) :
    InSync (updatePixels t o).1 ((updatePixels t o).1.obs o) := by
  obtain ⟨-, -, -, -, h5, h6⟩ := updatePixels_spec t o
  cases hx : (updatePixels t o).2 with
  | ok u => exact h5 hx
  | error e =>
    rw [h6 e hx] at w
    rcases updatePixels_total t o w with h | h
    · rw [h] at hx; simp at hx
    · exact absurd h hne

theorem setImage_cases (s : Store G M) (o : ℕ) (a : ArrArg) (ha : a.addr < s.nArr) :
    (setImage s o a true).1.obs o = s.obs o ∨ ∃ t, setImage s o a true = updatePixels t o := by
  obtain ⟨-, hobs, -⟩ := asArray_spec s o a ha
  unfold setImage
  simp only
  split_ifs
  · exact Or.inl (by rw [hobs])
  · exact Or.inl (by rw [hobs])
  · exact Or.inr ⟨_, rfl⟩

theorem setWeight_cases (s : Store G M) (o : ℕ) (a : Option ArrArg) (ha : ∀ x ∈ a, x.addr < s.nArr) :
    (setWeight s o a true).1.obs o = s.obs o ∨ ∃ t, setWeight s o a true = updatePixels t o := by
  cases a with
  | none => exact Or.inr ⟨_, rfl⟩
  | some a =>
    obtain ⟨-, hobs, -⟩ := asArray_spec s o a (ha a rfl)
    unfold setWeight
    simp only
    split_ifs
    · exact Or.inl (by rw [hobs])
    · exact Or.inl (by rw [hobs])
    · exact Or.inr ⟨_, rfl⟩

theorem setJacobian_cases (s : Store G M) (o : ℕ) (a : ObjArg) :
    (setJacobian s o a true).1.obs o = s.obs o ∨ ∃ t, setJacobian s o a true = updatePixels t o := by
  unfold setJacobian
  cases a with
  | wrongType => exact Or.inl rfl
  | none =>
    simp only
    split
    · exact Or.inl rfl
    · exact Or.inr ⟨_, rfl⟩
  | obj j =>
    simp only
    split
    · exact Or.inl rfl
    · exact Or.inr ⟨_, rfl⟩

theorem setStorePixels_cases (s : Store G M) (o : ℕ) (b : Bool) :
    (setStorePixels s o b).1.obs o = s.obs o ∨ ∃ t, setStorePixels s o b = updatePixels t o := by
  unfold setStorePixels
  simp only
  by_cases h : b = (s.obs o).storePixels
  · left; subst h; simp [maybeUpdate]
  · right
    have : (b != (s.obs o).storePixels) = true := by simpa using h
    rw [this]
    exact ⟨_, rfl⟩

theorem setIgnoreZero_cases (s : Store G M) (o : ℕ) (b : Bool) :
    (setIgnoreZero s o b).1.obs o = s.obs o ∨ ∃ t, setIgnoreZero s o b = updatePixels t o := by
  unfold setIgnoreZero
  simp only
  by_cases h : b = (s.obs o).ignoreZero
  · left; subst h; simp [maybeUpdate]
  · right
    have : (b != (s.obs o).ignoreZero) = true := by simpa using h
    rw [this]
    exact ⟨_, rfl⟩

/-- In step, or inside a `writeable()` block. -/
def Good (s : Store G M) (o : ℕ) : Prop := (s.obs o).writeable = true ∨ InSync s (s.obs o)

/-- The operation does not store into the image or weight buffer or the Jacobian of `o` behind its back: either `o`
is in a `writeable()` block, or what is written is another one, for example any Jacobian the caller made. -/
def ObsOp.SafeFor (s : Store G M) (o : ℕ) : ObsOp G M → Prop
  | .writeOwnArr a _ _ _ => (s.obs o).writeable = true ∨ (a ≠ (s.obs o).image ∧ a ≠ (s.obs o).weight)
  | .setCenOwnJac a _ => a ∈ s.knownJac ∨ (s.obs o).writeable = true ∨ a ≠ (s.obs o).jac
  | .writeView p f _ _ _ => p = o ∨ (s.obs o).writeable = true ∨
      ∀ a, (s.obs p).view f = some a → a ≠ (s.obs o).image ∧ a ≠ (s.obs o).weight
  | _ => True

theorem Good.same {s s' : Store G M} {o : ℕ} (h : Good s o) (i : Inv s) (ho : o < s.nObs)
    (e : Ext s s' o) (r : Obs) (hr : s'.obs o = r)
    (h1 : r.image = (s.obs o).image) (h2 : r.weight = (s.obs o).weight) (h3 : r.jac = (s.obs o).jac)
    (h4 : r.storePixels = (s.obs o).storePixels) (h5 : r.ignoreZero = (s.obs o).ignoreZero)
    (h6 : r.pixels = (s.obs o).pixels) (h7 : r.writeable = (s.obs o).writeable) : Good s' o := by
  unfold Good
  rw [hr]
  rcases h with h | h
  · exact Or.inl (by rw [h7]; exact h)
  · have w := i.wf o ho
    exact Or.inr (h.ext e w.image w.weight (w.jac trivial).1 h1 h2 h3 h4 h5 h6)

theorem Good.update {s : Store G M} {o : ℕ} {x : Store G M × Except PyErr Unit} (h : Good s o)
    (i : Inv s) (ho : o < s.nObs) (ok : SetterOK True True True True s o x)
    (hne : x.2 ≠ .error .gmixFatal) (hc : x.1.obs o = s.obs o ∨ ∃ t, x = updatePixels t o) :
    Good x.1 o := by
  rcases hc with hc | ⟨t, ht⟩
  · exact h.same i ho ok.ext _ hc rfl rfl rfl rfl rfl rfl rfl
  · right
    have w := ok.wf i.base (i.wf o ho)
    rw [ht] at w hne ⊢
    exact updatePixels_sync t o hne w

/-- Every safe operation keeps the pixels in step (or the object in its block). -/
theorem Good.step (ops : ObsOps G M) {s : Store G M} {o : ℕ} (h : Good s o) (i : Inv s)
    (ho : o < s.nObs) (op : ObsOp G M) (hl : op.Legal s) (hs : op.SafeFor s o)
    (hne : op.target = some o → (obsStep ops s op).2 ≠ .error .gmixFatal) :
    Good (obsStep ops s op).1 o := by
  by_cases ht : op.target = some o
  · have hne' := hne ht
    have he := step_ext ops i op hl o ht
    cases op <;> simp only [ObsOp.target, Option.some.injEq, reduceCtorEq] at ht <;> subst ht
    · exact h.update i ho (setImage_ok s _ _ true hl.2) hne' (setImage_cases s _ _ hl.2)
    · exact h.update i ho (setWeight_ok True True s _ _ true hl.2) hne' (setWeight_cases s _ _ hl.2)
    · rename_i f _
      obtain ⟨v, hv⟩ := setAuxArr_rec s _ f _ hl.2
      obtain ⟨e1, e2, e3, -, -, -, e7, e8, e9, e10⟩ := setAux_other (s.obs _) f v
      exact h.same i ho he _ hv e1 e2 e3 e8 e9 e10 e7
    · rename_i a
      refine h.update i ho (setJacobian_ok True True s _ a true ?_ i.base) hne'
        (setJacobian_cases s _ _)
      cases a with
      | obj j => exact hl.2 j rfl
      | none => trivial
      | wrongType => trivial
    · rename_i a
      obtain ⟨v, hv⟩ := setPsf_rec s _ a
      exact h.same i ho he _ hv rfl rfl rfl rfl rfl rfl rfl
    · rename_i a
      obtain ⟨v, hv⟩ := setGmix_rec ops s _ a
      exact h.same i ho he _ hv rfl rfl rfl rfl rfl rfl rfl
    · rename_i a
      obtain ⟨v, hv⟩ := setMeta_rec ops s _ a
      exact h.same i ho he _ hv rfl rfl rfl rfl rfl rfl rfl
    · exact h.update i ho (setStorePixels_ok True True s _ _) hne' (setStorePixels_cases s _ _)
    · exact h.update i ho (setIgnoreZero_ok True True s _ _) hne' (setIgnoreZero_cases s _ _)
    · exact Or.inl (by simp [obsStep, enterWriteable])
    · exact h.update i ho (exitWriteable_ok True True s _) hne' (Or.inr ⟨_, rfl⟩)
  · have hobs := step_obs_other ops i op hl o ho ht
    unfold Good
    rw [hobs]
    by_cases hw : (s.obs o).writeable = true
    · exact Or.inl hw
    have hsync : InSync s (s.obs o) := h.resolve_left hw
    have w := i.wf o ho
    have hj := (w.jac trivial)
    right
    suffices hc : (obsStep ops s op).1.arr (s.obs o).image = s.arr (s.obs o).image ∧
        (obsStep ops s op).1.arr (s.obs o).weight = s.arr (s.obs o).weight ∧
        (obsStep ops s op).1.jac (s.obs o).jac = s.jac (s.obs o).jac by
      unfold InSync
      rw [hc.1, hc.2.1, hc.2.2]
      exact hsync
    have ofExt : ∀ {s' : Store G M} {p : ℕ}, Ext s s' p → s'.arr (s.obs o).image = s.arr (s.obs o).image ∧
        s'.arr (s.obs o).weight = s.arr (s.obs o).weight ∧
        s'.jac (s.obs o).jac = s.jac (s.obs o).jac :=
      fun e => ⟨e.arr _ w.image, e.arr _ w.weight, e.jac _ hj.1⟩
    have ofGrow : ∀ {s' : Store G M}, Grow s s' → s'.arr (s.obs o).image = s.arr (s.obs o).image ∧
        s'.arr (s.obs o).weight = s.arr (s.obs o).weight ∧
        s'.jac (s.obs o).jac = s.jac (s.obs o).jac :=
      fun e => ⟨e.arr _ w.image, e.arr _ w.weight, e.jac _ hj.1⟩
    have ofWrite : ∀ a r c v, a ≠ (s.obs o).image ∧ a ≠ (s.obs o).weight →
        (writeArr s a r c v).arr (s.obs o).image = s.arr (s.obs o).image ∧
        (writeArr s a r c v).arr (s.obs o).weight = s.arr (s.obs o).weight ∧
        (writeArr s a r c v).jac (s.obs o).jac = s.jac (s.obs o).jac := by
      intro a r c v hn
      simp [writeArr, hn.1.symm, hn.2.symm]
    by_cases htp : ∃ p, op.target = some p
    · obtain ⟨p, hp⟩ := htp
      exact ofExt (step_ext ops i op hl p hp)
    · cases op <;> simp only [ObsOp.target, Option.some.injEq, exists_eq', not_true, reduceCtorEq] at htp
      · exact ofExt (ext_allocArr s 0 _)
      · have e := ext_allocJac s 0 ‹_›
        exact ⟨e.arr _ w.image, e.arr _ w.weight, e.jac _ hj.1⟩
      · exact ⟨rfl, rfl, rfl⟩
      · exact ⟨rfl, rfl, rfl⟩
      · exact ofWrite _ _ _ _ (hs.resolve_left hw)
      · exact ⟨rfl, rfl, rfl⟩
      · rename_i a kw
        have : (s.obs o).jac ≠ a := by
          rcases hs with hs | hs | hs
          · exact fun e => hj.2 (by rw [e]; exact hs)
          · exact absurd hs hw
          · exact hs.symm
        simp [obsStep, this]
      · exact ofGrow (newObs_inv ops i _ (i.legalArgs hl)).2
      · exact ofGrow (copyObs_spec ops _ s _ i hl).2.1
      · simp only [obsStep, dropVal, Ngmix.getGmix]
        split <;> exact ⟨rfl, rfl, rfl⟩
      · rename_i p f r c v
        simp only [obsStep, Ngmix.writeView]
        cases hv : (s.obs p).view f with
        | none => exact ⟨rfl, rfl, rfl⟩
        | some a =>
          simp only
          by_cases hp : p = o
          · subst hp
            rw [if_pos hw]
            exact ⟨rfl, rfl, rfl⟩
          · have := ((hs.resolve_left hp).resolve_left hw) a hv
            split_ifs
            · exact ofWrite a r c v this
            · exact ⟨rfl, rfl, rfl⟩
            · exact ⟨rfl, rfl, rfl⟩
      · rename_i p kw
        simp only [obsStep, Ngmix.writeJacCen]
        by_cases hp : p = o
        · subst hp
          rw [if_pos hw]
          exact ⟨rfl, rfl, rfl⟩
        · have := i.jacDisj o ho p hl (fun e => hp e.symm)
          split_ifs
          · simp [this]
          · exact ⟨rfl, rfl, rfl⟩
      · exact ⟨rfl, rfl, rfl⟩
      · rename_i p f; cases f <;> exact ⟨rfl, rfl, rfl⟩

theorem step_nObs (ops : ObsOps G M) {s : Store G M} (i : Inv s) (op : ObsOp G M) (hl : op.Legal s) :
    s.nObs ≤ (obsStep ops s op).1.nObs := by
  by_cases ht : ∃ p, op.target = some p
  · obtain ⟨p, hp⟩ := ht
    exact le_of_eq (step_ext ops i op hl p hp).nObs.symm
  · cases op <;> simp only [ObsOp.target, Option.some.injEq, exists_eq', not_true, reduceCtorEq] at ht
    · exact le_refl _
    · exact le_refl _
    · exact le_refl _
    · exact le_refl _
    · exact le_refl _
    · exact le_refl _
    · exact le_refl _
    · exact (newObs_inv ops i _ (i.legalArgs hl)).2.nObs
    · exact (copyObs_spec ops _ s _ i hl).2.1.nObs
    · simp only [obsStep, dropVal, Ngmix.getGmix]
      split <;> exact le_refl _
    · simp only [obsStep, Ngmix.writeView]
      split
      · exact le_refl _
      · split_ifs <;> exact le_refl _
    · simp only [obsStep, Ngmix.writeJacCen]
      split_ifs <;> exact le_refl _
    · exact le_refl _
    · rename_i p f; cases f <;> exact le_refl _

/-! ### Equality -/

theorem arrEq_self (a : Image) : arrEq a a = .ok true := by
  unfold arrEq
  rw [if_pos ⟨Or.inl rfl, Or.inl rfl⟩]
  simp

/-- `o2` has everything `o1` has, with the same contents. -/
inductive EqTo (ops : ObsOps G M) (s : Store G M) : ℕ → ℕ → ℕ → Prop
  | mk (n o1 o2 : ℕ)
      (md : ops.metaEq (s.dict (s.obs o1).md) (s.dict (s.obs o2).md) = true)
      (image : s.arr (s.obs o1).image = s.arr (s.obs o2).image)
      (weight : s.arr (s.obs o1).weight = s.arr (s.obs o2).weight)
      (aux : ∀ f a, (s.obs o1).aux f = some a → ∃ b, (s.obs o2).aux f = some b ∧ s.arr a = s.arr b)
      (psfSome : ∀ p, (s.obs o1).psf = some p → ∃ q, (s.obs o2).psf = some q)
      (psf : ∀ p q, (s.obs o1).psf = some p → (s.obs o2).psf = some q → EqTo ops s n p q)
      (gmix : ∀ g, (s.obs o1).gmix = some g → ∃ h, (s.obs o2).gmix = some h ∧
        ops.geq (ops.gcopy (s.gm g)) (ops.gcopy (s.gm h)) = true)
      (jac : s.jac (s.obs o1).jac = s.jac (s.obs o2).jac) :
      EqTo ops s (n + 1) o1 o2

theorem EqTo.eq {ops : ObsOps G M} {s : Store G M} :
    ∀ (n o1 o2 : ℕ), EqTo ops s n o1 o2 → eqObs ops s n o1 o2 = .ok true := by
  intro n
  induction n with
  | zero => intro o1 o2 h; cases h
  | succ n ih =>
    intro o1 o2 h
    cases h with
    | mk _ _ _ md image weight aux psfSome psf gmix jac =>
      have ha : ∀ f, eqAux s (s.obs o1) (s.obs o2) f = .ok true := by
        intro f
        unfold eqAux
        cases hf : (s.obs o1).aux f with
        | none => rfl
        | some a =>
          obtain ⟨b, h1, h2⟩ := aux f a hf
          simp only [h1, h2]
          exact arrEq_self _
      unfold eqObs
      simp only
      rw [if_neg (by rw [md]; simp), image, weight, arrEq_self, arrEq_self, ha, ha, ha, ha]
      have hp : eqPsf (eqObs ops s n) (s.obs o1) (s.obs o2) = .ok true := by
        unfold eqPsf
        cases hf : (s.obs o1).psf with
        | none => rfl
        | some p =>
          obtain ⟨q, hq⟩ := psfSome p hf
          simp only [hq]
          exact ih p q (psf p q hf hq)
      have hg : eqGmix ops s (s.obs o1) (s.obs o2) = .ok true := by
        unfold eqGmix
        cases hf : (s.obs o1).gmix with
        | none => rfl
        | some g =>
          obtain ⟨h, h1, h2⟩ := gmix g hf
          simp only [h1, h2]
      rw [hp, hg]
      simp [andEq, jac, md]

/-- The laws of `GMix.copy`, `GMix.__eq__` and dictionary equality that are used. -/
structure ObsOps.Lawful (ops : ObsOps G M) : Prop where
  copy_copy : ∀ g, ops.gcopy (ops.gcopy g) = ops.gcopy g
  geq_refl : ∀ g, ops.geq g g = true
  metaEq_refl : ∀ m, ops.metaEq m m = true

theorem CopyOf.eqTo {ops : ObsOps G M} (law : ops.Lawful) {lo s : Store G M} :
    ∀ (n o o' : ℕ), CopyOf ops.gcopy lo s n o o' → EqTo ops s n o o' ∧ EqTo ops s n o' o := by
  intro n
  induction n with
  | zero => intro o o' h; cases h
  | succ n ih =>
    intro o o' h
    cases h with
    | mk _ _ _ self image weight aux jac gmix md flags psfNone psf =>
      have hps : ∀ p, (s.obs o).psf = some p → ∃ q, (s.obs o').psf = some q := by
        intro p hp
        cases hq : (s.obs o').psf with
        | none => rw [psfNone.2 hq] at hp; simp at hp
        | some q => exact ⟨q, rfl⟩
      have hps' : ∀ q, (s.obs o').psf = some q → ∃ p, (s.obs o).psf = some p := by
        intro q hq
        cases hp : (s.obs o).psf with
        | none => rw [psfNone.1 hp] at hq; simp at hq
        | some p => exact ⟨p, rfl⟩
      constructor
      · refine ⟨n, o, o', ?_, image.2.symm, weight.2.symm, ?_, hps, ?_, ?_, jac.2.symm⟩
        · rw [md.2]; exact law.metaEq_refl _
        · intro f a ha
          have := aux f
          rw [ha] at this
          cases hb : (s.obs o').aux f with
          | none => rw [hb] at this; exact this.elim
          | some b => rw [hb] at this; exact ⟨b, rfl, this.2.symm⟩
        · exact fun p q hp hq => (ih p q (psf p q hp hq)).1
        · intro g hg
          rw [hg] at gmix
          cases hb : (s.obs o').gmix with
          | none => rw [hb] at gmix; exact gmix.elim
          | some b =>
            rw [hb] at gmix
            refine ⟨b, rfl, ?_⟩
            rw [gmix.2, law.copy_copy, law.copy_copy]
            exact law.geq_refl _
      · refine ⟨n, o', o, ?_, image.2, weight.2, ?_, hps', ?_, ?_, jac.2⟩
        · rw [md.2]; exact law.metaEq_refl _
        · intro f b hb
          have := aux f
          rw [hb] at this
          cases ha : (s.obs o).aux f with
          | none => rw [ha] at this; exact this.elim
          | some a => rw [ha] at this; exact ⟨a, rfl, this.2⟩
        · exact fun q p hq hp => (ih p q (psf p q hp hq)).2
        · intro b hb
          rw [hb] at gmix
          cases hg : (s.obs o).gmix with
          | none => rw [hg] at gmix; exact gmix.elim
          | some g =>
            rw [hg] at gmix
            refine ⟨g, rfl, ?_⟩
            rw [gmix.2, law.copy_copy, law.copy_copy]
            exact law.geq_refl _

theorem ChainAll.eqTo {ops : ObsOps G M} (law : ops.Lawful) {s : Store G M} {P : Obs → Prop} :
    ∀ (n o : ℕ), ChainAll s P n o → EqTo ops s n o o := by
  intro n
  induction n with
  | zero => intro o h; cases h
  | succ n ih =>
    intro o h
    cases h with
    | mk _ _ here next =>
      exact ⟨n, o, o, law.metaEq_refl _, rfl, rfl, fun f a ha => ⟨a, ha, rfl⟩, fun p hp => ⟨p, hp⟩,
        fun p q hp hq => by
          rw [hp] at hq; injection hq with hq; subst hq; exact ih p (next p hp),
        fun g hg => ⟨g, hg, law.geq_refl _⟩, rfl⟩

theorem andEq_true {x k : Except PyErr Bool} (h : andEq x k = .ok true) : x = .ok true ∧ k = .ok true := by
  unfold andEq at h
  split at h
  · simp at h
  · simp at h
  · exact ⟨rfl, h⟩

end Ngmix
