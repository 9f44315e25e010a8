import Verif.Proof.Observation
import Verif.Spec.Observation
import Mathlib.Tactic.Common
import Mathlib.Data.List.Basic

/-! Invariant of all reachable heaps, and the copy. -/

namespace Ngmix

open Ngmix.Props Ngmix.Spec

variable {G M : Type}

/-- Everything allocated in `s` is unchanged in `s'`. -/
structure Grow (s s' : Store G M) : Prop where
  nArr : s.nArr ≤ s'.nArr
  arr : ∀ a < s.nArr, s'.arr a = s.arr a
  nJac : s.nJac ≤ s'.nJac
  jac : ∀ a < s.nJac, s'.jac a = s.jac a
  nGm : s.nGm ≤ s'.nGm
  gm : ∀ a < s.nGm, s'.gm a = s.gm a
  nDict : s.nDict ≤ s'.nDict
  dict : ∀ a < s.nDict, s'.dict a = s.dict a
  nObs : s.nObs ≤ s'.nObs
  obs : ∀ p < s.nObs, s'.obs p = s.obs p
  known : s'.knownGm = s.knownGm
  knownJ : s'.knownJac = s.knownJac

theorem Grow.rfl' {s : Store G M} : Grow s s :=
  ⟨le_refl _, fun _ _ => rfl, le_refl _, fun _ _ => rfl, le_refl _, fun _ _ => rfl, le_refl _,
    fun _ _ => rfl, le_refl _, fun _ _ => rfl, rfl, rfl⟩

theorem Grow.trans {s t u : Store G M} (h : Grow s t) (k : Grow t u) : Grow s u where
  nArr := h.nArr.trans k.nArr
  arr a ha := (k.arr a (lt_of_lt_of_le ha h.nArr)).trans (h.arr a ha)
  nJac := h.nJac.trans k.nJac
  jac a ha := (k.jac a (lt_of_lt_of_le ha h.nJac)).trans (h.jac a ha)
  nGm := h.nGm.trans k.nGm
  gm a ha := (k.gm a (lt_of_lt_of_le ha h.nGm)).trans (h.gm a ha)
  nDict := h.nDict.trans k.nDict
  dict a ha := (k.dict a (lt_of_lt_of_le ha h.nDict)).trans (h.dict a ha)
  nObs := h.nObs.trans k.nObs
  obs a ha := (k.obs a (lt_of_lt_of_le ha h.nObs)).trans (h.obs a ha)
  known := k.known.trans h.known
  knownJ := k.knownJ.trans h.knownJ

theorem Ext.grow {s s' : Store G M} (h : Ext s s' s.nObs) : Grow s s' :=
  ⟨h.nArr, h.arr, h.nJac, h.jac, h.nGm, h.gm, h.nDict, h.dict, le_of_eq h.nObs.symm,
    fun p hp => h.obs p (ne_of_lt hp), h.known, h.knownJ⟩

theorem WfRec.grow {kj km : Prop} {s s' : Store G M} {r : Obs} (h : WfRec kj km s r)
    (e : Grow s s') : WfRec kj km s' r :=
  h.mono e.nArr (fun a ha => by rw [e.arr a ha]) e.nJac e.nGm e.nDict e.nObs
    (fun a ha => Or.inl (by rw [← e.known]; exact ha))
    (fun a ha => Or.inl (by rw [← e.knownJ]; exact ha))

/-- Invariant of all reachable heaps. -/
structure Inv (s : Store G M) : Prop where
  base : Base s
  wf : ∀ o < s.nObs, WfRec True True s (s.obs o)
  gmDisj : ∀ o < s.nObs, ∀ o' < s.nObs, o ≠ o' → ∀ a, (s.obs o).gmix = some a →
    (s.obs o').gmix ≠ some a
  jacDisj : ∀ o < s.nObs, ∀ o' < s.nObs, o ≠ o' → (s.obs o).jac ≠ (s.obs o').jac

/-- Creating objects other than observations. -/
theorem Inv.alloc {s s' : Store G M} (i : Inv s) (g : Grow s s') (hn : s'.nObs = s.nObs)
    (b : Base s') : Inv s' where
  base := b
  wf o ho := by rw [hn] at ho; rw [g.obs o ho]; exact (i.wf o ho).grow g
  gmDisj o ho o' ho' hne a := by
    rw [hn] at ho ho'; rw [g.obs o ho, g.obs o' ho']; exact i.gmDisj o ho o' ho' hne a
  jacDisj o ho o' ho' hne := by
    rw [hn] at ho ho'; rw [g.obs o ho, g.obs o' ho']; exact i.jacDisj o ho o' ho' hne

theorem Inv.allocArr {s : Store G M} (i : Inv s) (x : Arr) : Inv (s.allocArr x) :=
  i.alloc (ext_allocArr s _ x).grow rfl (i.base.ext (ext_allocArr s s.nObs x) rfl)

theorem Inv.allocGm {s : Store G M} (i : Inv s) (x : G) : Inv (s.allocGm x) :=
  i.alloc (ext_allocGm s _ x).grow rfl (i.base.ext (ext_allocGm s s.nObs x) rfl)

theorem Inv.allocDict {s : Store G M} (i : Inv s) (x : M) : Inv (s.allocDict x) :=
  i.alloc (ext_allocDict s _ x).grow rfl (i.base.ext (ext_allocDict s s.nObs x) rfl)

/-- A setter on an existing observation. -/
theorem Inv.setter {s : Store G M} {o : ℕ} {x : Store G M × Except PyErr Unit} (i : Inv s)
    (ho : o < s.nObs) (h : SetterOK True True True True s o x) : Inv x.1 where
  base := h.base i.base
  wf p hp := by
    rw [h.ext.nObs] at hp
    by_cases hpo : p = o
    · subst hpo; exact h.wf i.base (i.wf p hp)
    · rw [h.ext.obs p hpo]; exact (i.wf p hp).ext h.ext
  gmDisj p hp q hq hne a ha hb := by
    rw [h.ext.nObs] at hp hq
    have key : ∀ p < s.nObs, p ≠ o → (x.1.obs p).gmix = some a → (s.obs p).gmix = some a ∧ a < s.nGm := by
      intro p hp hpo h1
      rw [h.ext.obs p hpo] at h1
      exact ⟨h1, ((i.wf p hp).gmix a h1).1⟩
    by_cases hpo : p = o
    · have hqo : q ≠ o := fun h => hne (hpo.trans h.symm)
      obtain ⟨h1, h2⟩ := key q hq hqo hb
      subst hpo
      rcases h.gm a ha with h3 | h3
      · exact i.gmDisj p hp q hq hne a h3 h1
      · omega
    · obtain ⟨h1, h2⟩ := key p hp hpo ha
      by_cases hqo : q = o
      · subst hqo
        rcases h.gm a hb with h3 | h3
        · exact i.gmDisj p hp q hq hne a h1 h3
        · omega
      · exact i.gmDisj p hp q hq hne a h1 (key q hq hqo hb).1
  jacDisj p hp q hq hne hb := by
    rw [h.ext.nObs] at hp hq
    have key : ∀ p < s.nObs, p ≠ o → (x.1.obs p).jac = (s.obs p).jac ∧ (s.obs p).jac < s.nJac := by
      intro p hp hpo
      exact ⟨by rw [h.ext.obs p hpo], ((i.wf p hp).jac trivial).1⟩
    by_cases hpo : p = o
    · have hqo : q ≠ o := fun h => hne (hpo.trans h.symm)
      obtain ⟨h1, h2⟩ := key q hq hqo
      subst hpo
      rcases h.jac with h3 | h3
      · exact i.jacDisj p hp q hq hne (by rw [← h3, ← h1]; exact hb)
      · omega
    · obtain ⟨h1, h2⟩ := key p hp hpo
      by_cases hqo : q = o
      · subst hqo
        rcases h.jac with h3 | h3
        · exact i.jacDisj p hp q hq hne (by rw [← h3, ← h1]; exact hb)
        · omega
      · exact i.jacDisj p hp q hq hne (by rw [← h1, ← (key q hq hqo).1]; exact hb)

/-- The heap after the constructor, with the new object counted. -/
theorem newObs_inv (ops : ObsOps G M) {s : Store G M} (i : Inv s) (a : ObsArgs) (ha : ArgsOK s a) :
    Inv (newObs ops s a).1 ∧ Grow s (newObs ops s a).1 := by
  obtain ⟨he, hb⟩ := initObs_ext ops s a i.base ha
  unfold newObs
  simp only
  rcases hx : initObs ops s a with ⟨s', out⟩
  rw [hx] at he hb
  cases out with
  | error e => exact ⟨i.alloc he.grow he.nObs hb, he.grow⟩
  | ok u =>
    have bt := initObs_built ops s s' a i.base ha hx
    have g1 : Grow s { s' with nObs := s.nObs + 1 } :=
      ⟨he.nArr, he.arr, he.nJac, he.jac, he.nGm, he.gm, he.nDict, he.dict, Nat.le_succ _,
        fun p hp => he.obs p (ne_of_lt hp), he.known, he.knownJ⟩
    refine ⟨⟨⟨hb.knownGm, hb.knownJac, hb.jwf⟩, ?_, ?_, ?_⟩, g1⟩
    · intro o ho
      rcases Nat.lt_succ_iff_lt_or_eq.1 ho with h | h
      · rw [g1.obs o h]; exact (i.wf o h).grow g1
      · subst h
        exact bt.wf.mono (le_refl _) (fun _ _ => rfl) (le_refl _) (le_refl _) (le_refl _)
          (by rw [he.nObs]; exact Nat.le_succ _) (fun _ h => Or.inl h) (fun _ h => Or.inl h)
    · intro o ho o' ho' hne a h1 h2
      rcases Nat.lt_succ_iff_lt_or_eq.1 ho with h | h <;>
        rcases Nat.lt_succ_iff_lt_or_eq.1 ho' with h' | h'
      · rw [g1.obs o h] at h1; rw [g1.obs o' h'] at h2
        exact i.gmDisj o h o' h' hne a h1 h2
      · subst h'
        rw [g1.obs o h] at h1
        have := ((i.wf o h).gmix a h1).1
        have := bt.gmFresh a h2
        omega
      · subst h
        rw [g1.obs o' h'] at h2
        have := ((i.wf o' h').gmix a h2).1
        have := bt.gmFresh a h1
        omega
      · exact hne (h.trans h'.symm)
    · intro o ho o' ho' hne h2
      rcases Nat.lt_succ_iff_lt_or_eq.1 ho with h | h <;>
        rcases Nat.lt_succ_iff_lt_or_eq.1 ho' with h' | h'
      · rw [g1.obs o h, g1.obs o' h'] at h2
        exact i.jacDisj o h o' h' hne h2
      · subst h'
        rw [g1.obs o h] at h2
        have := ((i.wf o h).jac trivial).1
        have := bt.jacFresh
        have h3 : (s'.obs s.nObs).jac = (s.obs o).jac := h2.symm
        omega
      · subst h
        rw [g1.obs o' h'] at h2
        have := ((i.wf o' h').jac trivial).1
        have := bt.jacFresh
        have h3 : (s'.obs s.nObs).jac = (s.obs o').jac := h2
        omega
      · exact hne (h.trans h'.symm)

/-- A deep copy remains one when the heap grows. -/
theorem CopyOf_grow {gcopy : G → G} {lo s s' : Store G M} (i : Inv s) (g : Grow s s') :
    ∀ (n o o' : ℕ), o < s.nObs → CopyOf gcopy lo s n o o' → CopyOf gcopy lo s' n o o' := by
  intro n
  induction n with
  | zero => intro o o' _ h; cases h
  | succ n ih =>
    intro o o' ho h
    cases h with
    | mk _ _ _ self image weight aux jac gmix md flags psfNone psf =>
      have e1 := g.obs o ho
      have e2 := g.obs o' self.2
      have w1 := i.wf o ho
      have w2 := i.wf o' self.2
      refine ⟨n, o, o', ⟨self.1, lt_of_lt_of_le self.2 g.nObs⟩, ?_, ?_, ?_, ?_, ?_, ?_, ?_, ?_, ?_⟩ <;>
        rw [e1, e2]
      · rw [g.arr _ w1.image, g.arr _ w2.image]; exact image
      · rw [g.arr _ w1.weight, g.arr _ w2.weight]; exact weight
      · intro f
        have := aux f
        cases h1 : (s.obs o).aux f <;> cases h2 : (s.obs o').aux f <;> rw [h1, h2] at this
        · trivial
        · exact this
        · exact this
        · simp only [Both] at this ⊢
          rw [g.arr _ (w1.aux f _ h1).1, g.arr _ (w2.aux f _ h2).1]; exact this
      · rw [g.jac _ (w1.jac trivial).1, g.jac _ (w2.jac trivial).1]; exact jac
      · cases h1 : (s.obs o).gmix <;> cases h2 : (s.obs o').gmix <;> rw [h1, h2] at gmix
        · trivial
        · exact gmix
        · exact gmix
        · simp only [Both] at gmix ⊢
          rw [g.gm _ (w1.gmix _ h1).1, g.gm _ (w2.gmix _ h2).1]; exact gmix
      · rw [g.dict _ (w1.md trivial), g.dict _ (w2.md trivial)]; exact md
      · exact flags
      · exact psfNone
      · exact fun p q h1 h2 => ih p q (w1.psf p h1) (psf p q h1 h2)

/-- Freshness with respect to an earlier heap. -/
theorem CopyOf_lo {gcopy : G → G} {lo lo' s : Store G M} (g : Grow lo' lo) :
    ∀ (n o o' : ℕ), CopyOf gcopy lo s n o o' → CopyOf gcopy lo' s n o o' := by
  intro n
  induction n with
  | zero => intro o o' h; cases h
  | succ n ih =>
    intro o o' h
    cases h with
    | mk _ _ _ self image weight aux jac gmix md flags psfNone psf =>
      refine ⟨n, o, o', ⟨g.nObs.trans self.1, self.2⟩, ⟨g.nArr.trans image.1, image.2⟩,
        ⟨g.nArr.trans weight.1, weight.2⟩, ?_, ⟨g.nJac.trans jac.1, jac.2⟩, ?_,
        ⟨g.nDict.trans md.1, md.2⟩, flags, psfNone, ?_⟩
      · intro f
        have := aux f
        cases h1 : (s.obs o).aux f <;> cases h2 : (s.obs o').aux f <;> rw [h1, h2] at this
        · trivial
        · exact this
        · exact this
        · exact ⟨g.nArr.trans this.1, this.2⟩
      · cases h1 : (s.obs o).gmix <;> cases h2 : (s.obs o').gmix <;> rw [h1, h2] at gmix
        · trivial
        · exact gmix
        · exact gmix
        · exact ⟨g.nGm.trans gmix.1, gmix.2⟩
      · exact fun p q h1 h2 => ih p q (psf p q h1 h2)

/-- One optional array copied for the constructor. -/
theorem copyAux_spec {s : Store G M} (i : Inv s) (a : Option ℕ) (ha : ∀ x, a = some x → x < s.nArr) :
    Inv (copyAux s a).1 ∧ Grow s (copyAux s a).1 ∧ (copyAux s a).1.nObs = s.nObs ∧
    (copyAux s a).1.obs = s.obs ∧
    (a = none → (copyAux s a).2 = none) ∧
    (∀ x, a = some x → (copyAux s a).2 = some ⟨s.nArr, false⟩ ∧ s.nArr < (copyAux s a).1.nArr ∧
      (copyAux s a).1.arr s.nArr = s.arr x) := by
  cases a with
  | none => exact ⟨i, Grow.rfl', rfl, rfl, fun _ => rfl, by simp⟩
  | some x =>
    refine ⟨i.allocArr _, (ext_allocArr s _ _).grow, rfl, rfl, by simp, ?_⟩
    intro y hy
    injection hy with hy
    subst hy
    exact ⟨rfl, Nat.lt_succ_self _, by simp [copyAux]⟩

/-- The constructor argument made from an optional array attribute. -/
def AuxCopied (lo s : Store G M) (a : Option ℕ) (b : Option ArrArg) : Prop :=
  (a = none → b = none) ∧
  ∀ x, a = some x → ∃ k, b = some ⟨k, false⟩ ∧ lo.nArr ≤ k ∧ k < s.nArr ∧ s.arr k = s.arr x

theorem AuxCopied.grow {lo s s' : Store G M} {a : Option ℕ} {b : Option ArrArg}
    (h : AuxCopied lo s a b) (g : Grow s s') (ha : ∀ x, a = some x → x < s.nArr) :
    AuxCopied lo s' a b := by
  refine ⟨h.1, fun x hx => ?_⟩
  obtain ⟨k, h1, h2, h3, h4⟩ := h.2 x hx
  exact ⟨k, h1, h2, lt_of_lt_of_le h3 g.nArr, by rw [g.arr _ h3, g.arr _ (ha x hx), h4]⟩

theorem copyAux_copied {lo s : Store G M} (i : Inv s) (g : Grow lo s) (a : Option ℕ)
    (ha : ∀ x, a = some x → x < s.nArr) : AuxCopied lo (copyAux s a).1 a (copyAux s a).2 := by
  obtain ⟨-, h2, -, -, h5, h6⟩ := copyAux_spec i a ha
  refine ⟨h5, fun x hx => ?_⟩
  obtain ⟨k1, k2, k3⟩ := h6 x hx
  exact ⟨_, k1, g.nArr, k2, by rw [k3, h2.arr _ (ha x hx)]⟩

/-- The constructor argument made from an optional mixture. -/
def GmCopied (ops : ObsOps G M) (lo s : Store G M) (a : Option ℕ) (b : ObjArg) : Prop :=
  (a = none → b = .none) ∧
  ∀ x, a = some x → ∃ k, b = .obj k ∧ lo.nGm ≤ k ∧ k < s.nGm ∧ s.gm k = ops.gcopy (s.gm x)

theorem GmCopied.grow {ops : ObsOps G M} {lo s s' : Store G M} {a : Option ℕ} {b : ObjArg}
    (h : GmCopied ops lo s a b) (g : Grow s s') (ha : ∀ x, a = some x → x < s.nGm) :
    GmCopied ops lo s' a b := by
  refine ⟨h.1, fun x hx => ?_⟩
  obtain ⟨k, h1, h2, h3, h4⟩ := h.2 x hx
  exact ⟨k, h1, h2, lt_of_lt_of_le h3 g.nGm, by rw [g.gm _ h3, g.gm _ (ha x hx), h4]⟩

theorem copyGm_spec (ops : ObsOps G M) {lo s : Store G M} (i : Inv s) (g : Grow lo s) (a : Option ℕ)
    (ha : ∀ x, a = some x → x < s.nGm) :
    Inv (copyGm ops s a).1 ∧ Grow s (copyGm ops s a).1 ∧
    GmCopied ops lo (copyGm ops s a).1 a (copyGm ops s a).2 := by
  cases a with
  | none => exact ⟨i, Grow.rfl', fun _ => rfl, by simp⟩
  | some x =>
    refine ⟨i.allocGm _, (ext_allocGm s _ _).grow, by simp, ?_⟩
    intro y hy
    injection hy with hy
    subst hy
    have := (ext_allocGm s s.nObs (ops.gcopy (s.gm x))).gm x (ha x rfl)
    refine ⟨s.nGm, rfl, g.nGm, Nat.lt_succ_self _, ?_⟩
    simp only [copyGm]
    rw [this]
    simp [Store.allocGm]

theorem InSync.grow {s s' : Store G M} {r : Obs} {kj km : Prop} (h : InSync s r) (w : WfRec kj km s r)
    (hk : kj) (g : Grow s s') : InSync s' r := by
  refine ⟨fun hs => ?_, h.2⟩
  rw [g.arr _ w.image, g.arr _ w.weight, g.jac _ (w.jac hk).1]
  exact h.1 hs

/-- The end of `copy`. -/
theorem copyRest_spec (ops : ObsOps G M) {lo s : Store G M} (i : Inv lo) (is : Inv s) (gr : Grow lo s)
    (o n : ℕ) (ho : o < lo.nObs) (bm om no : Option ArrArg) (g psf : ObjArg)
    (hb : AuxCopied lo s (lo.obs o).bmask bm) (hm : AuxCopied lo s (lo.obs o).ormask om)
    (hn : AuxCopied lo s (lo.obs o).noise no) (hg : GmCopied ops lo s (lo.obs o).gmix g)
    (hp0 : (lo.obs o).psf = none → psf = .none)
    (hp1 : ∀ p, (lo.obs o).psf = some p → ∃ q, psf = .obj q ∧ q < s.nObs ∧
      CopyOf ops.gcopy lo s n p q ∧ ChainAll s (InSync s) n q) :
    Inv (copyRest ops s (lo.obs o) bm om no g psf).1 ∧
    Grow s (copyRest ops s (lo.obs o) bm om no g psf).1 ∧
    (∀ o', (copyRest ops s (lo.obs o) bm om no g psf).2 = .ok o' →
      o' < (copyRest ops s (lo.obs o) bm om no g psf).1.nObs ∧
      CopyOf ops.gcopy lo (copyRest ops s (lo.obs o) bm om no g psf).1 (n + 1) o o' ∧
      InSync (copyRest ops s (lo.obs o) bm om no g psf).1
        ((copyRest ops s (lo.obs o) bm om no g psf).1.obs o') ∧
      (∀ q, ((copyRest ops s (lo.obs o) bm om no g psf).1.obs o').psf = some q → q < s.nObs ∧
        ChainAll s (InSync s) n q)) ∧
    (InSync lo (lo.obs o) → ∃ o', (copyRest ops s (lo.obs o) bm om no g psf).2 = .ok o') := by
  have w0 := (i.wf o ho)
  have ws := w0.grow gr
  set r := lo.obs o with hr
  obtain ⟨i1, g1, n1, -, h5, h6⟩ := copyAux_spec is r.mfrac (fun x hx => (ws.aux .mfrac x hx).1)
  have hf : AuxCopied lo (copyAux s r.mfrac).1 r.mfrac (copyAux s r.mfrac).2 :=
    copyAux_copied is gr r.mfrac (fun x hx => (ws.aux .mfrac x hx).1)
  unfold copyRest
  simp only
  set f := copyAux s r.mfrac with hfdef
  have g2 := (ext_allocDict f.1 f.1.nObs (f.1.dict r.md)).grow
  have i2 : Inv (f.1.allocDict (f.1.dict r.md)) := i1.allocDict _
  set d := f.1.allocDict (f.1.dict r.md) with hd
  have g3 := (ext_allocArr d d.nObs (d.arr r.image)).grow
  have i3 := i2.allocArr (d.arr r.image)
  set im := d.allocArr (d.arr r.image) with him
  have g4 := (ext_allocArr im im.nObs (im.arr r.weight)).grow
  have i4 := i3.allocArr (im.arr r.weight)
  set w := im.allocArr (im.arr r.weight) with hw
  have gsw : Grow s w := ((g1.trans g2).trans g3).trans g4
  have glw : Grow lo w := gr.trans gsw
  have wf := ws.grow g1
  have wd := wf.grow g2
  have wi := wd.grow g3
  have ww := wi.grow g4
  have aimg : d.nArr < w.nArr := by
    rw [hw, him]; simp only [allocArr_nArr]; omega
  have awt : im.nArr < w.nArr := by rw [hw]; simp only [allocArr_nArr]; omega
  have cimg : w.arr d.nArr = w.arr r.image := by
    rw [g4.arr d.nArr (by rw [him]; simp), g4.arr r.image wi.image, g3.arr r.image wd.image, him]
    simp
  have cwt : w.arr im.nArr = w.arr r.weight := by
    rw [g4.arr r.weight wi.weight, hw]
    simp
  have hb' := hb.grow gsw (fun x hx => (ws.aux .bmask x hx).1)
  have hm' := hm.grow gsw (fun x hx => (ws.aux .ormask x hx).1)
  have hn' := hn.grow gsw (fun x hx => (ws.aux .noise x hx).1)
  have hf' := hf.grow ((g2.trans g3).trans g4) (fun x hx => (wf.aux .mfrac x hx).1)
  have hg' := hg.grow gsw (fun x hx => (ws.gmix x hx).1)
  have nobs : w.nObs = s.nObs := n1
  have ndict : f.1.nDict < w.nDict := Nat.lt_succ_self _
  have cdict : w.dict f.1.nDict = w.dict r.md := by
    have h1 : w.dict f.1.nDict = f.1.dict r.md := by
      show Function.update f.1.dict f.1.nDict (f.1.dict r.md) f.1.nDict = _
      simp
    rw [h1, ((g2.trans g3).trans g4).dict _ (wf.md trivial)]
  set a : ObsArgs :=
    { image := ⟨d.nArr, false⟩, weight := some ⟨im.nArr, false⟩, bmask := bm, ormask := om,
      noise := no, gmix := g, jacobian := .obj r.jac, metaData := .obj f.1.nDict,
      psf := psf, mfrac := f.2, storePixels := r.storePixels, ignoreZero := r.ignoreZero } with hadef
  have auxlt : ∀ (x : Option ℕ) (b : Option ArrArg), AuxCopied lo w x b → ∀ y ∈ b, y.addr < w.nArr := by
    intro x b h y hy
    cases x with
    | none => rw [h.1 rfl] at hy; simp at hy
    | some x =>
      obtain ⟨k, h1, h2, h3, h4⟩ := h.2 x rfl
      rw [h1] at hy
      simp only [Option.mem_def, Option.some.injEq] at hy
      subst hy
      exact h3
  have hpsf : psf.Below w.nObs ∧ psf ≠ .wrongType := by
    cases hps : r.psf with
    | none => rw [hp0 hps]; exact ⟨trivial, by simp⟩
    | some p =>
      obtain ⟨q, h1, h2, -⟩ := hp1 p hps
      rw [h1, nobs]; exact ⟨h2, by simp⟩
  have hgt : g ≠ .wrongType := by
    cases hgs : r.gmix with
    | none => rw [hg.1 hgs]; simp
    | some p => obtain ⟨q, h1, -⟩ := hg.2 p hgs; rw [h1]; simp
  have aok : ArgsOK w a :=
    ⟨aimg, fun y hy => by
        simp only [hadef, Option.mem_def, Option.some.injEq] at hy; subst hy; exact awt,
      auxlt _ _ hb', auxlt _ _ hm', auxlt _ _ hn', auxlt _ _ hf', (ww.jac trivial).1, hpsf.1, ndict⟩
  obtain ⟨iN, gN⟩ := newObs_inv ops i4 a aok
  have auxeq : ∀ f', AuxCopied lo w (r.aux f') (a.auxArg f') := by
    intro f'
    cases f'
    · exact hf'
    · exact hb'
    · exact hm'
    · exact hn'
  refine ⟨iN, gsw.trans gN, ?_, ?_⟩
  · intro o' ho'
    rcases hx : initObs ops w a with ⟨s', out⟩
    cases out with
    | error e => simp [newObs, hx] at ho'
    | ok u =>
      have bt := initObs_built ops w s' a i4.base aok hx
      have hnew : newObs ops w a = ({ s' with nObs := w.nObs + 1 }, .ok w.nObs) := by
        simp [newObs, hx]
      rw [hnew] at ho' iN gN ⊢
      simp only at ho' iN gN ⊢
      injection ho' with ho'
      subst ho'
      set s2 : Store G M := { s' with nObs := w.nObs + 1 } with hs2
      have gl2 : Grow lo s2 := glw.trans gN
      have eo : s2.obs o = r := gl2.obs o ho
      have auxB : ∀ f', Both (fun a b => lo.nArr ≤ b ∧ s2.arr b = s2.arr a) (r.aux f')
          ((s2.obs w.nObs).aux f') := by
        intro f'
        have hc := auxeq f'
        cases hx' : r.aux f' with
        | none =>
          have : (s2.obs w.nObs).aux f' = none := bt.noAux f' (hc.1 hx')
          rw [this]; trivial
        | some x =>
          obtain ⟨k, k1, k2, k3, k4⟩ := hc.2 x hx'
          obtain ⟨p, p1, p2, p3, p4, p5⟩ := bt.aux f' _ k1
          have : (s2.obs w.nObs).aux f' = some p := p1
          rw [this]
          have hpk : p = k := p4 rfl
          subst hpk
          exact ⟨k2, by rw [gN.arr _ k3, gN.arr _ (ww.aux f' x hx').1, k4]⟩
      have psfEq : ∀ q, psf = .obj q → (s2.obs w.nObs).psf = some q := bt.psf
      have psfNo : psf = .none → (s2.obs w.nObs).psf = none := bt.noPsf
      refine ⟨Nat.lt_succ_self _, ⟨n, o, w.nObs, ⟨glw.nObs, Nat.lt_succ_self _⟩, ?_, ?_, ?_, ?_, ?_, ?_,
        ?_, ?_, ?_⟩, ?_, ?_⟩
      · rw [eo]
        have h1 : (s2.obs w.nObs).image = d.nArr := bt.image.2.2.1 rfl
        rw [h1]
        exact ⟨((gr.trans g1).trans g2).nArr, by
          rw [gN.arr _ aimg, gN.arr _ ww.image, cimg]⟩
      · rw [eo]
        have h1 : (s2.obs w.nObs).weight = im.nArr := (bt.weight _ rfl).2.2.1 rfl
        rw [h1]
        exact ⟨(((gr.trans g1).trans g2).trans g3).nArr, by
          rw [gN.arr _ awt, gN.arr _ ww.weight, cwt]⟩
      · rw [eo]; exact auxB
      · rw [eo]
        exact ⟨glw.nJac.trans bt.jacFresh, by
          rw [gN.jac _ (ww.jac trivial).1]; exact bt.jac _ rfl⟩
      · rw [eo]
        cases hgx : r.gmix with
        | none =>
          have : (s2.obs w.nObs).gmix = none := bt.noGmix (hg'.1 hgx)
          rw [this]; trivial
        | some x =>
          obtain ⟨k, k1, k2, k3, k4⟩ := hg'.2 x hgx
          obtain ⟨p, p1, p2, p3⟩ := bt.gmix k k1 k3
          have : (s2.obs w.nObs).gmix = some p := p1
          rw [this]
          exact ⟨glw.nGm.trans p2, by
            rw [gN.gm _ (ww.gmix x hgx).1, ← k4]; exact p3⟩
      · rw [eo]
        have h1 : (s2.obs w.nObs).md = f.1.nDict := bt.md _ rfl
        rw [h1]
        exact ⟨(gr.trans g1).nDict, by
          rw [gN.dict _ ndict, gN.dict _ (ww.md trivial), cdict]⟩
      · rw [eo]; exact ⟨bt.store, bt.ignore, bt.closed⟩
      · rw [eo]
        constructor
        · intro h; exact psfNo (hp0 h)
        · intro h
          cases hps : r.psf with
          | none => rfl
          | some p =>
            obtain ⟨q, h1, -⟩ := hp1 p hps
            rw [psfEq q h1] at h; simp at h
      · intro p q h1 h2
        rw [eo] at h1
        obtain ⟨q', k1, k2, k3, k4⟩ := hp1 p h1
        rw [psfEq q' k1] at h2
        injection h2 with h2
        subst h2
        exact CopyOf_grow is (gsw.trans gN) n p q' (ws.psf p h1) k3
      · exact bt.sync
      · intro q hq
        cases hps : r.psf with
        | none => rw [psfNo (hp0 hps)] at hq; simp at hq
        | some p =>
          obtain ⟨q', k1, k2, k3, k4⟩ := hp1 p hps
          rw [psfEq q' k1] at hq
          injection hq with hq
          subst hq
          exact ⟨k2, k4⟩
  · intro hs
    obtain ⟨s', hs'⟩ := initObs_succeeds ops w a i4.base aok ⟨hgt, hpsf.2, by simp [hadef], by simp [hadef]⟩
      (by
        show (w.arr d.nArr).shape.length = 2
        rw [cimg]; exact ww.dim)
      (by
        intro x hx
        simp only [hadef, Option.some.injEq] at hx
        subst hx
        show (w.arr im.nArr).shape = (w.arr d.nArr).shape
        rw [cimg, cwt]; exact ww.weightShape)
      (by
        intro f' x hx
        have hc := auxeq f'
        cases hx' : r.aux f' with
        | none => rw [hc.1 hx'] at hx; simp at hx
        | some y =>
          obtain ⟨k, k1, k2, k3, k4⟩ := hc.2 y hx'
          rw [k1] at hx
          injection hx with hx
          subst hx
          show (w.arr k).shape = (w.arr d.nArr).shape
          rw [cimg, k4]; exact (ww.aux f' y hx').2)
      ⟨im.nArr, false⟩ rfl r.jac rfl
      (by
        intro hst
        show ∃ px, makePixels (w.arr d.nArr).image (w.arr im.nArr).image (w.jac r.jac) r.ignoreZero = .ok px
        rw [cimg, cwt]
        obtain ⟨px, h1, -⟩ := (hs.grow w0 trivial glw).1 hst
        exact ⟨px, h1⟩)
    exact ⟨w.nObs, by simp [newObs, hs']⟩

theorem ChainAll_grow {s s' : Store G M} (i : Inv s) (g : Grow s s') :
    ∀ (n o : ℕ), o < s.nObs → ChainAll s (InSync s) n o → ChainAll s' (InSync s') n o := by
  intro n
  induction n with
  | zero => intro o _ h; cases h
  | succ n ih =>
    intro o ho h
    cases h with
    | mk _ _ here next =>
      refine ⟨n, o, ?_, ?_⟩
      · rw [g.obs o ho]; exact here.grow (i.wf o ho) trivial g
      · rw [g.obs o ho]; exact fun p hp => ih p ((i.wf o ho).psf p hp) (next p hp)

/-- `copy()`. -/
theorem copyObs_spec (ops : ObsOps G M) : ∀ (fuel : ℕ) (s : Store G M) (o : ℕ), Inv s → o < s.nObs →
    Inv (copyObs ops fuel s o).1 ∧ Grow s (copyObs ops fuel s o).1 ∧
    (∀ o', (copyObs ops fuel s o).2 = .ok o' → o' < (copyObs ops fuel s o).1.nObs ∧
      CopyOf ops.gcopy s (copyObs ops fuel s o).1 fuel o o' ∧
      ChainAll (copyObs ops fuel s o).1 (InSync (copyObs ops fuel s o).1) fuel o') ∧
    (ChainAll s (InSync s) fuel o → ∃ o', (copyObs ops fuel s o).2 = .ok o') := by
  intro fuel
  induction fuel with
  | zero =>
    intro s o i ho
    exact ⟨i, Grow.rfl', by simp [copyObs], fun h => by cases h⟩
  | succ n ih =>
    intro s o i ho
    have w0 := i.wf o ho
    obtain ⟨i1, g1, -, -, -, -⟩ := copyAux_spec i (s.obs o).bmask (fun x hx => (w0.aux .bmask x hx).1)
    have a1 := copyAux_copied (lo := s) i Grow.rfl' (s.obs o).bmask (fun x hx => (w0.aux .bmask x hx).1)
    have w1 := w0.grow g1
    obtain ⟨i2, g2, -, -, -, -⟩ := copyAux_spec i1 (s.obs o).ormask (fun x hx => (w1.aux .ormask x hx).1)
    have a2 := copyAux_copied (lo := s) i1 g1 (s.obs o).ormask (fun x hx => (w1.aux .ormask x hx).1)
    have a1 := a1.grow g2 (fun x hx => (w1.aux .bmask x hx).1)
    have w2 := w1.grow g2
    have gs2 := g1.trans g2
    obtain ⟨i3, g3, -, -, -, -⟩ := copyAux_spec i2 (s.obs o).noise (fun x hx => (w2.aux .noise x hx).1)
    have a3 := copyAux_copied (lo := s) i2 gs2 (s.obs o).noise (fun x hx => (w2.aux .noise x hx).1)
    have a1 := a1.grow g3 (fun x hx => (w2.aux .bmask x hx).1)
    have a2 := a2.grow g3 (fun x hx => (w2.aux .ormask x hx).1)
    have w3 := w2.grow g3
    have gs3 := gs2.trans g3
    obtain ⟨i4, g4, c4⟩ := copyGm_spec ops i3 gs3 (s.obs o).gmix (fun x hx => (w3.gmix x hx).1)
    have a1 := a1.grow g4 (fun x hx => (w3.aux .bmask x hx).1)
    have a2 := a2.grow g4 (fun x hx => (w3.aux .ormask x hx).1)
    have a3 := a3.grow g4 (fun x hx => (w3.aux .noise x hx).1)
    have w4 := w3.grow g4
    have gs4 := gs3.trans g4
    unfold copyObs
    simp only
    set b := copyAux s (s.obs o).bmask
    set m := copyAux b.1 (s.obs o).ormask
    set nn := copyAux m.1 (s.obs o).noise
    set g := copyGm ops nn.1 (s.obs o).gmix
    cases hps : (s.obs o).psf with
    | none =>
      simp only
      obtain ⟨k1, k2, k3, k4⟩ := copyRest_spec ops i i4 gs4 o n ho b.2 m.2 nn.2 g.2 .none a1 a2 a3 c4
        (fun _ => rfl) (fun p hp => by rw [hps] at hp; simp at hp)
      refine ⟨k1, gs4.trans k2, fun o' ho' => ?_, fun h => ?_⟩
      · obtain ⟨l1, l2, l3, l4⟩ := k3 o' ho'
        refine ⟨l1, l2, n, o', l3, fun q hq => ?_⟩
        obtain ⟨m1, m2⟩ := l4 q hq
        exact ChainAll_grow i4 k2 n q m1 m2
      · cases h with
        | mk _ _ here next => exact k4 here
    | some p =>
      simp only
      have hp : p < g.1.nObs := w4.psf p hps
      obtain ⟨k1, k2, k3, k4⟩ := ih g.1 p i4 hp
      rcases hc : copyObs ops n g.1 p with ⟨s', out⟩
      rw [hc] at k1 k2 k3 k4
      cases out with
      | error e =>
        refine ⟨k1, gs4.trans k2, by simp, fun h => ?_⟩
        cases h with
        | mk _ _ here next =>
          obtain ⟨o', ho'⟩ := k4 (ChainAll_grow i gs4 n p (w0.psf p hps) (next p hps))
          simp at ho'
      | ok q =>
        simp only
        obtain ⟨l1, l2, l3⟩ := k3 q rfl
        have w5 := w4.grow k2
        obtain ⟨m1, m2, m3, m4⟩ := copyRest_spec ops i k1 (gs4.trans k2) o n ho b.2 m.2 nn.2 g.2 (.obj q)
          (a1.grow k2 (fun x hx => (w4.aux .bmask x hx).1))
          (a2.grow k2 (fun x hx => (w4.aux .ormask x hx).1))
          (a3.grow k2 (fun x hx => (w4.aux .noise x hx).1))
          (c4.grow k2 (fun x hx => (w4.gmix x hx).1))
          (fun h => by rw [hps] at h; simp at h)
          (fun p' hp' => by
            rw [hps] at hp'
            injection hp' with hp'
            subst hp'
            exact ⟨q, rfl, l1, CopyOf_lo gs4 n p q l2, l3⟩)
        refine ⟨m1, (gs4.trans k2).trans m2, fun o' ho' => ?_, fun h => ?_⟩
        · obtain ⟨z1, z2, z3, z4⟩ := m3 o' ho'
          refine ⟨z1, z2, n, o', z3, fun q' hq' => ?_⟩
          obtain ⟨y1, y2⟩ := z4 q' hq'
          exact ChainAll_grow k1 m2 n q' y1 y2
        · cases h with
          | mk _ _ here next => exact m4 here

end Ngmix
