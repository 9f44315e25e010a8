import Verif.Spec.Observation
import Verif.Props.Pixels
import Mathlib.Tactic.Common
import Mathlib.Data.List.Basic

/-! Invariants of the Observation heap. -/

namespace Ngmix

open Ngmix.Props Ngmix.Spec

variable {G M : Type}

/-- `s'` extends `s`: everything allocated is unchanged except possibly the attributes of `o`. -/
structure Ext (s s' : Store G M) (o : ℕ) : Prop where
  nArr : s.nArr ≤ s'.nArr
  arr : ∀ a < s.nArr, s'.arr a = s.arr a
  nJac : s.nJac ≤ s'.nJac
  jac : ∀ a < s.nJac, s'.jac a = s.jac a
  nGm : s.nGm ≤ s'.nGm
  gm : ∀ a < s.nGm, s'.gm a = s.gm a
  nDict : s.nDict ≤ s'.nDict
  dict : ∀ a < s.nDict, s'.dict a = s.dict a
  obs : ∀ p, p ≠ o → s'.obs p = s.obs p
  nObs : s'.nObs = s.nObs
  known : s'.knownGm = s.knownGm
  knownJ : s'.knownJac = s.knownJac

theorem Ext.rfl' {s : Store G M} {o : ℕ} : Ext s s o :=
  ⟨le_refl _, fun _ _ => rfl, le_refl _, fun _ _ => rfl, le_refl _, fun _ _ => rfl, le_refl _,
    fun _ _ => rfl, fun _ _ => rfl, rfl, rfl, rfl⟩

theorem Ext.trans {s t u : Store G M} {o : ℕ} (h : Ext s t o) (k : Ext t u o) : Ext s u o where
  nArr := h.nArr.trans k.nArr
  arr a ha := (k.arr a (lt_of_lt_of_le ha h.nArr)).trans (h.arr a ha)
  nJac := h.nJac.trans k.nJac
  jac a ha := (k.jac a (lt_of_lt_of_le ha h.nJac)).trans (h.jac a ha)
  nGm := h.nGm.trans k.nGm
  gm a ha := (k.gm a (lt_of_lt_of_le ha h.nGm)).trans (h.gm a ha)
  nDict := h.nDict.trans k.nDict
  dict a ha := (k.dict a (lt_of_lt_of_le ha h.nDict)).trans (h.dict a ha)
  obs p hp := (k.obs p hp).trans (h.obs p hp)
  nObs := k.nObs.trans h.nObs
  known := k.known.trans h.known
  knownJ := k.knownJ.trans h.knownJ

theorem ext_setObs (s : Store G M) (o : ℕ) (r : Obs) : Ext s (s.setObs o r) o :=
  ⟨le_refl _, fun _ _ => rfl, le_refl _, fun _ _ => rfl, le_refl _, fun _ _ => rfl, le_refl _,
    fun _ _ => rfl, fun p hp => by simp [Store.setObs, hp], rfl, rfl, rfl⟩

theorem ext_allocArr (s : Store G M) (o : ℕ) (x : Arr) : Ext s (s.allocArr x) o :=
  ⟨Nat.le_succ _, fun a ha => by simp [Store.allocArr, ha.ne], le_refl _, fun _ _ => rfl, le_refl _,
    fun _ _ => rfl, le_refl _, fun _ _ => rfl, fun _ _ => rfl, rfl, rfl, rfl⟩

theorem ext_allocJac (s : Store G M) (o : ℕ) (x : Jacobian) : Ext s (s.allocJac x) o :=
  ⟨le_refl _, fun _ _ => rfl, Nat.le_succ _, fun a ha => by simp [Store.allocJac, ha.ne], le_refl _,
    fun _ _ => rfl, le_refl _, fun _ _ => rfl, fun _ _ => rfl, rfl, rfl, rfl⟩

theorem ext_allocGm (s : Store G M) (o : ℕ) (x : G) : Ext s (s.allocGm x) o :=
  ⟨le_refl _, fun _ _ => rfl, le_refl _, fun _ _ => rfl, Nat.le_succ _,
    fun a ha => by simp [Store.allocGm, ha.ne], le_refl _, fun _ _ => rfl, fun _ _ => rfl, rfl, rfl, rfl⟩

theorem ext_allocDict (s : Store G M) (o : ℕ) (x : M) : Ext s (s.allocDict x) o :=
  ⟨le_refl _, fun _ _ => rfl, le_refl _, fun _ _ => rfl, le_refl _, fun _ _ => rfl, Nat.le_succ _,
    fun a ha => by simp [Store.allocDict, ha.ne], fun _ _ => rfl, rfl, rfl, rfl⟩

@[simp] theorem setObs_obs (s : Store G M) (o : ℕ) (r : Obs) : (s.setObs o r).obs o = r := by
  simp [Store.setObs]

@[simp] theorem setObs_arr (s : Store G M) (o : ℕ) (r : Obs) : (s.setObs o r).arr = s.arr := rfl
@[simp] theorem setObs_jac (s : Store G M) (o : ℕ) (r : Obs) : (s.setObs o r).jac = s.jac := rfl
@[simp] theorem setObs_nArr (s : Store G M) (o : ℕ) (r : Obs) : (s.setObs o r).nArr = s.nArr := rfl

@[simp] theorem allocArr_arr_new (s : Store G M) (x : Arr) : (s.allocArr x).arr s.nArr = x := by
  simp [Store.allocArr]
@[simp] theorem allocArr_obs (s : Store G M) (x : Arr) : (s.allocArr x).obs = s.obs := rfl
@[simp] theorem allocArr_nArr (s : Store G M) (x : Arr) : (s.allocArr x).nArr = s.nArr + 1 := rfl

/-- What `ascontiguousarray` gives: an existing array with the contents of the argument. -/
theorem asArray_spec (s : Store G M) (o : ℕ) (a : ArrArg) (ha : a.addr < s.nArr) :
    Ext s (asArray s a).1 o ∧ (asArray s a).1.obs = s.obs ∧ (asArray s a).2 < (asArray s a).1.nArr ∧
    (asArray s a).1.arr (asArray s a).2 = s.arr a.addr ∧
    (asArray s a).1.jac = s.jac ∧ (asArray s a).1.nObs = s.nObs := by
  unfold asArray
  by_cases h : a.converted = true
  · rw [if_pos h]
    refine ⟨ext_allocArr s o _, rfl, Nat.lt_succ_self _, ?_, rfl, rfl⟩
    simp
  · rw [if_neg h]
    exact ⟨Ext.rfl', rfl, ha, rfl, rfl, rfl⟩

/-- References of a record are allocated, the arrays fit together; `kj`, `km` say whether Jacobian
and metadata have been set (they have, except inside the constructor). -/
structure WfRec (kj km : Prop) (s : Store G M) (r : Obs) : Prop where
  image : r.image < s.nArr
  dim : (s.arr r.image).shape.length = 2
  weight : r.weight < s.nArr
  weightShape : (s.arr r.weight).shape = (s.arr r.image).shape
  aux : ∀ f a, r.aux f = some a → a < s.nArr ∧ (s.arr a).shape = (s.arr r.image).shape
  jac : kj → r.jac < s.nJac ∧ r.jac ∉ s.knownJac
  gmix : ∀ a, r.gmix = some a → a < s.nGm ∧ a ∉ s.knownGm
  psf : ∀ a, r.psf = some a → a < s.nObs
  md : km → r.md < s.nDict

/-- Transport along an extension in which shapes of allocated arrays did not change. -/
theorem WfRec.mono {kj km : Prop} {s s' : Store G M} {r : Obs} (h : WfRec kj km s r)
    (hn : s.nArr ≤ s'.nArr) (ha : ∀ a < s.nArr, (s'.arr a).shape = (s.arr a).shape)
    (hj : s.nJac ≤ s'.nJac) (hg : s.nGm ≤ s'.nGm) (hd : s.nDict ≤ s'.nDict) (ho : s.nObs ≤ s'.nObs)
    (hk : ∀ a ∈ s'.knownGm, a ∈ s.knownGm ∨ s.nGm ≤ a)
    (hkj : ∀ a ∈ s'.knownJac, a ∈ s.knownJac ∨ s.nJac ≤ a) : WfRec kj km s' r where
  image := lt_of_lt_of_le h.image hn
  dim := by rw [ha _ h.image]; exact h.dim
  weight := lt_of_lt_of_le h.weight hn
  weightShape := by rw [ha _ h.image, ha _ h.weight]; exact h.weightShape
  aux f a hf := by
    obtain ⟨h1, h2⟩ := h.aux f a hf
    exact ⟨lt_of_lt_of_le h1 hn, by rw [ha _ h1, ha _ h.image]; exact h2⟩
  jac k := by
    obtain ⟨h1, h2⟩ := h.jac k
    refine ⟨lt_of_lt_of_le h1 hj, fun hm => ?_⟩
    rcases hkj _ hm with h3 | h3
    · exact h2 h3
    · exact absurd h1 (not_lt.2 h3)
  gmix a hf := by
    obtain ⟨h1, h2⟩ := h.gmix a hf
    refine ⟨lt_of_lt_of_le h1 hg, fun hm => ?_⟩
    rcases hk a hm with h3 | h3
    · exact h2 h3
    · exact absurd h1 (not_lt.2 h3)
  psf a hf := lt_of_lt_of_le (h.psf a hf) ho
  md k := lt_of_lt_of_le (h.md k) hd

theorem WfRec.ext {kj km : Prop} {s s' : Store G M} {r : Obs} {o : ℕ} (h : WfRec kj km s r)
    (e : Ext s s' o) : WfRec kj km s' r :=
  h.mono e.nArr (fun a ha => by rw [e.arr a ha]) e.nJac e.nGm e.nDict (le_of_eq e.nObs.symm)
    (fun a ha => Or.inl (by rw [← e.known]; exact ha))
    (fun a ha => Or.inl (by rw [← e.knownJ]; exact ha))

/-- Only the pixels and flags differ. -/
theorem WfRec.congr {kj km : Prop} {s : Store G M} {r r' : Obs} (h : WfRec kj km s r)
    (h1 : r'.image = r.image) (h2 : r'.weight = r.weight) (h3 : ∀ f, r'.aux f = r.aux f)
    (h4 : r'.jac = r.jac) (h5 : r'.gmix = r.gmix) (h6 : r'.psf = r.psf) (h7 : r'.md = r.md) :
    WfRec kj km s r' where
  image := by rw [h1]; exact h.image
  dim := by rw [h1]; exact h.dim
  weight := by rw [h2]; exact h.weight
  weightShape := by rw [h1, h2]; exact h.weightShape
  aux f a hf := by rw [h1]; exact h.aux f a (by rw [← h3]; exact hf)
  jac k := by rw [h4]; exact h.jac k
  gmix a hf := h.gmix a (by rw [← h5]; exact hf)
  psf a hf := h.psf a (by rw [← h6]; exact hf)
  md k := by rw [h7]; exact h.md k

theorem updatePixels_spec (s : Store G M) (o : ℕ) :
    Ext s (updatePixels s o).1 o ∧
    (updatePixels s o).1.arr = s.arr ∧ (updatePixels s o).1.jac = s.jac ∧
    (∃ px, (updatePixels s o).1.obs o = { s.obs o with pixels := px }) ∧
    ((updatePixels s o).2 = .ok () → InSync (updatePixels s o).1 ((updatePixels s o).1.obs o)) ∧
    (∀ e, (updatePixels s o).2 = .error e → (updatePixels s o).1 = s) := by
  unfold updatePixels
  simp only
  by_cases hs : (s.obs o).storePixels = true
  · rw [if_pos hs]
    cases hm : makePixels (s.arr (s.obs o).image).image (s.arr (s.obs o).weight).image
        (s.jac (s.obs o).jac) (s.obs o).ignoreZero with
    | error e => exact ⟨Ext.rfl', rfl, rfl, ⟨_, rfl⟩, fun h => by simp at h, fun _ _ => rfl⟩
    | ok px =>
      refine ⟨ext_setObs s o _, rfl, rfl, ⟨some px, by simp⟩, fun _ => ?_, fun e h => by simp at h⟩
      simp only [setObs_obs]
      exact ⟨fun _ => ⟨px, hm, rfl⟩, fun h => by rw [hs] at h; simp at h⟩
  · rw [if_neg hs]
    refine ⟨ext_setObs s o _, rfl, rfl, ⟨none, by simp⟩, fun _ => ?_, fun e h => by simp at h⟩
    simp only [setObs_obs]
    exact ⟨fun h => absurd h hs, fun _ => rfl⟩

theorem maybeUpdate_spec (s : Store G M) (o : ℕ) (upd : Bool) :
    Ext s (maybeUpdate s o upd).1 o ∧
    (maybeUpdate s o upd).1.arr = s.arr ∧ (maybeUpdate s o upd).1.jac = s.jac ∧
    (∃ px, (maybeUpdate s o upd).1.obs o = { s.obs o with pixels := px }) ∧
    (upd = true → (maybeUpdate s o upd).2 = .ok () →
      InSync (maybeUpdate s o upd).1 ((maybeUpdate s o upd).1.obs o)) ∧
    (upd = false → maybeUpdate s o upd = (s, .ok ())) ∧
    (∀ e, (maybeUpdate s o upd).2 = .error e → (maybeUpdate s o upd).1 = s) := by
  unfold maybeUpdate
  cases upd with
  | false => exact ⟨Ext.rfl', rfl, rfl, ⟨_, rfl⟩, by simp, by simp, by simp⟩
  | true =>
    simp only [if_true]
    obtain ⟨h1, h2, h3, h4, h5, h6⟩ := updatePixels_spec s o
    exact ⟨h1, h2, h3, h4, fun _ => h5, by simp, h6⟩

/-- Global facts about the heap. -/
structure Base (s : Store G M) : Prop where
  knownGm : ∀ a ∈ s.knownGm, a < s.nGm
  knownJac : ∀ a ∈ s.knownJac, a < s.nJac
  jwf : ∀ a < s.nJac, JacWF (s.jac a)

/-- What every setter called on observation `o` does to the heap. -/
structure SetterOK (kj km kj' km' : Prop) (s : Store G M) (o : ℕ)
    (x : Store G M × Except PyErr Unit) : Prop where
  ext : Ext s x.1 o
  base : Base s → Base x.1
  wf : Base s → WfRec kj km s (s.obs o) → WfRec kj km x.1 (x.1.obs o)
  wfok : Base s → x.2 = .ok () → WfRec kj km s (s.obs o) → WfRec kj' km' x.1 (x.1.obs o)
  gm : ∀ a, (x.1.obs o).gmix = some a → (s.obs o).gmix = some a ∨ s.nGm ≤ a
  jac : (x.1.obs o).jac = (s.obs o).jac ∨ s.nJac ≤ (x.1.obs o).jac

theorem WfRec.weaken {kj km kj' km' : Prop} {s : Store G M} {r : Obs} (h : WfRec kj' km' s r)
    (a : kj → kj') (b : km → km') : WfRec kj km s r :=
  ⟨h.image, h.dim, h.weight, h.weightShape, h.aux, fun k => h.jac (a k), h.gmix, h.psf,
    fun k => h.md (b k)⟩

theorem SetterOK.andThen {kj km kj1 km1 kj2 km2 : Prop} {s : Store G M} {o : ℕ}
    {x : Store G M × Except PyErr Unit} {k : Store G M → Store G M × Except PyErr Unit}
    (hj : kj → kj1) (hm : km → km1)
    (hx : SetterOK kj km kj1 km1 s o x)
    (hk : ∀ s', Ext s s' o → SetterOK kj1 km1 kj2 km2 s' o (k s')) :
    SetterOK kj km kj2 km2 s o (andThen x k) := by
  unfold Ngmix.andThen
  rcases x with ⟨s1, out⟩
  cases out with
  | error e =>
    exact ⟨hx.ext, hx.base, hx.wf, fun _ h => by simp at h, hx.gm, hx.jac⟩
  | ok u =>
    have h1 := hk s1 hx.ext
    refine ⟨hx.ext.trans h1.ext, fun b => h1.base (hx.base b), fun b w => ?_, fun b ho w => ?_, ?_, ?_⟩
    · exact (h1.wf (hx.base b) (hx.wfok b rfl w)).weaken hj hm
    · exact h1.wfok (hx.base b) ho (hx.wfok b rfl w)
    · intro a ha
      rcases h1.gm a ha with h | h
      · exact hx.gm a h
      · exact Or.inr (hx.ext.nGm.trans h)
    · rcases h1.jac with h | h
      · have h' : ((k s1).1.obs o).jac = (s1.obs o).jac := h
        simp only at *
        rw [h']
        exact hx.jac
      · exact Or.inr (hx.ext.nJac.trans h)

/-- A heap extension that creates no Jacobian keeps the global facts. -/
theorem Base.ext {s s' : Store G M} {o : ℕ} (b : Base s) (e : Ext s s' o) (hn : s'.nJac = s.nJac) :
    Base s' where
  knownGm a ha := lt_of_lt_of_le (b.knownGm a (by rw [← e.known]; exact ha)) e.nGm
  knownJac a ha := by rw [hn]; exact b.knownJac a (by rw [← e.knownJ]; exact ha)
  jwf a ha := by rw [hn] at ha; rw [e.jac a ha]; exact b.jwf a ha

theorem updatePixels_nJac (s : Store G M) (o : ℕ) : (updatePixels s o).1.nJac = s.nJac := by
  unfold updatePixels
  simp only
  split_ifs
  · split <;> rfl
  · rfl

theorem maybeUpdate_nJac (s : Store G M) (o : ℕ) (u : Bool) : (maybeUpdate s o u).1.nJac = s.nJac := by
  unfold maybeUpdate
  split_ifs
  · exact updatePixels_nJac s o
  · rfl

theorem updatePixels_ok (kj km : Prop) (s : Store G M) (o : ℕ) :
    SetterOK kj km kj km s o (updatePixels s o) := by
  obtain ⟨h1, -, -, ⟨px, h4⟩, -, -⟩ := updatePixels_spec s o
  have hwf : WfRec kj km s (s.obs o) → WfRec kj km (updatePixels s o).1 ((updatePixels s o).1.obs o) := by
    intro w
    rw [h4]
    have w2 : WfRec kj km s { s.obs o with pixels := px } :=
      w.congr rfl rfl (fun f => by cases f <;> rfl) rfl rfl rfl rfl
    exact w2.ext h1
  exact ⟨h1, fun b => b.ext h1 (updatePixels_nJac s o), fun _ => hwf, fun _ _ => hwf,
    fun a ha => Or.inl (by rw [h4] at ha; exact ha), Or.inl (by rw [h4])⟩

theorem maybeUpdate_ok (kj km : Prop) (s : Store G M) (o : ℕ) (u : Bool) :
    SetterOK kj km kj km s o (maybeUpdate s o u) := by
  unfold maybeUpdate
  split_ifs
  · exact updatePixels_ok kj km s o
  · exact ⟨Ext.rfl', id, fun _ => id, fun _ _ => id, fun a ha => Or.inl ha, Or.inl rfl⟩

/-- A record change followed by an optional pixel update. -/
theorem setThenUpdate_ok {kj km kj' km' : Prop} (s s1 : Store G M) (o : ℕ) (r : Obs) (u : Bool)
    (hj : kj → kj') (hm : km → km')
    (he : Ext s s1 o) (hb : Base s → Base s1)
    (hwf : Base s → WfRec kj km s (s.obs o) → WfRec kj' km' s1 r)
    (hg : ∀ a, r.gmix = some a → (s.obs o).gmix = some a ∨ s.nGm ≤ a)
    (hjac : r.jac = (s.obs o).jac ∨ s.nJac ≤ r.jac) :
    SetterOK kj km kj' km' s o (maybeUpdate (s1.setObs o r) o u) := by
  have h := maybeUpdate_ok kj' km' (s1.setObs o r) o u
  have he1 := ext_setObs s1 o r
  have hw : Base s → WfRec kj km s (s.obs o) → WfRec kj' km' (s1.setObs o r) ((s1.setObs o r).obs o) := by
    intro b w; rw [setObs_obs]; exact (hwf b w).ext he1
  have hb1 : Base s → Base (s1.setObs o r) := fun b => (hb b).ext he1 rfl
  refine ⟨(he.trans he1).trans h.ext, fun b => h.base (hb1 b),
    fun b w => (h.wf (hb1 b) (hw b w)).weaken hj hm, fun b ho w => h.wfok (hb1 b) ho (hw b w), ?_, ?_⟩
  · intro a ha
    rcases h.gm a ha with h' | h'
    · rw [setObs_obs] at h'; exact hg a h'
    · exact Or.inr ((he.trans he1).nGm.trans h')
  · rcases h.jac with h' | h'
    · rw [h', setObs_obs]; exact hjac
    · exact Or.inr ((he.trans he1).nJac.trans h')

theorem errorExt_ok {kj km kj' km' : Prop} (s s1 : Store G M) (o : ℕ) (e : PyErr) (he : Ext s s1 o)
    (hb : Base s → Base s1) (ho : s1.obs o = s.obs o) :
    SetterOK kj km kj' km' s o (s1, .error e) :=
  ⟨he, hb, fun _ w => by rw [ho]; exact w.ext he, fun _ h => by simp at h,
    fun a ha => Or.inl (by rw [← ho]; exact ha), Or.inl (by rw [ho])⟩

theorem asArray_nJac (s : Store G M) (a : ArrArg) : (asArray s a).1.nJac = s.nJac := by
  unfold asArray; split_ifs <;> rfl

theorem setImage_ok (s : Store G M) (o : ℕ) (a : ArrArg) (u : Bool) (ha : a.addr < s.nArr) :
    SetterOK True True True True s o (setImage s o a u) := by
  obtain ⟨he, hobs, hlt, hget, -, -⟩ := asArray_spec s o a ha
  have hb : Base s → Base (asArray s a).1 := fun b => b.ext he (asArray_nJac s a)
  unfold setImage
  simp only
  split_ifs with h1 h2
  · exact errorExt_ok s _ o _ he hb (by rw [hobs])
  · exact errorExt_ok s _ o _ he hb (by rw [hobs])
  · refine setThenUpdate_ok s _ o _ u id id he hb (fun _ w => ?_) ?_ ?_
    · rw [not_not] at h1 h2
      have w' := w.ext he
      rw [← hobs] at w'
      exact ⟨hlt, h1, w'.weight, by simp only; rw [h2]; exact w'.weightShape,
        fun f b hf => by
          simp only; rw [h2]; exact w'.aux f b (by rw [← hf]; cases f <;> rfl),
        w'.jac, w'.gmix, w'.psf, w'.md⟩
    · intro b hb'; rw [hobs] at hb'; exact Or.inl hb'
    · rw [hobs]; exact Or.inl rfl

theorem setWeight_ok (kj km : Prop) (s : Store G M) (o : ℕ) (a : Option ArrArg) (u : Bool)
    (ha : ∀ x ∈ a, x.addr < s.nArr) :
    SetterOK kj km kj km s o (setWeight s o a u) := by
  cases a with
  | none =>
    unfold setWeight
    simp only
    refine setThenUpdate_ok s _ o _ u id id (ext_allocArr s o _)
      (fun b => b.ext (ext_allocArr s o _) rfl) (fun _ w => ?_) ?_ ?_
    · have w' := w.ext (ext_allocArr s o ⟨(s.arr (s.obs o).image).shape, fun _ _ => 1⟩)
      exact ⟨w'.image, w'.dim, Nat.lt_succ_self _, by
          simp only [allocArr_arr_new, allocArr_obs]
          rw [(ext_allocArr s o _).arr _ w.image],
        fun f b hf => w'.aux f b (by rw [← hf]; cases f <;> rfl), w'.jac, w'.gmix, w'.psf, w'.md⟩
    · intro b hb; exact Or.inl hb
    · exact Or.inl rfl
  | some a =>
    obtain ⟨he, hobs, hlt, hget, -, -⟩ := asArray_spec s o a (ha a rfl)
    have hb : Base s → Base (asArray s a).1 := fun b => b.ext he (asArray_nJac s a)
    unfold setWeight
    simp only
    split_ifs with h1 h2
    · exact errorExt_ok s _ o _ he hb (by rw [hobs])
    · exact errorExt_ok s _ o _ he hb (by rw [hobs])
    · refine setThenUpdate_ok s _ o _ u id id he hb (fun _ w => ?_) ?_ ?_
      · rw [not_not] at h1 h2
        have w' := w.ext he
        rw [← hobs] at w'
        exact ⟨w'.image, w'.dim, hlt, h2,
          fun f b hf => w'.aux f b (by rw [← hf]; cases f <;> rfl),
          w'.jac, w'.gmix, w'.psf, w'.md⟩
      · intro b hb'; rw [hobs] at hb'; exact Or.inl hb'
      · rw [hobs]; exact Or.inl rfl

/-- A plain record change with success. -/
theorem setOnly_ok {kj km kj' km' : Prop} (s s1 : Store G M) (o : ℕ) (r : Obs)
    (hj : kj → kj') (hm : km → km')
    (he : Ext s s1 o) (hb : Base s → Base s1)
    (hwf : Base s → WfRec kj km s (s.obs o) → WfRec kj' km' s1 r)
    (hg : ∀ a, r.gmix = some a → (s.obs o).gmix = some a ∨ s.nGm ≤ a)
    (hjac : r.jac = (s.obs o).jac ∨ s.nJac ≤ r.jac) :
    SetterOK kj km kj' km' s o (s1.setObs o r, .ok ()) := by
  have := setThenUpdate_ok s s1 o r false hj hm he hb hwf hg hjac
  simpa [maybeUpdate] using this

theorem setAux_aux (r : Obs) (f g : AuxField) (v : Option ℕ) :
    (r.setAux f v).aux g = if g = f then v else r.aux g := by
  cases f <;> cases g <;> simp [Obs.setAux, Obs.aux]

theorem setAux_other (r : Obs) (f : AuxField) (v : Option ℕ) :
    (r.setAux f v).image = r.image ∧ (r.setAux f v).weight = r.weight ∧ (r.setAux f v).jac = r.jac ∧
    (r.setAux f v).gmix = r.gmix ∧ (r.setAux f v).psf = r.psf ∧ (r.setAux f v).md = r.md ∧
    (r.setAux f v).writeable = r.writeable ∧ (r.setAux f v).storePixels = r.storePixels ∧
    (r.setAux f v).ignoreZero = r.ignoreZero ∧ (r.setAux f v).pixels = r.pixels := by
  cases f <;> simp [Obs.setAux]

theorem WfRec.setAux {kj km : Prop} {s : Store G M} {r : Obs} (w : WfRec kj km s r) (f : AuxField)
    (v : Option ℕ) (hv : ∀ a, v = some a → a < s.nArr ∧ (s.arr a).shape = (s.arr r.image).shape) :
    WfRec kj km s (r.setAux f v) := by
  obtain ⟨e1, e2, e3, e4, e5, e6, -, -, -, -⟩ := setAux_other r f v
  refine ⟨by rw [e1]; exact w.image, by rw [e1]; exact w.dim, by rw [e2]; exact w.weight,
    by rw [e1, e2]; exact w.weightShape, ?_, by rw [e3]; exact w.jac, by rw [e4]; exact w.gmix,
    by rw [e5]; exact w.psf, by rw [e6]; exact w.md⟩
  intro g a hg
  rw [setAux_aux] at hg
  rw [e1]
  split_ifs at hg
  · exact hv a hg
  · exact w.aux g a hg

theorem setAuxArr_ok (kj km : Prop) (s : Store G M) (o : ℕ) (f : AuxField) (a : Option ArrArg)
    (ha : ∀ x ∈ a, x.addr < s.nArr) : SetterOK kj km kj km s o (setAuxArr s o f a) := by
  cases a with
  | none =>
    unfold setAuxArr
    simp only
    obtain ⟨e1, e2, e3, e4, e5, e6, -, -, -, -⟩ := setAux_other (s.obs o) f none
    refine setOnly_ok s s o _ id id Ext.rfl' id (fun _ w => w.setAux f none (by simp)) ?_ ?_
    · rw [e4]; exact fun a h => Or.inl h
    · rw [e3]; exact Or.inl rfl
  | some a =>
    obtain ⟨he, hobs, hlt, hget, -, -⟩ := asArray_spec s o a (ha a rfl)
    have hb : Base s → Base (asArray s a).1 := fun b => b.ext he (asArray_nJac s a)
    unfold setAuxArr
    simp only
    split_ifs with h1 h2
    · exact errorExt_ok s _ o _ he hb (by rw [hobs])
    · exact errorExt_ok s _ o _ he hb (by rw [hobs])
    · obtain ⟨e1, e2, e3, e4, e5, e6, -, -, -, -⟩ :=
        setAux_other ((asArray s a).1.obs o) f (some (asArray s a).2)
      refine setOnly_ok s _ o _ id id he hb (fun _ w => ?_) ?_ ?_
      · rw [not_not] at h1 h2
        have w' := w.ext he
        rw [← hobs] at w'
        refine w'.setAux f _ ?_
        intro b hb; injection hb with hb; subst hb; exact ⟨hlt, h2⟩
      · rw [e4, hobs]; exact fun a h => Or.inl h
      · rw [e3, hobs]; exact Or.inl rfl

theorem jacUnit_canonical (a : Arr) : ∃ j, Jacobian.unit (canonicalCen a) = .ok j ∧ JacWF j ∧
    j.row0 = ((a.shape.getD 0 0 : ℕ) - 1) / 2 ∧ j.col0 = ((a.shape.getD 1 0 : ℕ) - 1) / 2 ∧
    j.dvdrow = 1 ∧ j.dvdcol = 0 ∧ j.dudrow = 0 ∧ j.dudcol = 1 :=
  (C15_diagonal (canonicalCen a) 1 (((a.shape.getD 0 0 : ℕ) - 1) / 2)
    (((a.shape.getD 1 0 : ℕ) - 1) / 2)).1 (by simp [canonicalCen, Kw.ofList, List.lookup])
    (by simp [canonicalCen, Kw.ofList, List.lookup]) (by simp [canonicalCen, Kw.ofList, List.lookup])

theorem allocJac_base {s : Store G M} {j : Jacobian} (b : Base s) (hj : JacWF j) :
    Base (s.allocJac j) where
  knownGm := b.knownGm
  knownJac a ha := Nat.lt_succ_of_lt (b.knownJac a ha)
  jwf a ha := by
    rcases Nat.lt_succ_iff_lt_or_eq.1 ha with h | h
    · rw [(ext_allocJac s 0 j).jac a h]; exact b.jwf a h
    · subst h; simp [Store.allocJac]; exact hj

theorem setJacobian_ok (kj km : Prop) (s : Store G M) (o : ℕ) (a : ObjArg) (u : Bool)
    (ha : a.Below s.nJac) (hb : Base s) : SetterOK kj km True km s o (setJacobian s o a u) := by
  have main : ∀ j, JacWF j → SetterOK kj km True km s o
      (maybeUpdate ((s.allocJac j).setObs o { (s.allocJac j).obs o with jac := s.nJac }) o u) := by
    intro j hj
    refine setThenUpdate_ok s _ o _ u (fun _ => trivial) id (ext_allocJac s o j)
      (fun b => allocJac_base b hj) (fun b w => ?_) ?_ ?_
    · have w' := w.ext (ext_allocJac s o j)
      exact ⟨w'.image, w'.dim, w'.weight, w'.weightShape,
        fun f b hf => w'.aux f b (by rw [← hf]; cases f <;> rfl),
        fun _ => ⟨Nat.lt_succ_self _, fun hm => absurd (b.knownJac _ hm) (lt_irrefl _)⟩,
        w'.gmix, w'.psf, w'.md⟩
    · intro b hb; exact Or.inl hb
    · exact Or.inr (le_refl _)
  unfold setJacobian
  cases a with
  | wrongType => exact errorExt_ok s s o _ Ext.rfl' id rfl
  | none =>
    obtain ⟨j, hj, hw, -⟩ := jacUnit_canonical (s.arr (s.obs o).image)
    simp only [hj]
    exact main j hw
  | obj j =>
    simp only [C15_copy _ (hb.jwf j ha)]
    exact main _ (hb.jwf j ha)

theorem setPsf_ok (kj km : Prop) (s : Store G M) (o : ℕ) (a : ObjArg) (ha : a.Below s.nObs) :
    SetterOK kj km kj km s o (setPsf s o a) := by
  have hdel : ∀ s : Store G M, WfRec kj km s (s.obs o) → WfRec kj km s { s.obs o with psf := none } :=
    fun s w => ⟨w.image, w.dim, w.weight, w.weightShape,
      fun f b hf => w.aux f b (by rw [← hf]; cases f <;> rfl), w.jac, w.gmix, by simp, w.md⟩
  have h1 := setOnly_ok s s o { s.obs o with psf := none } (kj := kj) (km := km) id id Ext.rfl' id
    (fun _ w => hdel s w) (fun a h => Or.inl h) (Or.inl rfl)
  unfold setPsf
  cases a with
  | none => exact h1
  | wrongType => exact ⟨h1.ext, h1.base, h1.wf, fun _ h => by simp at h, h1.gm, h1.jac⟩
  | obj p =>
    simp only
    refine setOnly_ok s _ o _ id id (ext_setObs s o _) (fun b => b.ext (ext_setObs s o _) rfl)
      (fun _ w => ?_) ?_ ?_
    · have w' := (hdel s w).ext (ext_setObs s o { s.obs o with psf := none })
      rw [setObs_obs]
      exact ⟨w'.image, w'.dim, w'.weight, w'.weightShape,
        fun f b hf => w'.aux f b (by rw [← hf]; cases f <;> rfl), w'.jac, w'.gmix,
        fun a h => by injection h with h; subst h; exact ha, w'.md⟩
    · rw [setObs_obs]; exact fun a h => Or.inl h
    · rw [setObs_obs]; exact Or.inl rfl

theorem setGmix_ok (ops : ObsOps G M) (kj km : Prop) (s : Store G M) (o : ℕ) (a : ObjArg) :
    SetterOK kj km kj km s o (setGmix ops s o a) := by
  have hdel : ∀ s : Store G M, WfRec kj km s (s.obs o) → WfRec kj km s { s.obs o with gmix := none } :=
    fun s w => ⟨w.image, w.dim, w.weight, w.weightShape,
      fun f b hf => w.aux f b (by rw [← hf]; cases f <;> rfl), w.jac, by simp, w.psf, w.md⟩
  have h1 := setOnly_ok s s o { s.obs o with gmix := none } (kj := kj) (km := km) id id Ext.rfl' id
    (fun _ w => hdel s w) (fun a h => by simp at h) (Or.inl rfl)
  unfold setGmix
  cases a with
  | none => exact h1
  | wrongType => exact ⟨h1.ext, h1.base, h1.wf, fun _ h => by simp at h, h1.gm, h1.jac⟩
  | obj p =>
    simp only
    have he : Ext s ((s.setObs o { s.obs o with gmix := none }).allocGm
        (ops.gcopy ((s.setObs o { s.obs o with gmix := none }).gm p))) o :=
      (ext_setObs s o _).trans (ext_allocGm _ o _)
    refine setOnly_ok s _ o _ id id he (fun b => b.ext he rfl) (fun b w => ?_) ?_ ?_
    · have w' := (hdel s w).ext he
      refine ⟨?_, ?_, ?_, ?_, ?_, ?_, ?_, ?_, ?_⟩ <;>
        simp only [Store.allocGm, setObs_obs]
      · exact w'.image
      · exact w'.dim
      · exact w'.weight
      · exact w'.weightShape
      · exact fun f b hf => w'.aux f b (by rw [← hf]; cases f <;> rfl)
      · exact w'.jac
      · intro a h
        injection h with h
        subst h
        exact ⟨Nat.lt_succ_self _, fun hm => absurd (b.knownGm _ hm) (lt_irrefl _)⟩
      · exact w'.psf
      · exact w'.md
    · intro a h
      injection h with h
      subst h
      exact Or.inr (le_refl _)
    · exact Or.inl (by simp [Store.allocGm])

theorem setMeta_ok (ops : ObsOps G M) (kj km : Prop) (s : Store G M) (o : ℕ) (a : ObjArg)
    (ha : a.Below s.nDict) : SetterOK kj km kj True s o (setMeta ops s o a) := by
  unfold setMeta
  cases a with
  | wrongType => exact errorExt_ok s s o _ Ext.rfl' id rfl
  | none =>
    refine setOnly_ok s _ o _ id (fun _ => trivial) (ext_allocDict s o _)
      (fun b => b.ext (ext_allocDict s o _) rfl) (fun _ w => ?_) (fun a h => Or.inl h) (Or.inl rfl)
    have w' := w.ext (ext_allocDict s o ops.emptyMeta)
    exact ⟨w'.image, w'.dim, w'.weight, w'.weightShape,
        fun f b hf => w'.aux f b (by rw [← hf]; cases f <;> rfl), w'.jac, w'.gmix, w'.psf,
        fun _ => Nat.lt_succ_self _⟩
  | obj m =>
    refine setOnly_ok s s o _ id (fun _ => trivial) Ext.rfl' id (fun _ w' => ?_)
      (fun a h => Or.inl h) (Or.inl rfl)
    exact ⟨w'.image, w'.dim, w'.weight, w'.weightShape,
        fun f b hf => w'.aux f b (by rw [← hf]; cases f <;> rfl), w'.jac, w'.gmix, w'.psf,
        fun _ => ha⟩

/-- Changing only flags keeps a record well-formed. -/
theorem flags_ok (kj km : Prop) (s : Store G M) (o : ℕ) (r : Obs) (u : Bool)
    (h1 : r.image = (s.obs o).image) (h2 : r.weight = (s.obs o).weight)
    (h3 : ∀ f, r.aux f = (s.obs o).aux f) (h4 : r.jac = (s.obs o).jac)
    (h5 : r.gmix = (s.obs o).gmix) (h6 : r.psf = (s.obs o).psf) (h7 : r.md = (s.obs o).md) :
    SetterOK kj km kj km s o (maybeUpdate (s.setObs o r) o u) :=
  setThenUpdate_ok s s o r u id id Ext.rfl' id (fun _ w => w.congr h1 h2 h3 h4 h5 h6 h7)
    (fun a h => Or.inl (by rw [← h5]; exact h)) (Or.inl h4)

theorem setStorePixels_ok (kj km : Prop) (s : Store G M) (o : ℕ) (b : Bool) :
    SetterOK kj km kj km s o (setStorePixels s o b) :=
  flags_ok kj km s o _ _ rfl rfl (fun f => by cases f <;> rfl) rfl rfl rfl rfl

theorem setIgnoreZero_ok (kj km : Prop) (s : Store G M) (o : ℕ) (b : Bool) :
    SetterOK kj km kj km s o (setIgnoreZero s o b) :=
  flags_ok kj km s o _ _ rfl rfl (fun f => by cases f <;> rfl) rfl rfl rfl rfl

theorem enterWriteable_ok (kj km : Prop) (s : Store G M) (o : ℕ) :
    SetterOK kj km kj km s o (enterWriteable s o) :=
  flags_ok kj km s o { s.obs o with writeable := true } false rfl rfl (fun f => by cases f <;> rfl)
    rfl rfl rfl rfl

theorem exitWriteable_ok (kj km : Prop) (s : Store G M) (o : ℕ) :
    SetterOK kj km kj km s o (exitWriteable s o) :=
  flags_ok kj km s o { s.obs o with writeable := false } true rfl rfl (fun f => by cases f <;> rfl)
    rfl rfl rfl rfl

/-! ### Constructor -/

/-- The argument references of a constructor call exist. -/
structure ArgsOK (s : Store G M) (a : ObsArgs) : Prop where
  image : a.image.addr < s.nArr
  weight : ∀ x ∈ a.weight, x.addr < s.nArr
  bmask : ∀ x ∈ a.bmask, x.addr < s.nArr
  ormask : ∀ x ∈ a.ormask, x.addr < s.nArr
  noise : ∀ x ∈ a.noise, x.addr < s.nArr
  mfrac : ∀ x ∈ a.mfrac, x.addr < s.nArr
  jac : a.jacobian.Below s.nJac
  psf : a.psf.Below s.nObs
  md : a.metaData.Below s.nDict

theorem ObjArg.Below.mono {n m : ℕ} {a : ObjArg} (h : a.Below n) (hn : n ≤ m) : a.Below m := by
  cases a with
  | obj x => exact lt_of_lt_of_le h hn
  | none => trivial
  | wrongType => trivial

/-- The raw object at the start of the constructor. -/
def rawObs (p : ℕ) (a : ObsArgs) : Obs :=
  { image := p, weight := p, mfrac := none, bmask := none, ormask := none, noise := none,
    jac := 0, psf := none, gmix := none, md := 0, writeable := false,
    storePixels := a.storePixels, ignoreZero := a.ignoreZero, pixels := none }

/-- The part of the constructor after the image check. -/
noncomputable def initRest (ops : ObsOps G M) (s1 : Store G M) (o : ℕ) (a : ObsArgs) : Store G M × Except PyErr Unit :=
    andThen (setWeight s1 o a.weight false) fun s =>
    andThen (setJacobian s o a.jacobian false) fun s =>
    andThen (updatePixels s o) fun s =>
    andThen (setMeta ops s o a.metaData) fun s =>
    andThen (setAuxArr s o .bmask a.bmask) fun s =>
    andThen (setAuxArr s o .ormask a.ormask) fun s =>
    andThen (setAuxArr s o .noise a.noise) fun s =>
    andThen (setGmix ops s o a.gmix) fun s =>
    andThen (setPsf s o a.psf) fun s =>
    setAuxArr s o .mfrac a.mfrac

theorem initObs_eq (ops : ObsOps G M) (s : Store G M) (a : ObsArgs) :
    initObs ops s a = if ((asArray s a.image).1.arr (asArray s a.image).2).shape.length ≠ 2 then
      ((asArray s a.image).1, .error .assertion)
    else initRest ops ((asArray s a.image).1.setObs s.nObs (rawObs (asArray s a.image).2 a)) s.nObs a :=
  rfl

/-- A setter lemma that needs the global facts. -/
theorem SetterOK.andThen' {kj km kj1 km1 kj2 km2 : Prop} {s : Store G M} {o : ℕ}
    {x : Store G M × Except PyErr Unit} {k : Store G M → Store G M × Except PyErr Unit}
    (b : Base s) (hj : kj → kj1) (hm : km → km1)
    (hx : SetterOK kj km kj1 km1 s o x)
    (hk : ∀ s', Base s' → Ext s s' o → SetterOK kj1 km1 kj2 km2 s' o (k s')) :
    SetterOK kj km kj2 km2 s o (Ngmix.andThen x k) := by
  have hx1 := hk x.1 (hx.base b) hx.ext
  unfold Ngmix.andThen
  rcases x with ⟨s1, out⟩
  cases out with
  | error e =>
    exact ⟨hx.ext, hx.base, hx.wf, fun _ h => by simp at h, hx.gm, hx.jac⟩
  | ok u =>
    have h1 := hx1
    refine ⟨hx.ext.trans h1.ext, fun b => h1.base (hx.base b), fun b w => ?_, fun b ho w => ?_, ?_, ?_⟩
    · exact (h1.wf (hx.base b) (hx.wfok b rfl w)).weaken hj hm
    · exact h1.wfok (hx.base b) ho (hx.wfok b rfl w)
    · intro a ha
      rcases h1.gm a ha with h | h
      · exact hx.gm a h
      · exact Or.inr (hx.ext.nGm.trans h)
    · rcases h1.jac with h | h
      · have h' : ((k s1).1.obs o).jac = (s1.obs o).jac := h
        simp only at *
        rw [h']
        exact hx.jac
      · exact Or.inr (hx.ext.nJac.trans h)

theorem initRest_ok (ops : ObsOps G M) (s : Store G M) (o : ℕ) (a : ObsArgs) (b : Base s)
    (ha : ArgsOK s a) : SetterOK False False True True s o (initRest ops s o a) := by
  unfold initRest
  refine SetterOK.andThen' b id id (setWeight_ok False False s o _ _ ha.weight) fun s1 b1 e1 => ?_
  refine SetterOK.andThen' b1 (fun h => h.elim) id
    (setJacobian_ok False False s1 o _ _ (ha.jac.mono e1.nJac) b1) fun s2 b2 e2 => ?_
  have e2 := e1.trans e2
  refine SetterOK.andThen' b2 id id (updatePixels_ok True False s2 o) fun s3 b3 e3 => ?_
  have e3 := e2.trans e3
  refine SetterOK.andThen' b3 id (fun h => h.elim)
    (setMeta_ok ops True False s3 o _ (ha.md.mono e3.nDict)) fun s4 b4 e4 => ?_
  have e4 := e3.trans e4
  refine SetterOK.andThen' b4 id id (setAuxArr_ok True True s4 o _ _
    (fun x hx => lt_of_lt_of_le (ha.bmask x hx) e4.nArr)) fun s5 b5 e5 => ?_
  have e5 := e4.trans e5
  refine SetterOK.andThen' b5 id id (setAuxArr_ok True True s5 o _ _
    (fun x hx => lt_of_lt_of_le (ha.ormask x hx) e5.nArr)) fun s6 b6 e6 => ?_
  have e6 := e5.trans e6
  refine SetterOK.andThen' b6 id id (setAuxArr_ok True True s6 o _ _
    (fun x hx => lt_of_lt_of_le (ha.noise x hx) e6.nArr)) fun s7 b7 e7 => ?_
  have e7 := e6.trans e7
  refine SetterOK.andThen' b7 id id (setGmix_ok ops True True s7 o _) fun s8 b8 e8 => ?_
  have e8 := e7.trans e8
  refine SetterOK.andThen' b8 id id (setPsf_ok True True s8 o _
    (ha.psf.mono (le_of_eq e8.nObs.symm))) fun s9 b9 e9 => ?_
  have e9 := e8.trans e9
  exact setAuxArr_ok True True s9 o _ _ (fun x hx => lt_of_lt_of_le (ha.mfrac x hx) e9.nArr)


/-! ### Effects of successful setters -/

theorem andThen_ok {x : Store G M × Except PyErr Unit} {k : Store G M → Store G M × Except PyErr Unit}
    {s' : Store G M} (h : Ngmix.andThen x k = (s', .ok ())) :
    ∃ s1, x = (s1, .ok ()) ∧ k s1 = (s', .ok ()) := by
  unfold Ngmix.andThen at h
  rcases x with ⟨s1, out⟩
  cases out with
  | error e => simp at h
  | ok u => exact ⟨s1, rfl, h⟩

/-- An array attribute `p` of `s'` was made from the argument `a` in state `s`. -/
def FromArg (s s' : Store G M) (a : ArrArg) (p : ℕ) : Prop :=
  p < s'.nArr ∧ s'.arr p = s.arr a.addr ∧ (a.converted = false → p = a.addr) ∧
  (a.converted = true → s.nArr ≤ p)

theorem asArray_from (s : Store G M) (a : ArrArg) (ha : a.addr < s.nArr) :
    FromArg s (asArray s a).1 a (asArray s a).2 := by
  obtain ⟨-, -, h1, h2, -, -⟩ := asArray_spec s 0 a ha
  refine ⟨h1, h2, ?_, ?_⟩
  · intro h; simp [asArray, h]
  · intro h; simp [asArray, h]

theorem FromArg.post {s s1 s' : Store G M} {a : ArrArg} {p o : ℕ} (h : FromArg s s1 a p)
    (e : Ext s1 s' o) : FromArg s s' a p :=
  ⟨lt_of_lt_of_le h.1 e.nArr, by rw [e.arr p h.1]; exact h.2.1, h.2.2.1, h.2.2.2⟩

theorem FromArg.pre {s s1 s' : Store G M} {a : ArrArg} {p o : ℕ} (h : FromArg s1 s' a p)
    (e : Ext s s1 o) (ha : a.addr < s.nArr) : FromArg s s' a p :=
  ⟨h.1, by rw [← e.arr _ ha]; exact h.2.1, h.2.2.1, fun hc => e.nArr.trans (h.2.2.2 hc)⟩

theorem eff_setWeight {s s' : Store G M} {o : ℕ} {a : Option ArrArg} (ha : ∀ x ∈ a, x.addr < s.nArr)
    (h : setWeight s o a false = (s', .ok ())) :
    ∃ w, s'.obs o = { s.obs o with weight := w } ∧ (∀ x, a = some x → FromArg s s' x w) ∧
      (a = none → s'.arr w = ⟨(s.arr (s.obs o).image).shape, fun _ _ => 1⟩ ∧ s.nArr ≤ w ∧ w < s'.nArr) := by
  cases a with
  | none =>
    simp only [setWeight, maybeUpdate, Bool.false_eq_true, if_false] at h
    injection h with h _
    subst h
    exact ⟨s.nArr, by simp, by simp, fun _ => by simp⟩
  | some x =>
    obtain ⟨he, hobs, hlt, hget, -, -⟩ := asArray_spec s o x (ha x rfl)
    simp only [setWeight, maybeUpdate, Bool.false_eq_true, if_false] at h
    split_ifs at h with h1 h2
    · simp at h
    · simp at h
    · injection h with h _
      subst h
      refine ⟨(asArray s x).2, by rw [setObs_obs, hobs], ?_, by simp⟩
      intro y hy
      injection hy with hy
      subst hy
      exact (asArray_from s x (ha x rfl)).post (ext_setObs _ o _)

theorem eff_setAux {s s' : Store G M} {o : ℕ} {f : AuxField} {a : Option ArrArg}
    (ha : ∀ x ∈ a, x.addr < s.nArr) (h : setAuxArr s o f a = (s', .ok ())) :
    ∃ v, s'.obs o = (s.obs o).setAux f v ∧ (a = none → v = none) ∧
      (∀ x, a = some x → ∃ p, v = some p ∧ FromArg s s' x p) := by
  cases a with
  | none =>
    simp only [setAuxArr] at h
    injection h with h _
    subst h
    exact ⟨none, by simp, by simp, by simp⟩
  | some x =>
    obtain ⟨he, hobs, hlt, hget, -, -⟩ := asArray_spec s o x (ha x rfl)
    simp only [setAuxArr] at h
    split_ifs at h with h1 h2
    · simp at h
    · simp at h
    · injection h with h _
      subst h
      refine ⟨some (asArray s x).2, by rw [setObs_obs, hobs], by simp, ?_⟩
      intro y hy
      injection hy with hy
      subst hy
      exact ⟨_, rfl, (asArray_from s x (ha x rfl)).post (ext_setObs _ o _)⟩

theorem eff_setJacobian {s s' : Store G M} {o : ℕ} {a : ObjArg} (ha : a.Below s.nJac) (hb : Base s)
    (h : setJacobian s o a false = (s', .ok ())) :
    s'.obs o = { s.obs o with jac := s.nJac } ∧ s.nJac < s'.nJac ∧
      (∀ j, a = .obj j → s'.jac s.nJac = s.jac j) ∧
      (a = .none → ∃ j, Jacobian.unit (canonicalCen (s.arr (s.obs o).image)) = .ok j ∧
        s'.jac s.nJac = j) := by
  cases a with
  | wrongType => simp [setJacobian] at h
  | none =>
    obtain ⟨j, hj, -, -⟩ := jacUnit_canonical (s.arr (s.obs o).image)
    simp only [setJacobian, maybeUpdate, hj, Bool.false_eq_true, if_false] at h
    injection h with h _
    subst h
    exact ⟨by rw [setObs_obs]; rfl, Nat.lt_succ_self _, by simp, fun _ => ⟨j, hj, by simp [Store.allocJac]⟩⟩
  | obj j =>
    simp only [setJacobian, maybeUpdate, C15_copy _ (hb.jwf j ha), Bool.false_eq_true, if_false] at h
    injection h with h _
    subst h
    refine ⟨by rw [setObs_obs]; rfl, Nat.lt_succ_self _, ?_, by simp⟩
    intro k hk; injection hk with hk; subst hk; simp [Store.allocJac]

theorem eff_setMeta {ops : ObsOps G M} {s s' : Store G M} {o : ℕ} {a : ObjArg}
    (h : setMeta ops s o a = (s', .ok ())) :
    ∃ m, s'.obs o = { s.obs o with md := m } ∧ (∀ x, a = .obj x → m = x) ∧
      (a = .none → s'.dict m = ops.emptyMeta) := by
  cases a with
  | wrongType => simp [setMeta] at h
  | none =>
    simp only [setMeta] at h
    injection h with h _
    subst h
    exact ⟨s.nDict, by rw [setObs_obs]; rfl, by simp, fun _ => by simp [Store.allocDict, Store.setObs]⟩
  | obj m =>
    simp only [setMeta] at h
    injection h with h _
    subst h
    exact ⟨m, by rw [setObs_obs], by simp, by simp⟩

theorem eff_setGmix {ops : ObsOps G M} {s s' : Store G M} {o : ℕ} {a : ObjArg}
    (h : setGmix ops s o a = (s', .ok ())) :
    ∃ v, s'.obs o = { s.obs o with gmix := v } ∧ (a = .none → v = none) ∧
      (∀ g, a = .obj g → v = some s.nGm ∧ s.nGm < s'.nGm ∧ s'.gm s.nGm = ops.gcopy (s.gm g)) := by
  cases a with
  | wrongType => simp [setGmix] at h
  | none =>
    simp only [setGmix] at h
    injection h with h _
    subst h
    exact ⟨none, by rw [setObs_obs], by simp, by simp⟩
  | obj g =>
    simp only [setGmix] at h
    injection h with h _
    subst h
    refine ⟨some s.nGm, by simp [Store.setObs, Store.allocGm], by simp, ?_⟩
    intro k hk; injection hk with hk; subst hk
    exact ⟨rfl, Nat.lt_succ_self _, by simp [Store.allocGm, Store.setObs]⟩

theorem eff_setPsf {s s' : Store G M} {o : ℕ} {a : ObjArg}
    (h : setPsf s o a = (s', .ok ())) :
    ∃ v, s'.obs o = { s.obs o with psf := v } ∧ (a = .none → v = none) ∧
      (∀ p, a = .obj p → v = some p) := by
  cases a with
  | wrongType => simp [setPsf] at h
  | none =>
    simp only [setPsf] at h
    injection h with h _
    subst h
    exact ⟨none, by rw [setObs_obs], by simp, by simp⟩
  | obj g =>
    simp only [setPsf] at h
    injection h with h _
    subst h
    refine ⟨some g, by simp, by simp, ?_⟩
    intro k hk; injection hk with hk; subst hk; rfl

theorem eff_updatePixels {s s' : Store G M} {o : ℕ} (h : updatePixels s o = (s', .ok ())) :
    ∃ px, s'.obs o = { s.obs o with pixels := px } ∧ InSync s' (s'.obs o) := by
  obtain ⟨-, -, -, ⟨px, h4⟩, h5, -⟩ := updatePixels_spec s o
  rw [h] at h4 h5
  exact ⟨px, h4, h5 rfl⟩

/-- Synchronisation is kept when nothing it depends on changes. -/
theorem InSync.ext {s s' : Store G M} {r r' : Obs} {o : ℕ} (h : InSync s r) (e : Ext s s' o)
    (hi : r.image < s.nArr) (hw : r.weight < s.nArr) (hj : r.jac < s.nJac)
    (h1 : r'.image = r.image) (h2 : r'.weight = r.weight) (h3 : r'.jac = r.jac)
    (h4 : r'.storePixels = r.storePixels) (h5 : r'.ignoreZero = r.ignoreZero)
    (h6 : r'.pixels = r.pixels) : InSync s' r' := by
  unfold InSync
  rw [h1, h2, h3, h4, h5, h6, e.arr _ hi, e.arr _ hw, e.jac _ hj]
  exact h

/-- The argument for an optional array. -/
def ObsArgs.auxArg (a : ObsArgs) : AuxField → Option ArrArg
  | .mfrac => a.mfrac
  | .bmask => a.bmask
  | .ormask => a.ormask
  | .noise => a.noise

/-- What a successful constructor call built at address `s.nObs`. -/
structure Built (ops : ObsOps G M) (s s' : Store G M) (a : ObsArgs) : Prop where
  ext : Ext s s' s.nObs
  base : Base s'
  wf : WfRec True True s' (s'.obs s.nObs)
  sync : InSync s' (s'.obs s.nObs)
  image : FromArg s s' a.image (s'.obs s.nObs).image
  weight : ∀ x, a.weight = some x → FromArg s s' x (s'.obs s.nObs).weight
  noWeight : a.weight = none →
    s'.arr (s'.obs s.nObs).weight = ⟨(s.arr a.image.addr).shape, fun _ _ => 1⟩ ∧
    s.nArr ≤ (s'.obs s.nObs).weight
  aux : ∀ f x, a.auxArg f = some x → ∃ p, (s'.obs s.nObs).aux f = some p ∧ FromArg s s' x p
  noAux : ∀ f, a.auxArg f = none → (s'.obs s.nObs).aux f = none
  jacFresh : s.nJac ≤ (s'.obs s.nObs).jac
  jac : ∀ j, a.jacobian = .obj j → s'.jac (s'.obs s.nObs).jac = s.jac j
  noJac : a.jacobian = .none →
    Jacobian.unit (canonicalCen (s.arr a.image.addr)) = .ok (s'.jac (s'.obs s.nObs).jac)
  gmix : ∀ g, a.gmix = .obj g → g < s.nGm → ∃ h, (s'.obs s.nObs).gmix = some h ∧ s.nGm ≤ h ∧
    s'.gm h = ops.gcopy (s.gm g)
  noGmix : a.gmix = .none → (s'.obs s.nObs).gmix = none
  gmFresh : ∀ h, (s'.obs s.nObs).gmix = some h → s.nGm ≤ h
  psf : ∀ p, a.psf = .obj p → (s'.obs s.nObs).psf = some p
  noPsf : a.psf = .none → (s'.obs s.nObs).psf = none
  md : ∀ m, a.metaData = .obj m → (s'.obs s.nObs).md = m
  noMd : a.metaData = .none → s'.dict (s'.obs s.nObs).md = ops.emptyMeta
  store : (s'.obs s.nObs).storePixels = a.storePixels
  ignore : (s'.obs s.nObs).ignoreZero = a.ignoreZero
  closed : (s'.obs s.nObs).writeable = false
  types : a.gmix ≠ .wrongType ∧ a.psf ≠ .wrongType ∧ a.metaData ≠ .wrongType ∧
    a.jacobian ≠ .wrongType

theorem initObs_built (ops : ObsOps G M) (s s' : Store G M) (a : ObsArgs) (b : Base s)
    (ha : ArgsOK s a) (h : initObs ops s a = (s', .ok ())) : Built ops s s' a := by
  obtain ⟨he, hobs, hlt, hget, -, -⟩ := asArray_spec s s.nObs a.image ha.image
  have hb : Base (asArray s a.image).1 := b.ext he (asArray_nJac s _)
  have hfrom := asArray_from s a.image ha.image
  rw [initObs_eq] at h
  split_ifs at h with h1
  · simp at h
  rw [not_not] at h1
  set p := (asArray s a.image).2 with hp
  have hes := ext_setObs (asArray s a.image).1 s.nObs (rawObs p a)
  have e1 := he.trans hes
  set o := s.nObs with ho
  set s1 := (asArray s a.image).1.setObs o (rawObs p a) with hs1
  have b1 : Base s1 := hb.ext hes rfl
  have hraw : s1.obs o = rawObs p a := setObs_obs _ _ _
  have w1 : WfRec False False s1 (s1.obs o) := by
    rw [hraw]
    exact ⟨hlt, h1, hlt, rfl, fun f x hx => by cases f <;> simp [rawObs, Obs.aux] at hx,
      fun h => h.elim, fun x hx => by simp [rawObs] at hx, fun x hx => by simp [rawObs] at hx,
      fun h => h.elim⟩
  unfold initRest at h
  -- weight
  have ha2 : ∀ x ∈ a.weight, x.addr < s1.nArr := fun x hx => lt_of_lt_of_le (ha.weight x hx) e1.nArr
  obtain ⟨s2, g2, h⟩ := andThen_ok h
  have ok2 := setWeight_ok False False s1 o a.weight false ha2
  rw [g2] at ok2
  have b2 := ok2.base b1
  have w2 := ok2.wfok b1 rfl w1
  obtain ⟨wt, r2, hwt, hnwt⟩ := eff_setWeight ha2 g2
  have e2 := e1.trans ok2.ext
  -- jacobian
  have ha3 := ha.jac.mono e2.nJac
  obtain ⟨s3, g3, h⟩ := andThen_ok h
  have ok3 := setJacobian_ok False False s2 o a.jacobian false ha3 b2
  rw [g3] at ok3
  have b3 := ok3.base b2
  have w3 := ok3.wfok b2 rfl w2
  obtain ⟨r3, hjlt, hj, hnj⟩ := eff_setJacobian ha3 b2 g3
  have e3 := e2.trans ok3.ext
  -- pixels
  obtain ⟨s4, g4, h⟩ := andThen_ok h
  have ok4 := updatePixels_ok True False s3 o
  rw [g4] at ok4
  have b4 := ok4.base b3
  have w4 := ok4.wfok b3 rfl w3
  obtain ⟨px, r4, sync4⟩ := eff_updatePixels g4
  have e4 := e3.trans ok4.ext
  -- meta
  obtain ⟨s5, g5, h⟩ := andThen_ok h
  have ok5 := setMeta_ok ops True False s4 o a.metaData (ha.md.mono e4.nDict)
  rw [g5] at ok5
  have b5 := ok5.base b4
  have w5 := ok5.wfok b4 rfl w4
  obtain ⟨mt, r5, hm, hnm⟩ := eff_setMeta g5
  have e5 := e4.trans ok5.ext
  -- bmask
  have ha6 : ∀ x ∈ a.bmask, x.addr < s5.nArr := fun x hx => lt_of_lt_of_le (ha.bmask x hx) e5.nArr
  obtain ⟨s6, g6, h⟩ := andThen_ok h
  have ok6 := setAuxArr_ok True True s5 o .bmask a.bmask ha6
  rw [g6] at ok6
  have b6 := ok6.base b5
  have w6 := ok6.wfok b5 rfl w5
  obtain ⟨v6, r6, n6, f6⟩ := eff_setAux ha6 g6
  have e6 := e5.trans ok6.ext
  -- ormask
  have ha7 : ∀ x ∈ a.ormask, x.addr < s6.nArr := fun x hx => lt_of_lt_of_le (ha.ormask x hx) e6.nArr
  obtain ⟨s7, g7, h⟩ := andThen_ok h
  have ok7 := setAuxArr_ok True True s6 o .ormask a.ormask ha7
  rw [g7] at ok7
  have b7 := ok7.base b6
  have w7 := ok7.wfok b6 rfl w6
  obtain ⟨v7, r7, n7, f7⟩ := eff_setAux ha7 g7
  have e7 := e6.trans ok7.ext
  -- noise
  have ha8 : ∀ x ∈ a.noise, x.addr < s7.nArr := fun x hx => lt_of_lt_of_le (ha.noise x hx) e7.nArr
  obtain ⟨s8, g8, h⟩ := andThen_ok h
  have ok8 := setAuxArr_ok True True s7 o .noise a.noise ha8
  rw [g8] at ok8
  have b8 := ok8.base b7
  have w8 := ok8.wfok b7 rfl w7
  obtain ⟨v8, r8, n8, f8⟩ := eff_setAux ha8 g8
  have e8 := e7.trans ok8.ext
  -- gmix
  obtain ⟨s9, g9, h⟩ := andThen_ok h
  have ok9 := setGmix_ok ops True True s8 o a.gmix
  rw [g9] at ok9
  have b9 := ok9.base b8
  have w9 := ok9.wfok b8 rfl w8
  obtain ⟨v9, r9, n9, f9⟩ := eff_setGmix g9
  have e9 := e8.trans ok9.ext
  -- psf
  obtain ⟨s10, g10, h⟩ := andThen_ok h
  have ok10 := setPsf_ok True True s9 o a.psf (ha.psf.mono (le_of_eq e9.nObs.symm))
  rw [g10] at ok10
  have b10 := ok10.base b9
  have w10 := ok10.wfok b9 rfl w9
  obtain ⟨v10, r10, n10, f10⟩ := eff_setPsf g10
  have e10 := e9.trans ok10.ext
  -- mfrac
  have ha11 : ∀ x ∈ a.mfrac, x.addr < s10.nArr :=
    fun x hx => lt_of_lt_of_le (ha.mfrac x hx) e10.nArr
  have ok11 := setAuxArr_ok True True s10 o .mfrac a.mfrac ha11
  rw [h] at ok11
  have b11 := ok11.base b10
  have w11 := ok11.wfok b10 rfl w10
  obtain ⟨v11, r11, n11, f11⟩ := eff_setAux ha11 h
  have e11 := e10.trans ok11.ext
  -- tail extensions
  have t10 := ok11.ext
  have t9 := ok10.ext.trans t10
  have t8 := ok9.ext.trans t9
  have t7 := ok8.ext.trans t8
  have t6 := ok7.ext.trans t7
  have t5 := ok6.ext.trans t6
  have t4 := ok5.ext.trans t5
  have t3 := ok4.ext.trans t4
  have t2 := ok3.ext.trans t3
  have t1 := ok2.ext.trans t2
  have hrec : s'.obs o = {
      image := p, weight := wt, mfrac := v11, bmask := v6, ormask := v7, noise := v8, jac := s2.nJac, psf := v10, gmix := v9, md := mt, writeable := false,
      storePixels := a.storePixels, ignoreZero := a.ignoreZero, pixels := px } := by
    rw [r11, r10, r9, r8, r7, r6, r5, r4, r3, r2, hraw]
    rfl
  have hpix : (s4.obs o).image = p ∧ (s4.obs o).weight = wt ∧ (s4.obs o).jac = s2.nJac ∧
      (s4.obs o).storePixels = a.storePixels ∧ (s4.obs o).ignoreZero = a.ignoreZero ∧
      (s4.obs o).pixels = px := by
    rw [r4, r3, r2, hraw]
    exact ⟨rfl, rfl, rfl, rfl, rfl, rfl⟩
  refine ⟨e11, b11, w11, ?_, ?_, ?_, ?_, ?_, ?_, ?_, ?_, ?_, ?_, ?_, ?_, ?_, ?_, ?_, ?_, ?_, ?_, ?_, ?_⟩
  · refine sync4.ext t4 w4.image w4.weight (w4.jac trivial).1 ?_ ?_ ?_ ?_ ?_ ?_ <;> rw [hrec]
    · exact hpix.1.symm
    · exact hpix.2.1.symm
    · exact hpix.2.2.1.symm
    · exact hpix.2.2.2.1.symm
    · exact hpix.2.2.2.2.1.symm
    · exact hpix.2.2.2.2.2.symm
  · rw [hrec]; exact (hfrom.post hes).post t1
  · intro x hx; rw [hrec]
    exact ((hwt x hx).post t2).pre e1 (ha.weight x hx)
  · intro hx; rw [hrec]
    obtain ⟨k1, k2, k3⟩ := hnwt hx
    simp only
    rw [t2.arr _ k3, k1, hraw]
    refine ⟨?_, e1.nArr.trans k2⟩
    simp only [rawObs]
    rw [hes.arr p hlt, hget]
  · intro f x hx; rw [hrec]
    cases f with
    | mfrac =>
      obtain ⟨q, k1, k2⟩ := f11 x hx
      exact ⟨q, k1, k2.pre e10 (ha.mfrac x hx)⟩
    | bmask =>
      obtain ⟨q, k1, k2⟩ := f6 x hx
      exact ⟨q, k1, (k2.post t6).pre e5 (ha.bmask x hx)⟩
    | ormask =>
      obtain ⟨q, k1, k2⟩ := f7 x hx
      exact ⟨q, k1, (k2.post t7).pre e6 (ha.ormask x hx)⟩
    | noise =>
      obtain ⟨q, k1, k2⟩ := f8 x hx
      exact ⟨q, k1, (k2.post t8).pre e7 (ha.noise x hx)⟩
  · intro f hx; rw [hrec]
    cases f with
    | mfrac => exact n11 hx
    | bmask => exact n6 hx
    | ormask => exact n7 hx
    | noise => exact n8 hx
  · rw [hrec]; exact e2.nJac
  · intro j hx; rw [hrec]
    simp only
    rw [t3.jac _ hjlt, hj j hx, e2.jac j (by have := ha.jac; rw [hx] at this; exact this)]
  · intro hx; rw [hrec]
    obtain ⟨j, k1, k2⟩ := hnj hx
    simp only
    rw [t3.jac _ hjlt, k2, ← k1, r2, hraw]
    simp only [rawObs]
    rw [(hes.trans ok2.ext).arr p hlt, hget]
  · intro g hx hg; rw [hrec]
    obtain ⟨k1, k2, k3⟩ := f9 g hx
    refine ⟨s8.nGm, k1, e8.nGm, ?_⟩
    rw [t9.gm _ k2, k3, e8.gm g hg]
  · intro hx; rw [hrec]; exact n9 hx
  · intro g hg
    rw [hrec] at hg
    have hg : v9 = some g := hg
    rcases ok9.gm g (by rw [r9]; exact hg) with k | k
    · have : (s8.obs o).gmix = none := by
        rw [r8, r7, r6, r5, r4, r3, r2, hraw]; rfl
      rw [this] at k; simp at k
    · exact e8.nGm.trans k
  · intro q hx; rw [hrec]; exact f10 q hx
  · intro hx; rw [hrec]; exact n10 hx
  · intro m hx; rw [hrec]; exact hm m hx
  · intro hx; rw [hrec]
    have hlt : mt < s5.nDict := by have := w5.md trivial; rw [r5] at this; exact this
    simp only
    rw [t5.dict _ hlt, hnm hx]
  · rw [hrec]
  · rw [hrec]
  · rw [hrec]
  · refine ⟨fun hx => ?_, fun hx => ?_, fun hx => ?_, fun hx => ?_⟩
    · rw [hx] at g9; simp [setGmix] at g9
    · rw [hx] at g10; simp [setPsf] at g10
    · rw [hx] at g5; simp [setMeta] at g5
    · rw [hx] at g3; simp [setJacobian] at g3

/-- A failing constructor call leaves all existing objects alone. -/
theorem initObs_ext (ops : ObsOps G M) (s : Store G M) (a : ObsArgs) (b : Base s) (ha : ArgsOK s a) :
    Ext s (initObs ops s a).1 s.nObs ∧ Base (initObs ops s a).1 := by
  obtain ⟨he, hobs, hlt, hget, -, -⟩ := asArray_spec s s.nObs a.image ha.image
  have hb : Base (asArray s a.image).1 := b.ext he (asArray_nJac s _)
  rw [initObs_eq]
  split_ifs with h1
  · exact ⟨he, hb⟩
  · have he1 := he.trans (ext_setObs (asArray s a.image).1 s.nObs (rawObs (asArray s a.image).2 a))
    set s1 := (asArray s a.image).1.setObs s.nObs (rawObs (asArray s a.image).2 a) with hs1
    have hb1 : Base s1 := hb.ext (ext_setObs _ s.nObs _) rfl
    have hargs : ArgsOK s1 a :=
      ⟨lt_of_lt_of_le ha.image he1.nArr, fun x hx => lt_of_lt_of_le (ha.weight x hx) he1.nArr,
        fun x hx => lt_of_lt_of_le (ha.bmask x hx) he1.nArr,
        fun x hx => lt_of_lt_of_le (ha.ormask x hx) he1.nArr,
        fun x hx => lt_of_lt_of_le (ha.noise x hx) he1.nArr,
        fun x hx => lt_of_lt_of_le (ha.mfrac x hx) he1.nArr,
        ha.jac.mono he1.nJac, ha.psf.mono (le_of_eq he1.nObs.symm), ha.md.mono he1.nDict⟩
    have hok := initRest_ok ops s1 s.nObs a hb1 hargs
    exact ⟨he1.trans hok.ext, hok.base hb1⟩

/-! ### When the constructor succeeds -/

theorem andThen_intro {x : Store G M × Except PyErr Unit} {k : Store G M → Store G M × Except PyErr Unit}
    {s1 : Store G M} (h : x = (s1, .ok ())) : Ngmix.andThen x k = k s1 := by
  rw [h]; rfl

theorem ok_setWeight {s : Store G M} {o : ℕ} {a : Option ArrArg}
    (hi : (s.obs o).image < s.nArr) (hd : (s.arr (s.obs o).image).shape.length = 2)
    (ha : ∀ x ∈ a, x.addr < s.nArr ∧ (s.arr x.addr).shape = (s.arr (s.obs o).image).shape) :
    ∃ s', setWeight s o a false = (s', .ok ()) := by
  cases a with
  | none => exact ⟨_, rfl⟩
  | some x =>
    obtain ⟨h1, h2⟩ := ha x rfl
    obtain ⟨he, hobs, hlt, hget, -, -⟩ := asArray_spec s o x h1
    simp only [setWeight, maybeUpdate, Bool.false_eq_true, if_false]
    rw [if_neg (by rw [hget, h2, hd]; simp), if_neg (by rw [hget, hobs, he.arr _ hi, h2]; simp)]
    exact ⟨_, rfl⟩

theorem ok_setAux {s : Store G M} {o : ℕ} {f : AuxField} {a : Option ArrArg}
    (hi : (s.obs o).image < s.nArr) (hd : (s.arr (s.obs o).image).shape.length = 2)
    (ha : ∀ x ∈ a, x.addr < s.nArr ∧ (s.arr x.addr).shape = (s.arr (s.obs o).image).shape) :
    ∃ s', setAuxArr s o f a = (s', .ok ()) := by
  cases a with
  | none => exact ⟨_, rfl⟩
  | some x =>
    obtain ⟨h1, h2⟩ := ha x rfl
    obtain ⟨he, hobs, hlt, hget, -, -⟩ := asArray_spec s o x h1
    simp only [setAuxArr]
    rw [if_neg (by rw [hget, h2, hd]; simp), if_neg (by rw [hget, hobs, he.arr _ hi, h2]; simp)]
    exact ⟨_, rfl⟩

theorem ok_setJacobian {s : Store G M} {o : ℕ} {a : ObjArg} (ha : a.Below s.nJac) (hb : Base s)
    (ht : a ≠ .wrongType) : ∃ s', setJacobian s o a false = (s', .ok ()) := by
  cases a with
  | wrongType => exact absurd rfl ht
  | none =>
    obtain ⟨j, hj, -⟩ := jacUnit_canonical (s.arr (s.obs o).image)
    exact ⟨_, by simp only [setJacobian, hj, maybeUpdate, Bool.false_eq_true, if_false]; rfl⟩
  | obj j =>
    exact ⟨_, by
      simp only [setJacobian, C15_copy _ (hb.jwf j ha), maybeUpdate, Bool.false_eq_true, if_false]; rfl⟩

theorem initObs_succeeds (ops : ObsOps G M) (s : Store G M) (a : ObsArgs) (b : Base s)
    (ha : ArgsOK s a)
    (ht : a.gmix ≠ .wrongType ∧ a.psf ≠ .wrongType ∧ a.metaData ≠ .wrongType ∧ a.jacobian ≠ .wrongType)
    (hd : (s.arr a.image.addr).shape.length = 2)
    (hw : ∀ x, a.weight = some x → (s.arr x.addr).shape = (s.arr a.image.addr).shape)
    (hx : ∀ f x, a.auxArg f = some x → (s.arr x.addr).shape = (s.arr a.image.addr).shape)
    (x : ArrArg) (hxw : a.weight = some x) (j : ℕ) (hj : a.jacobian = .obj j)
    (hp : a.storePixels = true → ∃ px, makePixels (s.arr a.image.addr).image (s.arr x.addr).image
      (s.jac j) a.ignoreZero = .ok px) :
    ∃ s', initObs ops s a = (s', .ok ()) := by
  obtain ⟨he, hobs, hlt, hget, -, -⟩ := asArray_spec s s.nObs a.image ha.image
  have hb : Base (asArray s a.image).1 := b.ext he (asArray_nJac s _)
  rw [initObs_eq, if_neg (by rw [hget, hd]; simp)]
  set p := (asArray s a.image).2 with hp'
  have hes := ext_setObs (asArray s a.image).1 s.nObs (rawObs p a)
  have e1 := he.trans hes
  set o := s.nObs with ho
  set s1 := (asArray s a.image).1.setObs o (rawObs p a) with hs1
  have b1 : Base s1 := hb.ext hes rfl
  have hraw : s1.obs o = rawObs p a := setObs_obs _ _ _
  have hlt1 : p < s1.nArr := hlt
  have hg1 : s1.arr p = s.arr a.image.addr := hget
  have shape : ∀ t, Ext s1 t o → t.arr p = s.arr a.image.addr := fun t e => by rw [e.arr p hlt1, hg1]
  have auxcond : ∀ t, Ext s1 t o → (t.obs o).image = p → ∀ f, ∀ y ∈ a.auxArg f,
      y.addr < t.nArr ∧ (t.arr y.addr).shape = (t.arr (t.obs o).image).shape := by
    intro t e him f y hy
    have hy0 : y.addr < s.nArr := by
      cases f with
      | mfrac => exact ha.mfrac y hy
      | bmask => exact ha.bmask y hy
      | ormask => exact ha.ormask y hy
      | noise => exact ha.noise y hy
    refine ⟨lt_of_lt_of_le hy0 (e1.trans e).nArr, ?_⟩
    rw [(e1.trans e).arr _ hy0, him, shape t e, hx f y hy]
  have dimcond : ∀ t, Ext s1 t o → (t.obs o).image = p →
      (t.obs o).image < t.nArr ∧ (t.arr (t.obs o).image).shape.length = 2 := by
    intro t e him
    rw [him, shape t e]
    exact ⟨lt_of_lt_of_le hlt1 e.nArr, hd⟩
  unfold initRest
  -- weight
  have i1 : (s1.obs o).image = p := by rw [hraw]; rfl
  have ha2 : ∀ y ∈ a.weight, y.addr < s1.nArr := fun y hy => lt_of_lt_of_le (ha.weight y hy) e1.nArr
  obtain ⟨s2, g2⟩ := ok_setWeight (dimcond s1 Ext.rfl' i1).1 (dimcond s1 Ext.rfl' i1).2
    (a := a.weight) (fun y hy => ⟨ha2 y hy, by
      rw [e1.arr _ (ha.weight y hy), i1, hg1, hw y hy]⟩)
  rw [andThen_intro g2]
  have ok2 := setWeight_ok False False s1 o a.weight false ha2
  rw [g2] at ok2
  have b2 := ok2.base b1
  obtain ⟨wt, r2, hwt, -⟩ := eff_setWeight ha2 g2
  have u2 : Ext s1 s2 o := ok2.ext
  -- jacobian
  have ha3 : a.jacobian.Below s2.nJac := ha.jac.mono (e1.trans u2).nJac
  obtain ⟨s3, g3⟩ := ok_setJacobian (o := o) ha3 b2 ht.2.2.2
  rw [andThen_intro g3]
  have ok3 := setJacobian_ok False False s2 o a.jacobian false ha3 b2
  rw [g3] at ok3
  have b3 := ok3.base b2
  obtain ⟨r3, hjlt, hjc, -⟩ := eff_setJacobian ha3 b2 g3
  have u3 : Ext s1 s3 o := u2.trans ok3.ext
  -- pixels
  have hrec3 : (s3.obs o).image = p ∧ (s3.obs o).weight = wt ∧ (s3.obs o).jac = s2.nJac ∧
      (s3.obs o).storePixels = a.storePixels ∧ (s3.obs o).ignoreZero = a.ignoreZero := by
    rw [r3, r2, hraw]; exact ⟨rfl, rfl, rfl, rfl, rfl⟩
  have hj0 : j < s.nJac := by have := ha.jac; rw [hj] at this; exact this
  obtain ⟨s4, g4⟩ : ∃ s4, updatePixels s3 o = (s4, .ok ()) := by
    unfold updatePixels
    simp only [hrec3.1, hrec3.2.1, hrec3.2.2.1, hrec3.2.2.2.1, hrec3.2.2.2.2]
    by_cases hst : a.storePixels = true
    · obtain ⟨px, hpx⟩ := hp hst
      have hwa : s3.arr wt = s.arr x.addr := by
        rw [ok3.ext.arr wt (hwt x hxw).1, (hwt x hxw).2.1, e1.arr _ (ha.weight x hxw)]
      rw [if_pos hst, shape s3 u3, hwa, hjc j hj, (e1.trans u2).jac j hj0]
      simp only [hpx]
      exact ⟨_, rfl⟩
    · rw [if_neg hst]; exact ⟨_, rfl⟩
  rw [andThen_intro g4]
  have ok4 := updatePixels_ok True False s3 o
  rw [g4] at ok4
  obtain ⟨px, r4, -⟩ := eff_updatePixels g4
  have u4 : Ext s1 s4 o := u3.trans ok4.ext
  have i4 : (s4.obs o).image = p := by rw [r4]; exact hrec3.1
  -- meta
  obtain ⟨s5, g5⟩ : ∃ s5, setMeta ops s4 o a.metaData = (s5, .ok ()) := by
    cases hm : a.metaData with
    | wrongType => exact absurd hm ht.2.2.1
    | none => exact ⟨_, rfl⟩
    | obj m => exact ⟨_, rfl⟩
  rw [andThen_intro g5]
  have ok5 := setMeta_ok ops True False s4 o a.metaData (ha.md.mono (e1.trans u4).nDict)
  rw [g5] at ok5
  obtain ⟨mt, r5, -⟩ := eff_setMeta g5
  have u5 : Ext s1 s5 o := u4.trans ok5.ext
  have i5 : (s5.obs o).image = p := by rw [r5]; exact i4
  -- bmask
  obtain ⟨s6, g6⟩ := ok_setAux (f := .bmask) (dimcond s5 u5 i5).1 (dimcond s5 u5 i5).2
    (auxcond s5 u5 i5 .bmask)
  rw [show a.auxArg .bmask = a.bmask from rfl] at g6
  rw [andThen_intro g6]
  have h6 := fun y hy => (auxcond s5 u5 i5 .bmask y hy).1
  have ok6 := setAuxArr_ok True True s5 o .bmask a.bmask h6
  rw [g6] at ok6
  obtain ⟨v6, r6, -⟩ := eff_setAux h6 g6
  have u6 : Ext s1 s6 o := u5.trans ok6.ext
  have i6 : (s6.obs o).image = p := by rw [r6]; exact i5
  -- ormask
  obtain ⟨s7, g7⟩ := ok_setAux (f := .ormask) (dimcond s6 u6 i6).1 (dimcond s6 u6 i6).2
    (auxcond s6 u6 i6 .ormask)
  rw [show a.auxArg .ormask = a.ormask from rfl] at g7
  rw [andThen_intro g7]
  have h7 := fun y hy => (auxcond s6 u6 i6 .ormask y hy).1
  have ok7 := setAuxArr_ok True True s6 o .ormask a.ormask h7
  rw [g7] at ok7
  obtain ⟨v7, r7, -⟩ := eff_setAux h7 g7
  have u7 : Ext s1 s7 o := u6.trans ok7.ext
  have i7 : (s7.obs o).image = p := by rw [r7]; exact i6
  -- noise
  obtain ⟨s8, g8⟩ := ok_setAux (f := .noise) (dimcond s7 u7 i7).1 (dimcond s7 u7 i7).2
    (auxcond s7 u7 i7 .noise)
  rw [show a.auxArg .noise = a.noise from rfl] at g8
  rw [andThen_intro g8]
  have h8 := fun y hy => (auxcond s7 u7 i7 .noise y hy).1
  have ok8 := setAuxArr_ok True True s7 o .noise a.noise h8
  rw [g8] at ok8
  obtain ⟨v8, r8, -⟩ := eff_setAux h8 g8
  have u8 : Ext s1 s8 o := u7.trans ok8.ext
  have i8 : (s8.obs o).image = p := by rw [r8]; exact i7
  -- gmix
  obtain ⟨s9, g9⟩ : ∃ s9, setGmix ops s8 o a.gmix = (s9, .ok ()) := by
    cases hm : a.gmix with
    | wrongType => exact absurd hm ht.1
    | none => exact ⟨_, rfl⟩
    | obj m => exact ⟨_, rfl⟩
  rw [andThen_intro g9]
  have ok9 := setGmix_ok ops True True s8 o a.gmix
  rw [g9] at ok9
  obtain ⟨v9, r9, -⟩ := eff_setGmix g9
  have u9 : Ext s1 s9 o := u8.trans ok9.ext
  have i9 : (s9.obs o).image = p := by rw [r9]; exact i8
  -- psf
  obtain ⟨s10, g10⟩ : ∃ s10, setPsf s9 o a.psf = (s10, .ok ()) := by
    cases hm : a.psf with
    | wrongType => exact absurd hm ht.2.1
    | none => exact ⟨_, rfl⟩
    | obj m => exact ⟨_, rfl⟩
  rw [andThen_intro g10]
  have ok10 := setPsf_ok True True s9 o a.psf (ha.psf.mono (le_of_eq (e1.trans u9).nObs.symm))
  rw [g10] at ok10
  obtain ⟨v10, r10, -⟩ := eff_setPsf g10
  have u10 : Ext s1 s10 o := u9.trans ok10.ext
  have i10 : (s10.obs o).image = p := by rw [r10]; exact i9
  exact ok_setAux (f := .mfrac) (dimcond s10 u10 i10).1 (dimcond s10 u10 i10).2
    (auxcond s10 u10 i10 .mfrac)

end Ngmix
