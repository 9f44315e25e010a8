import Verif.Proof.ObsSync
import Mathlib.Tactic.Common
import Mathlib.Data.List.Basic

/-!
# Observation: C29-C32
-/

namespace Ngmix.Props

open Ngmix Ngmix.Spec

variable {G M : Type}

/-! ## C29 -/

/-- C29: after any history of legal calls, successful or rejected, every observation has a 2-d image
and every array attribute it has is of the image's shape. -/
theorem C29_shapes_consistent (ops : ObsOps G M) (s : Store G M) (h : Reach ops s) (o : ℕ)
    (ho : o < s.nObs) :
    (s.arr (s.obs o).image).shape.length = 2 ∧
    (s.arr (s.obs o).weight).shape = (s.arr (s.obs o).image).shape ∧
    ∀ f a, (s.obs o).aux f = some a → (s.arr a).shape = (s.arr (s.obs o).image).shape := by
  have w := (reach_inv h).wf o ho
  exact ⟨w.dim, w.weightShape, fun f a ha => (w.aux f a ha).2⟩

/-- Every buffer that existed has kept its contents. -/
def BuffersKept (s s' : Store G M) : Prop := ∀ a < s.nArr, s'.arr a = s.arr a

/-- C29: an assignment of an array is rejected with AssertionError exactly when it is not 2-d of the
image's shape, and then the attributes and all buffers are as before.  Assignments to the optional
arrays raise nothing else. -/
theorem C29_rejected_assignment (ops : ObsOps G M) (s : Store G M) (h : Reach ops s) (o : ℕ)
    (ho : o < s.nObs) (a : ArrArg) (ha : a.addr < s.nArr) :
    let bad := (s.arr a.addr).shape ≠ (s.arr (s.obs o).image).shape
    (∀ op ∈ [ObsOp.setImage o a, .setWeight o (some a), .setAux o .mfrac (some a),
        .setAux o .bmask (some a), .setAux o .ormask (some a), .setAux o .noise (some a)],
      (bad ↔ (obsStep ops s op).2 = .error .assertion) ∧
      (bad → (obsStep ops s op).1.obs = s.obs ∧ BuffersKept s (obsStep ops s op).1)) ∧
    (∀ f, ¬ bad → (obsStep ops s (.setAux o f (some a))).2 = .ok () ∧
      ∃ p, ((obsStep ops s (.setAux o f (some a))).1.obs o).aux f = some p ∧
        (obsStep ops s (.setAux o f (some a))).1.arr p = s.arr a.addr) := by
  intro bad
  have i := reach_inv h
  have w := i.wf o ho
  obtain ⟨he, hobs, hlt, hget, -, -⟩ := asArray_spec s o a ha
  have himg : (asArray s a).1.arr ((asArray s a).1.obs o).image = s.arr (s.obs o).image := by
    rw [hobs, he.arr _ w.image]
  have key : ∀ (x : Store G M × Except PyErr Unit),
      SetterOK True True True True s o x →
      (x = (if (s.arr a.addr).shape.length ≠ 2 then ((asArray s a).1, .error .assertion)
        else if bad then ((asArray s a).1, .error .assertion) else x)) →
      (¬ bad → x.2 ≠ .error .assertion) →
      (bad ↔ x.2 = .error .assertion) ∧ (bad → x.1.obs = s.obs ∧ BuffersKept s x.1) := by
    intro x _ hx hok
    by_cases hb : bad
    · have hx' : x = ((asArray s a).1, .error .assertion) := by
        rw [hx]; split_ifs <;> rfl
      rw [hx']
      exact ⟨⟨fun _ => rfl, fun _ => hb⟩, fun _ => ⟨hobs, he.arr⟩⟩
    · exact ⟨⟨fun h => absurd h hb, fun h => absurd h (hok hb)⟩, fun h => absurd h hb⟩
  have dim : ¬ bad → ¬ (s.arr a.addr).shape.length ≠ 2 := by
    intro hb
    simp only [bad, not_not] at hb
    rw [hb, w.dim]; simp
  have auxAll : ∀ f, ¬ bad → (setAuxArr s o f (some a)) = ((asArray s a).1.setObs o
      (((asArray s a).1.obs o).setAux f (some (asArray s a).2)), .ok ()) := by
    intro f hb
    simp only [setAuxArr]
    rw [hget, himg, if_neg (dim hb), if_neg hb]
  refine ⟨?_, ?_⟩
  · intro op hop
    have hfail : ∀ f, (setAuxArr s o f (some a)) =
        if (s.arr a.addr).shape.length ≠ 2 then ((asArray s a).1, .error .assertion)
        else if bad then ((asArray s a).1, .error .assertion) else setAuxArr s o f (some a) := by
      intro f
      conv_lhs => rw [setAuxArr]
      simp only [hget, himg]
      split_ifs with h1 h2
      · rfl
      · rfl
      · rw [auxAll f h2]
    have haux : ∀ f, (bad ↔ (setAuxArr s o f (some a)).2 = .error .assertion) ∧
        (bad → (setAuxArr s o f (some a)).1.obs = s.obs ∧
          BuffersKept s (setAuxArr s o f (some a)).1) := fun f =>
      key _ (setAuxArr_ok True True s o f (some a) (by rintro x ⟨⟩; exact ha)) (hfail f)
        (fun hb => by rw [auxAll f hb]; simp)
    have wfN := fun x (hx : SetterOK True True True True s o x) => hx.wf i.base w
    simp only [List.mem_cons, List.not_mem_nil, or_false] at hop
    rcases hop with h | h | h | h | h | h <;> subst h
    · have sok := setImage_ok s o a true ha
      refine key _ sok ?_ ?_
      · simp only [obsStep, setImage, hget, himg]
        split_ifs <;> rfl
      · intro hb
        have e1 : setImage s o a true = updatePixels ((asArray s a).1.setObs o
            { (asArray s a).1.obs o with image := (asArray s a).2 }) o := by
          simp only [setImage, hget, himg]
          rw [if_neg (dim hb), if_neg hb]; rfl
        have ww := wfN _ sok
        intro herr
        simp only [obsStep] at herr
        rw [e1] at ww herr
        obtain ⟨-, -, -, -, -, h6⟩ := updatePixels_spec ((asArray s a).1.setObs o
            { (asArray s a).1.obs o with image := (asArray s a).2 }) o
        rw [h6 _ herr] at ww
        rcases updatePixels_total _ o ww with h | h <;> rw [h] at herr <;> simp at herr
    · have sok := setWeight_ok True True s o (some a) true (by rintro x ⟨⟩; exact ha)
      refine key _ sok ?_ ?_
      · simp only [obsStep, setWeight, hget, himg]
        split_ifs <;> rfl
      · intro hb
        have e1 : setWeight s o (some a) true = updatePixels ((asArray s a).1.setObs o
            { (asArray s a).1.obs o with weight := (asArray s a).2 }) o := by
          simp only [setWeight, hget, himg]
          rw [if_neg (dim hb), if_neg hb]; rfl
        have ww := wfN _ sok
        intro herr
        simp only [obsStep] at herr
        rw [e1] at ww herr
        obtain ⟨-, -, -, -, -, h6⟩ := updatePixels_spec ((asArray s a).1.setObs o
            { (asArray s a).1.obs o with weight := (asArray s a).2 }) o
        rw [h6 _ herr] at ww
        rcases updatePixels_total _ o ww with h | h <;> rw [h] at herr <;> simp at herr
    · exact haux .mfrac
    · exact haux .bmask
    · exact haux .ormask
    · exact haux .noise
  · intro f hb
    have e := auxAll f hb
    refine ⟨by simp only [obsStep]; rw [e], (asArray s a).2, ?_, ?_⟩
    · simp only [obsStep]; rw [e]; simp only [setObs_obs]; rw [setAux_aux]; simp
    · simp only [obsStep]; rw [e]; simp only [setObs_arr]; exact hget

/-- C29 violation in the unchanged code: a weight of the right shape without any positive entry is
rejected with GMixFatalError, but the weight attribute has been replaced by it. -/
theorem C29_all_zero_weight_replaced (ops : ObsOps G M) (s : Store G M) (h : Reach ops s) (o : ℕ)
    (ho : o < s.nObs) (a : ArrArg) (ha : a.addr < s.nArr)
    (hsh : (s.arr a.addr).shape = (s.arr (s.obs o).image).shape)
    (hpos : positiveWeight (s.arr a.addr).image.nrow (s.arr a.addr).image.ncol
      (s.arr a.addr).image.get = [])
    (hst : (s.obs o).storePixels = true) (hig : (s.obs o).ignoreZero = true) :
    (obsStep ops s (.setWeight o (some a))).2 = .error .gmixFatal ∧
    (obsStep ops s (.setWeight o (some a))).1.arr
      ((obsStep ops s (.setWeight o (some a))).1.obs o).weight = s.arr a.addr ∧
    ¬ InSync (obsStep ops s (.setWeight o (some a))).1
      ((obsStep ops s (.setWeight o (some a))).1.obs o) := by
  have w := (reach_inv h).wf o ho
  obtain ⟨he, hobs, hlt, hget, hjac, -⟩ := asArray_spec s o a ha
  have himg : (asArray s a).1.arr (s.obs o).image = s.arr (s.obs o).image := he.arr _ w.image
  have him2 : (s.arr a.addr).image.nrow = (s.arr (s.obs o).image).image.nrow ∧
      (s.arr a.addr).image.ncol = (s.arr (s.obs o).image).image.ncol := by
    simp only [Arr.image, hsh]; exact ⟨trivial, trivial⟩
  have hmk : ∀ j, makePixels (s.arr (s.obs o).image).image (s.arr a.addr).image j true
      = .error .gmixFatal := fun j => (C17_make_pixels_ignore _ _ j him2).1 (by
        rw [← him2.1, ← him2.2]; exact hpos)
  have e1 : obsStep ops s (.setWeight o (some a)) = ((asArray s a).1.setObs o
      { s.obs o with weight := (asArray s a).2 }, .error .gmixFatal) := by
    simp only [obsStep, setWeight, hobs, hget, himg]
    rw [if_neg (by rw [hsh, w.dim]; simp), if_neg (by rw [hsh]; simp)]
    simp only [maybeUpdate, if_true, updatePixels, setObs_obs, setObs_arr, setObs_jac, hst, hig, hget,
      himg, hmk]
  rw [e1]
  refine ⟨rfl, by simpa using hget, fun hs => ?_⟩
  obtain ⟨px, h1, -⟩ := hs.1 (by simpa using hst)
  simp only [setObs_obs, setObs_arr, setObs_jac, hig, hget, himg, hmk] at h1
  simp at h1

/-! A concrete reachable heap: a 1x1 image of ones with unit weights, and a zero array. -/

/-- 1x1 array. -/
def arr11 (x : ℝ) : Arr := ⟨[1, 1], fun _ _ => x⟩

theorem arr11_positive (x : ℝ) (hx : 0 < x) :
    positiveWeight (arr11 x).image.nrow (arr11 x).image.ncol (arr11 x).image.get = [(0, 0)] := by
  simp [positiveWeight, rowMajor, arr11, Arr.image, hx]

theorem arr11_zero :
    positiveWeight (arr11 0).image.nrow (arr11 0).image.ncol (arr11 0).image.get = [] := by
  simp [positiveWeight, rowMajor, arr11, Arr.image]

theorem demo (ops : ObsOps G M) (g : G) (m : M) : ∃ s : Store G M, Reach ops s ∧ s.nObs = 1 ∧
    3 ≤ s.nArr ∧ s.arr 0 = arr11 1 ∧ s.arr 1 = arr11 1 ∧ s.arr 2 = arr11 0 ∧
    (s.obs 0).image = 0 ∧ (s.obs 0).weight = 1 ∧ (s.obs 0).storePixels = true ∧
    (s.obs 0).ignoreZero = true ∧ (s.obs 0).writeable = false ∧ InSync s (s.obs 0) ∧
    (s.obs 0).psf = none ∧ (∀ f, (s.obs 0).aux f = none) ∧ (s.obs 0).gmix = none ∧
    s.knownGm = [0] ∧ 1 ≤ s.nGm ∧
    (s.jac (s.obs 0).jac).row0 = 0 ∧ (s.jac (s.obs 0).jac).dvdrow = 1 ∧ (s.jac (s.obs 0).jac).dvdcol = 0 := by
  let s0 : Store G M := ⟨fun _ => arr11 0, 0, fun _ => Jacobian.finishInit 0 0 1 0 0 1, 0, fun _ => g, 0,
    fun _ => m, 0, fun _ => rawObs 0 ⟨⟨0, false⟩, none, none, none, none, .none, .none, .none, .none,
      none, true, true⟩, 0, [], []⟩
  have r0 : Reach ops s0 := .start s0 ⟨rfl, rfl, rfl, rfl, rfl, rfl, rfl⟩
  have r1 := Reach.step _ (.newArr (arr11 1)) r0 trivial
  have r2 := Reach.step _ (.newArr (arr11 1)) r1 trivial
  have r3 := Reach.step _ (.newArr (arr11 0)) r2 trivial
  obtain ⟨j, hj, -, hjr, -, hjv, hjc, -, -⟩ := C15_rowcol_construction (Kw.ofList [("row", 0), ("col", 0), ("dvdrow", 1),
    ("dvdcol", 0), ("dudrow", 0), ("dudcol", 1)]) 0 0 1 0 0 1 (by simp [Kw.ofList, List.lookup])
    (by simp [Kw.ofList]) (by simp [Kw.ofList, List.lookup]) (by simp [Kw.ofList, List.lookup])
    (by simp [Kw.ofList, List.lookup]) (by simp [Kw.ofList, List.lookup])
    (by simp [Kw.ofList, List.lookup]) (by simp [Kw.ofList, List.lookup])
  have hj' : ∃ kw, Jacobian.new kw = .ok j := ⟨_, hj⟩
  have r4 := Reach.step _ (.newJac j) r3 hj'
  have r5 := Reach.step _ (.newGm g) r4 trivial
  set s5 := (obsStep ops (obsStep ops (obsStep ops (obsStep ops (obsStep ops s0 (.newArr (arr11 1))).1
    (.newArr (arr11 1))).1 (.newArr (arr11 0))).1 (.newJac j)).1 (.newGm g)).1 with hs5
  let a : ObsArgs := { image := ⟨0, false⟩, weight := some ⟨1, false⟩, jacobian := .obj 0 }
  have hleg : (ObsOp.construct (G := G) (M := M) a).Legal s5 := by
    refine ⟨?_, ?_, by simp [a], by simp [a], by simp [a], by simp [a], ?_, by simp [a], trivial, trivial⟩
    · show 0 < 3; omega
    · rintro x ⟨⟩; show 1 < 3; omega
    · intro k hk
      injection hk with hk
      subst hk
      show 0 < 1
      omega
  have i5 := reach_inv r5
  have aok := i5.legalArgs hleg
  have c0 : s5.arr 0 = arr11 1 := rfl
  have c1 : s5.arr 1 = arr11 1 := rfl
  have c2 : s5.arr 2 = arr11 0 := rfl
  obtain ⟨s', hs'⟩ := initObs_succeeds ops s5 a i5.base aok (by simp [a]) (by rw [c0]; rfl)
    (by rintro x ⟨⟩; show (s5.arr 1).shape = (s5.arr 0).shape; rw [c0, c1])
    (by intro f x hx; cases f <;> simp [a, ObsArgs.auxArg] at hx) ⟨1, false⟩ rfl 0 rfl
    (by
      intro _
      show ∃ px, makePixels (s5.arr 0).image (s5.arr 1).image (s5.jac 0) true = .ok px
      rw [c0, c1]
      obtain ⟨px, h, -⟩ := (C17_make_pixels_ignore (arr11 1).image (arr11 1).image (s5.jac 0)
        ⟨rfl, rfl⟩).2 (by rw [arr11_positive 1 one_pos]; simp)
      exact ⟨px, h⟩)
  have bt := initObs_built ops s5 s' a i5.base aok hs'
  have r6 := Reach.step _ (.construct a) r5 hleg
  have e6 : (obsStep ops s5 (.construct a)).1 = { s' with nObs := s5.nObs + 1 } := by
    simp [obsStep, dropVal, newObs, hs']
  rw [e6] at r6
  have n5 : s5.nObs = 0 := rfl
  rw [n5] at r6
  have e := bt.ext
  refine ⟨_, r6, rfl, ?_, ?_, ?_, ?_, bt.image.2.2.1 rfl, (bt.weight _ rfl).2.2.1 rfl, bt.store,
    bt.ignore, bt.closed, bt.sync, bt.noPsf rfl, fun f => bt.noAux f (by cases f <;> rfl),
    bt.noGmix rfl, ?_, ?_, ?_⟩
  · exact e.nArr
  · show s'.arr 0 = _
    rw [e.arr 0 (by show 0 < 3; omega), c0]
  · show s'.arr 1 = _
    rw [e.arr 1 (by show 1 < 3; omega), c1]
  · show s'.arr 2 = _
    rw [e.arr 2 (by show 2 < 3; omega), c2]
  · show s'.knownGm = _
    rw [e.known]; rfl
  · exact e.nGm
  · have hjac : s'.jac (s'.obs 0).jac = j := (bt.jac 0 rfl).trans rfl
    show (s'.jac (s'.obs 0).jac).row0 = 0 ∧ (s'.jac (s'.obs 0).jac).dvdrow = 1 ∧ (s'.jac (s'.obs 0).jac).dvdcol = 0
    rw [hjac]
    exact ⟨hjr, hjv, hjc⟩

example (ops : ObsOps G M) (g : G) (m : M) : ∃ (s : Store G M) (o : ℕ) (a : ArrArg), Reach ops s ∧
    o < s.nObs ∧ a.addr < s.nArr ∧ (s.arr a.addr).shape = (s.arr (s.obs o).image).shape ∧
    positiveWeight (s.arr a.addr).image.nrow (s.arr a.addr).image.ncol (s.arr a.addr).image.get = [] ∧
    (s.obs o).storePixels = true ∧ (s.obs o).ignoreZero = true := by
  obtain ⟨s, h, h1, h2, h3, h4, h5, h6, h7, h8, h9, -⟩ := demo ops g m
  refine ⟨s, 0, ⟨2, false⟩, h, by omega, by show 2 < _; omega, ?_, ?_, h8, h9⟩
  · rw [h6]; show (s.arr 2).shape = _; rw [h5, h3]; rfl
  · show positiveWeight (s.arr 2).image.nrow (s.arr 2).image.ncol (s.arr 2).image.get = []
    rw [h5]; exact arr11_zero

/-! ## C30 -/

/-- C30: a successfully constructed observation is closed and has the pixels of its image, weight and
Jacobian; so does a copy. -/
theorem C30_constructed_in_sync (ops : ObsOps G M) (s : Store G M) (h : Reach ops s) :
    (∀ a o s', (ObsOp.construct (G := G) (M := M) a).Legal s → newObs ops s a = (s', .ok o) →
      o = s.nObs ∧ InSync s' (s'.obs o) ∧ (s'.obs o).writeable = false) ∧
    (∀ fuel o o' s', o < s.nObs → copyObs ops fuel s o = (s', .ok o') →
      InSync s' (s'.obs o') ∧ (s'.obs o').writeable = false) := by
  have i := reach_inv h
  constructor
  · intro a o s' hl hn
    rcases hx : initObs ops s a with ⟨t, out⟩
    cases out with
    | error e => simp [newObs, hx] at hn
    | ok u =>
      have bt := initObs_built ops s t a i.base (i.legalArgs hl) hx
      simp only [newObs, hx, Prod.mk.injEq, Except.ok.injEq] at hn
      obtain ⟨h1, h2⟩ := hn
      subst h1 h2
      exact ⟨rfl, bt.sync, bt.closed⟩
  · intro fuel o o' s' ho hc
    obtain ⟨-, -, h3, -⟩ := copyObs_spec ops fuel s o i ho
    rw [hc] at h3
    obtain ⟨-, h4, h5⟩ := h3 o' rfl
    cases h4 with
    | mk n _ _ self image weight aux jac gmix md flags psfNone psf =>
      cases h5 with
      | mk _ _ here next => exact ⟨here, flags.2.2⟩

/-- Histories during which no operation on `o` raised GMixFatalError and nobody stored into the
image or weight buffers or the Jacobian of `o` through another reference while `o` was not in a `writeable()`
block. -/
inductive CleanRun (ops : ObsOps G M) (o : ℕ) : Store G M → Store G M → Prop
  | refl (s : Store G M) : CleanRun ops o s s
  | step (s s' : Store G M) (op : ObsOp G M) : CleanRun ops o s s' → op.Legal s' → op.SafeFor s' o →
      (op.target = some o → (obsStep ops s' op).2 ≠ .error .gmixFatal) →
      CleanRun ops o s (obsStep ops s' op).1

/-- C30: along every clean history (constructor calls, copies, assignments accepted or rejected,
`writeable()` blocks with any number of in-place changes, blocks left by an exception), whenever the
object is not inside a block its pixels are those of the current image, weight, Jacobian and flag. -/
theorem C30_history (ops : ObsOps G M) (s s' : Store G M) (h : Reach ops s) (o : ℕ) (ho : o < s.nObs)
    (hs : InSync s (s.obs o)) (hr : CleanRun ops o s s') (hc : (s'.obs o).writeable = false) :
    InSync s' (s'.obs o) := by
  have key : ∀ t, CleanRun ops o s t → Inv t ∧ o < t.nObs ∧ Good t o := by
    intro t ht
    induction ht with
    | refl => exact ⟨reach_inv h, ho, Or.inr hs⟩
    | step t op _ hl hsafe hne ih =>
      obtain ⟨i, hlt, hg⟩ := ih
      exact ⟨i.step ops op hl, lt_of_lt_of_le hlt (step_nObs ops i op hl),
        hg.step ops i hlt op hl hsafe hne⟩
  rcases (key s' hr).2.2 with h1 | h1
  · rw [hc] at h1; simp at h1
  · exact h1

/-- C30: leaving a `writeable()` block without error resynchronises whatever happened inside it, to
any of the buffers or to the Jacobian. -/
theorem C30_exit_in_sync (ops : ObsOps G M) (s : Store G M) (o : ℕ)
    (hok : (obsStep ops s (.exit o)).2 = .ok ()) :
    InSync (obsStep ops s (.exit o)).1 ((obsStep ops s (.exit o)).1.obs o) ∧
    ((obsStep ops s (.exit o)).1.obs o).writeable = false := by
  obtain ⟨-, -, -, ⟨px, h4⟩, h5, -⟩ := updatePixels_spec (s.setObs o { s.obs o with writeable := false }) o
  refine ⟨h5 hok, ?_⟩
  show ((updatePixels (s.setObs o { s.obs o with writeable := false }) o).1.obs o).writeable = false
  rw [h4]
  simp

/-- C30: outside a block the getters are read-only: no store through them succeeds. -/
theorem C30_read_only_outside_block (ops : ObsOps G M) (s : Store G M) (o : ℕ)
    (hc : (s.obs o).writeable = false) :
    (∀ f r c v a, (s.obs o).view f = some a → obsStep ops s (.writeView o f r c v) = (s, .error .value)) ∧
    (∀ kw, obsStep ops s (.writeJacCen o kw) = (s, .error .value)) := by
  constructor
  · intro f r c v a ha
    simp [obsStep, writeView, ha, hc]
  · intro kw
    simp [obsStep, writeJacCen, hc]

theorem forall2_both {α β : Type} {P Q : α → β → Prop} : ∀ {l : List α} {m : List β},
    List.Forall₂ P l m → List.Forall₂ Q l m → ∀ x ∈ l, ∃ y, P x y ∧ Q x y := by
  intro l m h1
  induction h1 with
  | nil => simp
  | cons hp _ ih =>
    intro h2 x hx
    cases h2 with
    | cons hq h2 =>
      rcases List.mem_cons.1 hx with h | h
      · subst h; exact ⟨_, hp, hq⟩
      · exact ih h2 x h

/-- C30 violation in the unchanged code: the image the caller passed is not copied, so changing an
element with positive weight through the caller's own reference leaves the pixels stale. -/
theorem C30_caller_alias_stale (ops : ObsOps G M) (s : Store G M) (h : Reach ops s) (o : ℕ)
    (ho : o < s.nObs) (hs : InSync s (s.obs o)) (hst : (s.obs o).storePixels = true)
    (hig : (s.obs o).ignoreZero = true) (hne : (s.obs o).image ≠ (s.obs o).weight) (r c : ℕ) (v : ℝ)
    (hrc : (r, c) ∈ positiveWeight (s.arr (s.obs o).image).image.nrow
      (s.arr (s.obs o).image).image.ncol (s.arr (s.obs o).weight).image.get)
    (hv : v ≠ (s.arr (s.obs o).image).get r c) :
    ∃ op : ObsOp G M, op.Legal s ∧ op.target = none ∧ (obsStep ops s op).2 = .ok () ∧
      ¬ InSync (obsStep ops s op).1 ((obsStep ops s op).1.obs o) := by
  have w := (reach_inv h).wf o ho
  refine ⟨.writeOwnArr (s.obs o).image r c v, w.image, rfl, rfl, fun hs' => ?_⟩
  obtain ⟨px, h1, h2⟩ := hs.1 hst
  obtain ⟨px', h1', h2'⟩ := hs'.1 hst
  have hpx : px' = px := by
    have : (s.obs o).pixels = some px' := h2'
    rw [h2] at this
    injection this with this
    exact this.symm
  subst hpx
  have hsh : (s.arr (s.obs o).weight).image.nrow = (s.arr (s.obs o).image).image.nrow ∧
      (s.arr (s.obs o).weight).image.ncol = (s.arr (s.obs o).image).image.ncol := by
    simp only [Arr.image, w.weightShape]; exact ⟨trivial, trivial⟩
  have hnil : positiveWeight (s.arr (s.obs o).image).image.nrow
      (s.arr (s.obs o).image).image.ncol (s.arr (s.obs o).weight).image.get ≠ [] := by
    intro h0; rw [h0] at hrc; simp at hrc
  obtain ⟨q, hq1, hq2⟩ := (C17_make_pixels_ignore _ _ (s.jac (s.obs o).jac) hsh).2 hnil
  rw [hig, hq1] at h1
  injection h1 with h1
  subst h1
  have ew : ((obsStep ops s (.writeOwnArr (s.obs o).image r c v)).1.arr (s.obs o).weight)
      = s.arr (s.obs o).weight := by
    simp [obsStep, writeArr, hne.symm]
  have ei : ((obsStep ops s (.writeOwnArr (s.obs o).image r c v)).1.arr (s.obs o).image)
      = ⟨(s.arr (s.obs o).image).shape, fun i j => if i = r ∧ j = c then v else
          (s.arr (s.obs o).image).get i j⟩ := by
    simp [obsStep, writeArr]
  have eo : (obsStep ops s (.writeOwnArr (s.obs o).image r c v)).1.obs o = s.obs o := rfl
  rw [eo, ew, ei, hig] at h1'
  obtain ⟨q', hq1', hq2'⟩ := (C17_make_pixels_ignore
    (Arr.image ⟨(s.arr (s.obs o).image).shape, fun i j => if i = r ∧ j = c then v else
          (s.arr (s.obs o).image).get i j⟩) (s.arr (s.obs o).weight).image (s.jac (s.obs o).jac) hsh).2 hnil
  have : (obsStep ops s (.writeOwnArr (s.obs o).image r c v)).1.jac = s.jac := rfl
  rw [this, hq1'] at h1'
  injection h1' with h1'
  subst h1'
  obtain ⟨p, hp1, hp2⟩ := forall2_both hq2 hq2' (r, c) hrc
  have e1 := hp1.2.2.1
  have e2 := hp2.2.2.1
  rw [e1] at e2
  simp only [Arr.image, and_self, if_true] at e2
  exact hv e2.symm

/-- C30 violation in the unchanged code: the Jacobian a getter returned inside a `writeable()` block shares its data with the
observation and stays writeable after the block, so that moving its centre along a row or column with an effect on `v` leaves
the pixels stale. -/
theorem C30_kept_jacobian_stale (ops : ObsOps G M) (s : Store G M) (h : Reach ops s) (o : ℕ)
    (ho : o < s.nObs) (hs : InSync s (s.obs o)) (hst : (s.obs o).storePixels = true)
    (hig : (s.obs o).ignoreZero = true) (kw : Kw) (row col : ℝ) (hrow : kw.num "row" = some row)
    (hcol : kw.num "col" = some col)
    (hv : (s.jac (s.obs o).jac).dvdrow * row + (s.jac (s.obs o).jac).dvdcol * col ≠
      (s.jac (s.obs o).jac).dvdrow * (s.jac (s.obs o).jac).row0 + (s.jac (s.obs o).jac).dvdcol * (s.jac (s.obs o).jac).col0) :
    (ObsOp.setCenOwnJac (s.obs o).jac kw : ObsOp G M).Legal s ∧
    (obsStep ops s (.setCenOwnJac (s.obs o).jac kw)).2 = .ok () ∧
    ¬ InSync (obsStep ops s (.setCenOwnJac (s.obs o).jac kw)).1 ((obsStep ops s (.setCenOwnJac (s.obs o).jac kw)).1.obs o) := by
  have w := (reach_inv h).wf o ho
  set j := s.jac (s.obs o).jac with hj
  have hset : j.setCen kw = ({ j with row0 := row, col0 := col }, .ok ()) := by simp [Jacobian.setCen, hrow, hcol]
  refine ⟨(w.jac trivial).1, ?_, fun hs' => ?_⟩
  · show ((s.jac (s.obs o).jac).setCen kw).2 = _
    rw [← hj, hset]
  obtain ⟨px, h1, h2⟩ := hs.1 hst
  obtain ⟨px', h1', h2'⟩ := hs'.1 hst
  have hpx : px' = px := by
    have : (s.obs o).pixels = some px' := h2'
    rw [h2] at this
    injection this with this
    exact this.symm
  subst hpx
  have hsh : (s.arr (s.obs o).weight).image.nrow = (s.arr (s.obs o).image).image.nrow ∧
      (s.arr (s.obs o).weight).image.ncol = (s.arr (s.obs o).image).image.ncol := by
    simp only [Arr.image, w.weightShape]; exact ⟨trivial, trivial⟩
  have hnil : positiveWeight (s.arr (s.obs o).image).image.nrow
      (s.arr (s.obs o).image).image.ncol (s.arr (s.obs o).weight).image.get ≠ [] := by
    intro h0
    have := (C17_make_pixels_ignore _ _ j hsh).1 h0
    rw [hig, this] at h1
    simp at h1
  obtain ⟨q, hq1, hq2⟩ := (C17_make_pixels_ignore _ _ j hsh).2 hnil
  rw [hig, hq1] at h1
  injection h1 with h1
  subst h1
  have ej : (obsStep ops s (.setCenOwnJac (s.obs o).jac kw)).1.jac (s.obs o).jac = { j with row0 := row, col0 := col } := by
    show Function.update s.jac (s.obs o).jac ((s.jac (s.obs o).jac).setCen kw).1 (s.obs o).jac = _
    rw [Function.update_self, ← hj, hset]
  have ei : (obsStep ops s (.setCenOwnJac (s.obs o).jac kw)).1.arr = s.arr := rfl
  have eo : (obsStep ops s (.setCenOwnJac (s.obs o).jac kw)).1.obs o = s.obs o := rfl
  rw [eo, ei, ej, hig] at h1'
  obtain ⟨q', hq1', hq2'⟩ := (C17_make_pixels_ignore (s.arr (s.obs o).image).image (s.arr (s.obs o).weight).image
    { j with row0 := row, col0 := col } hsh).2 hnil
  rw [hq1'] at h1'
  injection h1' with h1'
  subst h1'
  obtain ⟨⟨r, c⟩, hrc⟩ := List.exists_mem_of_ne_nil _ hnil
  obtain ⟨p, hp1, hp2⟩ := forall2_both hq2 hq2' (r, c) hrc
  have e1 := hp1.1
  rw [hp2.1] at e1
  have e3 := congrArg Prod.fst e1
  simp only [Jacobian.getVU] at e3
  exact hv (by linarith)

/-- C30 (concrete): both failures happen in a heap reachable through the API. -/
theorem C30_out_of_sync_reachable (ops : ObsOps G M) (g : G) (m : M) :
    ∃ s : Store G M, Reach ops s ∧ 0 < s.nObs ∧ (s.obs 0).writeable = false ∧ ¬ InSync s (s.obs 0) := by
  obtain ⟨s, h, h1, h2, h3, h4, h5, h6, h7, h8, h9, h10, h11, -⟩ := demo ops g m
  have hl : (ObsOp.setWeight (G := G) (M := M) 0 (some ⟨2, false⟩)).Legal s :=
    ⟨by omega, by rintro x ⟨⟩; show 2 < _; omega⟩
  have hbad := C29_all_zero_weight_replaced ops s h 0 (by omega) ⟨2, false⟩ (by show 2 < _; omega)
    (by rw [h6]; show (s.arr 2).shape = _; rw [h5, h3]; rfl)
    (by show positiveWeight (s.arr 2).image.nrow (s.arr 2).image.ncol (s.arr 2).image.get = []
        rw [h5]; exact arr11_zero) h8 h9
  refine ⟨_, Reach.step _ _ h hl, ?_, ?_, hbad.2.2⟩
  · exact lt_of_lt_of_le (by omega) (step_nObs ops (reach_inv h) _ hl)
  · obtain ⟨_, _, hr⟩ := setWeight_rec s 0 (some ⟨2, false⟩) true hl.2
    simp only [obsStep]
    rw [hr]
    exact h10

example (ops : ObsOps G M) (g : G) (m : M) : ∃ (s : Store G M) (r c : ℕ) (v : ℝ), Reach ops s ∧
    0 < s.nObs ∧ InSync s (s.obs 0) ∧ (s.obs 0).storePixels = true ∧ (s.obs 0).ignoreZero = true ∧
    (s.obs 0).image ≠ (s.obs 0).weight ∧
    (r, c) ∈ positiveWeight (s.arr (s.obs 0).image).image.nrow
      (s.arr (s.obs 0).image).image.ncol (s.arr (s.obs 0).weight).image.get ∧
    v ≠ (s.arr (s.obs 0).image).get r c := by
  obtain ⟨s, h, h1, h2, h3, h4, h5, h6, h7, h8, h9, h10, h11, -⟩ := demo ops g m
  refine ⟨s, 0, 0, 2, h, by omega, h11, h8, h9, by rw [h6, h7]; omega, ?_, ?_⟩
  · rw [h6, h7, h3, h4, arr11_positive 1 one_pos]; simp
  · rw [h6, h3]; simp [arr11]

example (ops : ObsOps G M) (g : G) (m : M) : ∃ (s : Store G M) (kw : Kw) (row col : ℝ), Reach ops s ∧
    0 < s.nObs ∧ InSync s (s.obs 0) ∧ (s.obs 0).storePixels = true ∧ (s.obs 0).ignoreZero = true ∧
    kw.num "row" = some row ∧ kw.num "col" = some col ∧
    (s.jac (s.obs 0).jac).dvdrow * row + (s.jac (s.obs 0).jac).dvdcol * col ≠
      (s.jac (s.obs 0).jac).dvdrow * (s.jac (s.obs 0).jac).row0 + (s.jac (s.obs 0).jac).dvdcol * (s.jac (s.obs 0).jac).col0 := by
  obtain ⟨s, h, h1, h2, h3, h4, h5, h6, h7, h8, h9, h10, h11, -, -, -, -, -, h12, h13, h14⟩ := demo ops g m
  refine ⟨s, Kw.ofList [("row", 3), ("col", 0)], 3, 0, h, by omega, h11, h8, h9, by simp [Kw.ofList, List.lookup],
    by simp [Kw.ofList, List.lookup], ?_⟩
  rw [h12, h13, h14]
  norm_num

/-! ## C31 -/

/-- C31: copying succeeds for an observation whose psf chain (at most `fuel` long, the recursion
limit) is in sync; the result is a faithful copy that shares no object with anything that existed
before, and everything that existed is untouched. -/
theorem C31_copy (ops : ObsOps G M) (s : Store G M) (h : Reach ops s) (o : ℕ) (ho : o < s.nObs)
    (fuel : ℕ) :
    (ChainAll s (InSync s) fuel o → ∃ s' o', copyObs ops fuel s o = (s', .ok o')) ∧
    (∀ s' o', copyObs ops fuel s o = (s', .ok o') →
      CopyOf ops.gcopy s s' fuel o o' ∧
      (∀ a < s.nArr, s'.arr a = s.arr a) ∧ (∀ a < s.nJac, s'.jac a = s.jac a) ∧
      (∀ a < s.nGm, s'.gm a = s.gm a) ∧ (∀ a < s.nDict, s'.dict a = s.dict a) ∧
      (∀ p < s.nObs, s'.obs p = s.obs p)) := by
  obtain ⟨-, h2, h3, h4⟩ := copyObs_spec ops fuel s o (reach_inv h) ho
  constructor
  · intro hc
    obtain ⟨o', ho'⟩ := h4 hc
    exact ⟨_, o', Prod.ext rfl ho'⟩
  · intro s' o' hc
    rw [hc] at h2 h3
    exact ⟨(h3 o' rfl).2.1, h2.arr, h2.jac, h2.gm, h2.dict, h2.obs⟩

/-- C31: whatever is later done in place through the copy does not change anything that existed before
the copy, and in-place changes of the original do not show in the copy. -/
theorem C31_copy_independent (ops : ObsOps G M) (s : Store G M) (h : Reach ops s) (o : ℕ)
    (ho : o < s.nObs) (fuel : ℕ) (s' : Store G M) (o' : ℕ) (hc : copyObs ops fuel s o = (s', .ok o')) :
    (∀ f r c v b, b < s.nArr → (obsStep ops s' (.writeView o' f r c v)).1.arr b = s.arr b) ∧
    (∀ kw j, j < s.nJac → (obsStep ops s' (.writeJacCen o' kw)).1.jac j = s.jac j) ∧
    (∀ f r c v f' b, (s'.obs o').view f' = some b →
      (obsStep ops s' (.writeView o f r c v)).1.arr b = s'.arr b) ∧
    (∀ kw, (obsStep ops s' (.writeJacCen o kw)).1.jac (s'.obs o').jac = s'.jac (s'.obs o').jac) ∧
    (∀ f d, d < s.nDict → (obsStep ops s' (.updateMeta o' f)).1.dict d = s.dict d) ∧
    (∀ f, (obsStep ops s' (.updateMeta o f)).1.dict (s'.obs o').md = s'.dict (s'.obs o').md) := by
  have i := reach_inv h
  obtain ⟨i', h2, h3, -⟩ := copyObs_spec ops fuel s o i ho
  rw [hc] at h2 h3 i'
  simp only at i'
  obtain ⟨hlt, h4, -⟩ := h3 o' rfl
  cases h4 with
  | mk n _ _ self image weight aux jac gmix md flags psfNone psf =>
    have fresh : ∀ f b, (s'.obs o').view f = some b → s.nArr ≤ b := by
      intro f b hb
      cases f with
      | image => injection hb with hb; rw [← hb]; exact image.1
      | weight => injection hb with hb; rw [← hb]; exact weight.1
      | aux f =>
        have := aux f
        have hb' : (s'.obs o').aux f = some b := hb
        rw [hb'] at this
        cases ha : (s'.obs o).aux f with
        | none => rw [ha] at this; exact this.elim
        | some a => rw [ha] at this; exact this.1
    have wold : ∀ f b, (s'.obs o).view f = some b → b < s.nArr := by
      intro f b hb
      rw [h2.obs o ho] at hb
      have w := i.wf o ho
      cases f with
      | image => injection hb with hb; rw [← hb]; exact w.image
      | weight => injection hb with hb; rw [← hb]; exact w.weight
      | aux f => exact (w.aux f b hb).1
    refine ⟨?_, ?_, ?_, ?_, ?_, ?_⟩
    · intro f r c v b hb
      rw [← h2.arr b hb]
      simp only [obsStep, writeView]
      split
      · rfl
      · rename_i a ha
        have := fresh f a ha
        split_ifs
        · simp [writeArr, show b ≠ a by omega]
        · rfl
        · rfl
    · intro kw j hj
      rw [← h2.jac j hj]
      simp only [obsStep, writeJacCen]
      split_ifs
      · have : s.nJac ≤ (s'.obs o').jac := jac.1
        simp [show j ≠ (s'.obs o').jac by omega]
      · rfl
    · intro f r c v f' b hb
      have hfb := fresh f' b hb
      simp only [obsStep, writeView]
      split
      · rfl
      · rename_i a ha
        have := wold f a ha
        split_ifs
        · simp [writeArr, show b ≠ a by omega]
        · rfl
        · rfl
    · intro kw
      simp only [obsStep, writeJacCen]
      split_ifs
      · have h5 : s.nJac ≤ (s'.obs o').jac := jac.1
        have h6 : (s'.obs o).jac < s.nJac := by
          rw [h2.obs o ho]; exact ((i.wf o ho).jac trivial).1
        simp [show (s'.obs o').jac ≠ (s'.obs o).jac by omega]
      · rfl
    · intro f d hd
      rw [← h2.dict d hd]
      have : s.nDict ≤ (s'.obs o').md := md.1
      cases f with
      | none => rfl
      | some f => simp [obsStep, updateMeta, show d ≠ (s'.obs o').md by omega]
    · intro f
      have h5 : s.nDict ≤ (s'.obs o').md := md.1
      have h6 : (s'.obs o).md < s.nDict := by
        rw [h2.obs o ho]; exact (i.wf o ho).md trivial
      cases f with
      | none => rfl
      | some f => simp [obsStep, updateMeta, show (s'.obs o').md ≠ (s'.obs o).md by omega]

/-- C31: `update_meta_data` changes, in place, the dictionary of this observation, by what `dict.update` does to its present
contents, so that every observation that refers to the same dictionary sees the change; it changes nothing else.  An argument that
is not a dictionary is refused with TypeError and nothing changes. -/
theorem C31_update_meta (ops : ObsOps G M) (s : Store G M) (o : ℕ) :
    (∀ f, ∃ s', obsStep ops s (.updateMeta o (some f)) = (s', .ok ()) ∧
      (∀ p, (s.obs p).md = (s.obs o).md → s'.dict (s'.obs p).md = f (s.dict (s.obs o).md)) ∧
      (∀ d, d ≠ (s.obs o).md → s'.dict d = s.dict d) ∧
      s'.obs = s.obs ∧ s'.arr = s.arr ∧ s'.jac = s.jac ∧ s'.gm = s.gm ∧ s'.nDict = s.nDict) ∧
    obsStep ops s (.updateMeta o none) = (s, .error .type) := by
  refine ⟨fun f => ⟨_, rfl, fun p hp => ?_, fun d hd => ?_, rfl, rfl, rfl, rfl, rfl⟩, rfl⟩
  · simp [hp]
  · simp [hd]

/-- C31: a copy compares equal to the original, both ways round. -/
theorem C31_copy_equal (ops : ObsOps G M) (law : ops.Lawful) (s : Store G M) (h : Reach ops s) (o : ℕ)
    (ho : o < s.nObs) (fuel : ℕ) (s' : Store G M) (o' : ℕ) (hc : copyObs ops fuel s o = (s', .ok o')) :
    eqObs ops s' fuel o o' = .ok true ∧ eqObs ops s' fuel o' o = .ok true := by
  have h1 := ((C31_copy ops s h o ho fuel).2 s' o' hc).1
  obtain ⟨h2, h3⟩ := CopyOf.eqTo law fuel o o' h1
  exact ⟨EqTo.eq fuel o o' h2, EqTo.eq fuel o' o h3⟩

/-- C31: equality is reflexive (for psf chains within the recursion limit). -/
theorem C31_reflexive (ops : ObsOps G M) (law : ops.Lawful) (s : Store G M) (o fuel : ℕ)
    (hc : ChainAll s (fun _ => True) fuel o) : eqObs ops s fuel o o = .ok true :=
  EqTo.eq fuel o o (ChainAll.eqTo law fuel o hc)

/-- Entries of two arrays of the same shape agree. -/
def SameArr (a b : Arr) : Prop :=
  ∀ r < a.image.nrow, ∀ c < a.image.ncol, a.get r c = b.get r c

theorem arrEq_sound {a b : Arr} (hsh : a.shape = b.shape) (h : arrEq a.image b.image = .ok true) :
    SameArr a b := by
  unfold arrEq at h
  have h0 : a.image.nrow = b.image.nrow ∧ a.image.ncol = b.image.ncol := by
    simp only [Arr.image, hsh]; exact ⟨trivial, trivial⟩
  rw [if_pos ⟨Or.inl h0.1, Or.inl h0.2⟩] at h
  simp only [Except.ok.injEq, decide_eq_true_eq] at h
  intro r hr c hc
  have h1 := h r (by rw [← h0.1]; split_ifs <;> exact hr) c (by rw [← h0.2]; split_ifs <;> exact hc)
  have e1 : (if a.image.nrow = 1 then 0 else r) = r := by split_ifs <;> omega
  have e2 : (if a.image.ncol = 1 then 0 else c) = c := by split_ifs <;> omega
  rw [← h0.1, ← h0.2, e1, e2] at h1
  exact h1

/-- C31: when two observations with equal image shapes compare equal, their images, weights and
Jacobians agree, and every optional attribute *of the left-hand side* is present on the right with
equal content. -/
theorem C31_equal_sound (ops : ObsOps G M) (s : Store G M) (h : Reach ops s) (o1 o2 n : ℕ)
    (ho1 : o1 < s.nObs) (ho2 : o2 < s.nObs)
    (hsh : (s.arr (s.obs o1).image).shape = (s.arr (s.obs o2).image).shape)
    (heq : eqObs ops s (n + 1) o1 o2 = .ok true) :
    ops.metaEq (s.dict (s.obs o1).md) (s.dict (s.obs o2).md) = true ∧
    SameArr (s.arr (s.obs o1).image) (s.arr (s.obs o2).image) ∧
    SameArr (s.arr (s.obs o1).weight) (s.arr (s.obs o2).weight) ∧
    s.jac (s.obs o1).jac = s.jac (s.obs o2).jac ∧
    (∀ f a, (s.obs o1).aux f = some a → ∃ b, (s.obs o2).aux f = some b ∧ SameArr (s.arr a) (s.arr b)) ∧
    (∀ p, (s.obs o1).psf = some p → ∃ q, (s.obs o2).psf = some q ∧ eqObs ops s n p q = .ok true) ∧
    (∀ g, (s.obs o1).gmix = some g → ∃ k, (s.obs o2).gmix = some k ∧
      ops.geq (ops.gcopy (s.gm g)) (ops.gcopy (s.gm k)) = true) := by
  have i := reach_inv h
  have w1 := i.wf o1 ho1
  have w2 := i.wf o2 ho2
  unfold eqObs at heq
  simp only at heq
  by_cases hm : ops.metaEq (s.dict (s.obs o1).md) (s.dict (s.obs o2).md) = true
  swap
  · rw [if_pos hm] at heq; simp at heq
  rw [if_neg (by rw [hm]; simp)] at heq
  obtain ⟨g1, heq⟩ := andEq_true heq
  obtain ⟨g2, heq⟩ := andEq_true heq
  obtain ⟨g3, heq⟩ := andEq_true heq
  obtain ⟨g4, heq⟩ := andEq_true heq
  obtain ⟨g5, heq⟩ := andEq_true heq
  obtain ⟨g6, heq⟩ := andEq_true heq
  obtain ⟨g7, heq⟩ := andEq_true heq
  obtain ⟨g8, heq⟩ := andEq_true heq
  obtain ⟨g9, heq⟩ := andEq_true heq
  refine ⟨hm, arrEq_sound hsh g1, arrEq_sound (by rw [w1.weightShape, w2.weightShape, hsh]) g2,
    by simpa using g9, ?_, ?_, ?_⟩
  · intro f a ha
    have hf : eqAux s (s.obs o1) (s.obs o2) f = .ok true := by
      cases f
      · exact g5
      · exact g3
      · exact g4
      · exact g6
    unfold eqAux at hf
    rw [ha] at hf
    cases hb : (s.obs o2).aux f with
    | none => rw [hb] at hf; simp at hf
    | some b =>
      rw [hb] at hf
      exact ⟨b, rfl, arrEq_sound (by rw [(w1.aux f a ha).2, (w2.aux f b hb).2, hsh]) hf⟩
  · intro p hp
    unfold eqPsf at g7
    rw [hp] at g7
    cases hb : (s.obs o2).psf with
    | none => rw [hb] at g7; simp at g7
    | some q => rw [hb] at g7; exact ⟨q, rfl, g7⟩
  · intro g hg
    unfold eqGmix at g8
    rw [hg] at g8
    cases hb : (s.obs o2).gmix with
    | none => rw [hb] at g8; simp at g8
    | some q => rw [hb] at g8; exact ⟨q, rfl, by simpa using g8⟩

/-- C31 violation in the unchanged code: two reachable observations, one with a bad-pixel mask and one
without, compare equal in one order, and raise AttributeError in the other. -/
theorem C31_not_symmetric (ops : ObsOps G M) (law : ops.Lawful) (g : G) (m : M) :
    ∃ (s : Store G M) (o1 o2 : ℕ), Reach ops s ∧ o1 < s.nObs ∧ o2 < s.nObs ∧
      (s.obs o1).bmask = none ∧ (s.obs o2).bmask ≠ none ∧
      eqObs ops s 1 o1 o2 = .ok true ∧ eqObs ops s 1 o2 o1 = .error .attribute := by
  obtain ⟨s, h, h1, h2, h3, h4, h5, h6, h7, h8, h9, h10, h11, h12, h13, h14, -⟩ := demo ops g m
  have hch : ChainAll s (InSync s) 1 0 := ⟨0, 0, h11, fun p hp => by rw [h12] at hp; simp at hp⟩
  obtain ⟨s', o', hc⟩ := (C31_copy ops s h 0 (by omega) 1).1 hch
  obtain ⟨hcp, hk1, -, -, -, hk5⟩ := (C31_copy ops s h 0 (by omega) 1).2 s' o' hc
  have hr' : Reach ops s' := by
    have := Reach.step _ (.copy 0 1) h (show 0 < s.nObs by omega)
    simp only [obsStep, dropVal, hc] at this
    exact this
  have i' := reach_inv hr'
  have ho0 : s'.obs 0 = s.obs 0 := hk5 0 (by omega)
  have hcp' := hcp
  cases hcp with
  | mk n _ _ self image weight aux jac gmix md flags psfNone psf =>
    have hs0 : (0 : ℕ) < s'.nObs := by have := self.2; omega
    have hne : o' ≠ 0 := by have := self.1; omega
    have w' := i'.wf o' self.2
    have hl : (ObsOp.setAux (G := G) (M := M) o' .bmask (some ⟨(s'.obs o').image, false⟩)).Legal s' :=
      ⟨self.2, by rintro x ⟨⟩; exact w'.image⟩
    have e : obsStep ops s' (.setAux o' .bmask (some ⟨(s'.obs o').image, false⟩)) =
        (s'.setObs o' { s'.obs o' with bmask := some (s'.obs o').image }, .ok ()) := by
      simp only [obsStep, setAuxArr, asArray]
      simp [w'.dim, Obs.setAux]
    have r2 := Reach.step _ _ hr' hl
    rw [e] at r2
    have eo : ((s'.setObs o' { s'.obs o' with bmask := some (s'.obs o').image }).obs 0) = s'.obs 0 := by
      simp [Store.setObs, hne.symm]
    have haux0 : ∀ f, (s'.obs 0).aux f = none := fun f => by rw [ho0]; exact h13 f
    have hps0 : (s'.obs 0).psf = none := by rw [ho0]; exact h12
    have hgm0 : (s'.obs 0).gmix = none := by rw [ho0]; exact h14
    refine ⟨_, 0, o', r2, hs0, self.2, ?_, ?_, ?_, ?_⟩
    · rw [eo]; exact haux0 .bmask
    · rw [setObs_obs]; simp
    · refine EqTo.eq 1 0 o' ⟨0, 0, o', ?_, ?_, ?_, ?_, ?_, ?_, ?_, ?_⟩ <;> rw [eo, setObs_obs]
      · show ops.metaEq (s'.dict (s'.obs 0).md) (s'.dict (s'.obs o').md) = true
        rw [md.2]; exact law.metaEq_refl _
      · exact image.2.symm
      · exact weight.2.symm
      · intro f a ha; rw [haux0 f] at ha; simp at ha
      · intro p hp; rw [hps0] at hp; simp at hp
      · intro p q hp; rw [hps0] at hp; simp at hp
      · intro k hk; rw [hgm0] at hk; simp at hk
      · exact jac.2.symm
    · have hmd : (s'.setObs o' { s'.obs o' with bmask := some (s'.obs o').image }).dict = s'.dict := rfl
      unfold eqObs
      simp only
      rw [eo, setObs_obs, hmd]
      simp only [setObs_arr]
      rw [if_neg (by rw [md.2, law.metaEq_refl]; simp), image.2, weight.2, arrEq_self, arrEq_self]
      have hb : eqAux (s'.setObs o' { s'.obs o' with bmask := some (s'.obs o').image })
          { s'.obs o' with bmask := some (s'.obs o').image } (s'.obs 0) .bmask = .error .attribute := by
        simp only [eqAux, Obs.aux]
        have : (s'.obs 0).bmask = none := haux0 .bmask
        rw [this]
      rw [hb]
      rfl

/-- C31 violation in the unchanged code: numpy broadcasting makes a 1x1 image equal to any constant
image. -/
theorem C31_broadcast_equal (n m : ℕ) (x : ℝ) :
    arrEq (arr11 x).image (Arr.image ⟨[n, m], fun _ _ => x⟩) = .ok true := by
  unfold arrEq
  rw [if_pos ⟨Or.inr (Or.inl rfl), Or.inr (Or.inl rfl)⟩]
  simp [arr11, Arr.image]

example : (⟨fun g => g, fun a b => decide (a = b), 0, fun a b => decide (a = b)⟩ : ObsOps ℕ ℕ).Lawful :=
  ⟨fun _ => rfl, fun _ => by simp, fun _ => by simp⟩

/-! ## C32 -/

/-- C32: setting a mixture stores a private copy: equal to `copy()` of the argument, at an address
the caller has no reference to. -/
theorem C32_set_gmix (ops : ObsOps G M) (s : Store G M) (h : Reach ops s) (o : ℕ) (ho : o < s.nObs)
    (g : ℕ) (hg : g ∈ s.knownGm) :
    let x := obsStep ops s (.setGmix o (.obj g))
    x.2 = .ok () ∧ ∃ k, (x.1.obs o).gmix = some k ∧ x.1.gm k = ops.gcopy (s.gm g) ∧ k ∉ x.1.knownGm := by
  intro x
  have hl : (ObsOp.setGmix (G := G) (M := M) o (.obj g)).Legal s :=
    ⟨ho, by rintro k ⟨⟩; exact hg⟩
  have i' := (reach_inv h).step ops _ hl
  have hx : x.2 = .ok () := rfl
  refine ⟨hx, ?_⟩
  have hk : (x.1.obs o).gmix = some s.nGm := by
    simp [x, obsStep, setGmix, Store.allocGm, Store.setObs]
  refine ⟨s.nGm, hk, ?_, ?_⟩
  · simp [x, obsStep, setGmix, Store.allocGm, Store.setObs]
  · have hno : x.1.nObs = s.nObs := rfl
    exact ((i'.wf o (by rw [show (obsStep ops s (.setGmix o (.obj g))).1.nObs = s.nObs from rfl]; exact ho)).gmix
      s.nGm hk).2

/-- C32: no other operation (caller changing their own mixtures included) alters the presence or the
content of an observation's mixture. -/
theorem C32_gmix_private (ops : ObsOps G M) (s : Store G M) (h : Reach ops s) (op : ObsOp G M)
    (hl : op.Legal s) (o : ℕ) (ho : o < s.nObs) (hne : ∀ a, op ≠ .setGmix o a) :
    ((obsStep ops s op).1.obs o).gmix = (s.obs o).gmix ∧
    ∀ k, (s.obs o).gmix = some k → (obsStep ops s op).1.gm k = s.gm k :=
  step_gmix ops (reach_inv h) op hl o ho hne

/-- C32: the getter raises RuntimeError exactly when there is no mixture, otherwise it returns a
fresh copy and changes neither the stored mixture nor any other object. -/
theorem C32_get_gmix (ops : ObsOps G M) (s : Store G M) (h : Reach ops s) (o : ℕ) (ho : o < s.nObs) :
    ((getGmix ops s o).2 = .error .runtime ↔ (s.obs o).gmix = none) ∧
    ∀ k, (s.obs o).gmix = some k → ∃ k', (getGmix ops s o).2 = .ok k' ∧ k' ≠ k ∧
      (getGmix ops s o).1.gm k' = ops.gcopy (s.gm k) ∧ (getGmix ops s o).1.gm k = s.gm k ∧
      ((getGmix ops s o).1.obs o).gmix = some k := by
  cases hg : (s.obs o).gmix with
  | none => simp [getGmix, hg]
  | some k =>
    have hlt := (((reach_inv h).wf o ho).gmix k hg).1
    refine ⟨by simp [getGmix, hg], ?_⟩
    intro k2 hk2
    injection hk2 with hk2
    subst hk2
    refine ⟨s.nGm, by simp [getGmix, hg], by omega, ?_, ?_, ?_⟩
    · simp [getGmix, hg, Store.allocGm]
    · simp [getGmix, hg, Store.allocGm, hlt.ne]
    · simp [getGmix, hg, Store.allocGm]

/-- C32: the psf attribute: set, removal, stability under every other operation, the getter and the property (which raise
different exceptions when there is no psf). -/
theorem C32_psf (ops : ObsOps G M) (s : Store G M) (h : Reach ops s) (o : ℕ) (ho : o < s.nObs) :
    (∀ p, (obsStep ops s (.setPsf o (.obj p))).2 = .ok () ∧
      ((obsStep ops s (.setPsf o (.obj p))).1.obs o).psf = some p) ∧
    ((obsStep ops s (.setPsf o .none)).2 = .ok () ∧
      ((obsStep ops s (.setPsf o .none)).1.obs o).psf = none) ∧
    (∀ op : ObsOp G M, op.Legal s → (∀ a, op ≠ .setPsf o a) →
      ((obsStep ops s op).1.obs o).psf = (s.obs o).psf) ∧
    (getPsf s o = .error .runtime ↔ (s.obs o).psf = none) ∧
    (∀ p, getPsf s o = .ok p ↔ (s.obs o).psf = some p) ∧
    (psfAttr s o = .error .attribute ↔ (s.obs o).psf = none) ∧
    (∀ p, psfAttr s o = .ok p ↔ (s.obs o).psf = some p) := by
  refine ⟨fun p => ⟨rfl, by simp [obsStep, setPsf]⟩, ⟨rfl, by simp [obsStep, setPsf]⟩,
    fun op hl hne => step_psf ops (reach_inv h) op hl o ho hne, ?_, ?_, ?_, ?_⟩
  · unfold getPsf; cases (s.obs o).psf <;> simp
  · intro p; unfold getPsf; cases (s.obs o).psf <;> simp
  · unfold psfAttr; cases (s.obs o).psf <;> simp
  · intro p; unfold psfAttr; cases (s.obs o).psf <;> simp

/-- C32: removing the mixture. -/
theorem C32_remove_gmix (ops : ObsOps G M) (s : Store G M) (o : ℕ) :
    (obsStep ops s (.setGmix o .none)).2 = .ok () ∧
    ((obsStep ops s (.setGmix o .none)).1.obs o).gmix = none := by
  simp [obsStep, setGmix]

/-- C32 violation in the unchanged code: a rejected `set_psf`/`set_gmix` (wrong type) raises
AssertionError and has deleted the value that was there. -/
theorem C32_rejected_set_deletes (ops : ObsOps G M) (s : Store G M) (o : ℕ) :
    (obsStep ops s (.setPsf o .wrongType)).2 = .error .assertion ∧
    ((obsStep ops s (.setPsf o .wrongType)).1.obs o).psf = none ∧
    (obsStep ops s (.setGmix o .wrongType)).2 = .error .assertion ∧
    ((obsStep ops s (.setGmix o .wrongType)).1.obs o).gmix = none := by
  simp [obsStep, setPsf, setGmix]

example (ops : ObsOps G M) (g : G) (m : M) : ∃ (s : Store G M), Reach ops s ∧ 0 < s.nObs ∧
    ∃ g ∈ s.knownGm, g < s.nGm := by
  obtain ⟨s, h, h1, h2, h3, h4, h5, h6, h7, h8, h9, h10, h11, h12, h13, h14, h15, h16, -⟩ := demo ops g m
  exact ⟨s, h, by omega, 0, by rw [h15]; simp, by omega⟩

end Ngmix.Props
