import Verif.Model.GalsimCache

/-!
# Property C89: caching of galsim objects
-/

namespace Ngmix.Props

open Ngmix

variable {W V : Type}

/-- The history does not write into objects it was given. -/
def NoWrites (ops : List (GSOp W V)) : Prop := ∀ a v, GSOp.write a v ∉ ops

/-- What galsim promises of a wcs: evaluating its representation gives a wcs with which the same objects are made. -/
def ReprFaithful (x : GSExt W V) (w : W) : Prop :=
  ∃ w', x.eval (x.repr w) = .ok w' ∧ ∀ img xi, x.impl img w' xi = x.impl img w xi

/-- What an address holds. -/
def contents (s : GSState V) (r : Except PyErr ℕ) : Except PyErr (Option V) := r.map fun a => s.heap[a]?

theorem pyEq_eq {a b : Fl} (h : Fl.pyEq a b) : a = b := by
  cases a <;> cases b <;> simp_all [Fl.pyEq]

theorem eqv_eq {a b : GSKey} (h : GSKey.eqv a b) : a = b := by
  obtain ⟨h1, h2, h3⟩ := h
  cases a; cases b
  simp only at h1 h2 h3
  subst h2 h3
  congr 1
  have h4 := h1.imp (fun _ _ h => (List.forall₂_eq_eq_eq ▸ (h.imp fun _ _ h => pyEq_eq h) : _ = _))
  exact (List.forall₂_eq_eq_eq ▸ h4 : _ = _)

theorem gsFind_some {k : GSKey} {e : GSKey × ℕ} {rest : List (GSKey × ℕ)} : ∀ {es : List (GSKey × ℕ)},
    gsFind k es = some (e, rest) → e.1 = k ∧ (e :: rest).Perm es := by
  intro es
  induction es generalizing rest with
  | nil => simp [gsFind]
  | cons d ds ih =>
    intro h
    unfold gsFind at h
    split at h
    · next hk =>
      simp only [Option.some.injEq, Prod.mk.injEq] at h
      obtain ⟨rfl, rfl⟩ := h
      exact ⟨eqv_eq hk, List.Perm.refl _⟩
    · simp only [Option.map_eq_some_iff, Prod.mk.injEq] at h
      obtain ⟨⟨a, r⟩, h1, rfl, rfl⟩ := h
      obtain ⟨q1, q2⟩ := ih h1
      exact ⟨q1, (List.Perm.swap _ _ _).trans (q2.cons d)⟩

/-- Every entry of the cache holds what its key makes, and there are at most 128. -/
structure GSCacheOk (x : GSExt W V) (s : GSState V) : Prop where
  size : s.entries.length ≤ 128
  holds : ∀ e ∈ s.entries, ∃ w v, x.eval e.1.wcs = .ok w ∧ x.impl e.1.img w e.1.xinterp = .ok v ∧ s.heap[e.2]? = some v

theorem gsCached_spec (x : GSExt W V) (s : GSState V) (h : GSCacheOk x s) (k : GSKey) :
    GSCacheOk x (gsCached x s k).1 ∧ (∃ vs, (gsCached x s k).1.heap = s.heap ++ vs) ∧
    contents (gsCached x s k).1 (gsCached x s k).2 =
      ((x.eval k.wcs).bind fun w => x.impl k.img w k.xinterp).map some := by
  unfold gsCached
  split
  · next e rest hf =>
    obtain ⟨hk, hp⟩ := gsFind_some hf
    refine ⟨⟨?_, ?_⟩, ⟨[], by simp⟩, ?_⟩
    · exact hp.length_eq ▸ h.size
    · intro d hd
      exact h.holds d (hp.mem_iff.mp hd)
    · obtain ⟨w, v, h1, h2, h3⟩ := h.holds e (hp.mem_iff.mp (by simp))
      rw [hk] at h1 h2
      simp [contents, Except.map, Except.bind, h1, h2, h3]
  · next hf =>
    cases hr : (x.eval k.wcs).bind fun w => x.impl k.img w k.xinterp with
    | error e => exact ⟨h, ⟨[], by simp⟩, by simp [contents, Except.map]⟩
    | ok v =>
      simp only [GSState.alloc]
      refine ⟨⟨?_, ?_⟩, ⟨[v], rfl⟩, ?_⟩
      · simp [gsMaxSize]
      · intro d hd
        have := List.mem_of_mem_take hd
        rcases List.mem_cons.mp this with rfl | hd
        · rcases hw : x.eval k.wcs with e | w
          · simp [hw, Except.bind] at hr
          · refine ⟨w, v, by simp only [hw], ?_, by simp⟩
            simpa [hw, Except.bind] using hr
        · obtain ⟨w, v', h1, h2, h3⟩ := h.holds d hd
          refine ⟨w, v', h1, h2, ?_⟩
          have : d.2 < s.heap.length := by
            by_contra hc
            rw [List.getElem?_eq_none (by omega)] at h3
            simp at h3
          simp only
          rw [List.getElem?_append_left this, h3]
      · simp [contents, Except.map]

theorem galsimStuff_ok (x : GSExt W V) (s : GSState V) (h : GSCacheOk x s) (img wcs xi) :
    GSCacheOk x (galsimStuff x s img wcs xi).1 ∧ (∃ vs, (galsimStuff x s img wcs xi).1.heap = s.heap ++ vs) := by
  unfold galsimStuff
  split
  · exact ⟨(gsCached_spec x s h _).1, (gsCached_spec x s h _).2.1⟩
  · cases hr : x.impl img wcs xi with
    | error e => exact ⟨h, ⟨[], by simp⟩⟩
    | ok v =>
      refine ⟨⟨h.size, ?_⟩, ⟨[v], rfl⟩⟩
      intro d hd
      obtain ⟨w, v', h1, h2, h3⟩ := h.holds d hd
      refine ⟨w, v', h1, h2, ?_⟩
      have : d.2 < s.heap.length := by
        by_contra hc
        rw [List.getElem?_eq_none (by omega)] at h3
        simp at h3
      simp only [GSState.alloc]
      rw [List.getElem?_append_left this, h3]

theorem gsRun_ok (x : GSExt W V) : ∀ (ops : List (GSOp W V)) (s : GSState V), GSCacheOk x s → NoWrites ops →
    GSCacheOk x (ops.foldl (gsStep x) s) ∧ ∃ vs, (ops.foldl (gsStep x) s).heap = s.heap ++ vs := by
  intro ops
  induction ops with
  | nil => intro s h _; exact ⟨h, [], by simp⟩
  | cons op ops ih =>
    intro s h hw
    have hw' : NoWrites ops := fun a v hm => hw a v (List.mem_cons_of_mem _ hm)
    have key : GSCacheOk x (gsStep x s op) ∧ ∃ vs, (gsStep x s op).heap = s.heap ++ vs := by
      cases op with
      | turnOn => exact ⟨⟨h.size, h.holds⟩, [], by simp [gsStep, GSState.turnOn]⟩
      | turnOff => exact ⟨⟨by simp [gsStep, GSState.turnOff], by simp [gsStep, GSState.turnOff]⟩, [],
          by simp [gsStep, GSState.turnOff]⟩
      | call img wcs xi => exact galsimStuff_ok x s h img wcs xi
      | write a v => exact absurd (by simp) (hw a v)
    obtain ⟨h1, vs, h2⟩ := ih _ key.1 hw'
    obtain ⟨ws, h3⟩ := key.2
    exact ⟨h1, ws ++ vs, by rw [List.foldl_cons, h2, h3, List.append_assoc]⟩

/-- C89: whatever calls were made and however caching was switched before, a call gives the outcome of making the
objects anew, if the representation of its wcs is faithful and nobody writes into the objects; and the objects keep
these contents whatever is called afterwards. -/
theorem C89_transparent (x : GSExt W V) (before after : List (GSOp W V)) (hb : NoWrites before) (ha : NoWrites after)
    (img : List (List Fl)) (wcs : W) (xi : String) (hw : ReprFaithful x wcs) :
    contents ((after.foldl (gsStep x)) (galsimStuff x (gsRun x before) img wcs xi).1)
      (galsimStuff x (gsRun x before) img wcs xi).2 = (x.impl img wcs xi).map some := by
  have h0 : GSCacheOk x (gsRun x before) := (gsRun_ok x before _ ⟨by simp [GSState.init], by simp [GSState.init]⟩ hb).1
  obtain ⟨w', he, hi⟩ := hw
  have hnow : contents (galsimStuff x (gsRun x before) img wcs xi).1 (galsimStuff x (gsRun x before) img wcs xi).2 =
      (x.impl img wcs xi).map some := by
    unfold galsimStuff
    split
    · rw [(gsCached_spec x _ h0 _).2.2]
      simp [he, Except.bind, hi]
    · cases hr : x.impl img wcs xi with
      | error e => simp [contents, Except.map]
      | ok v => simp [contents, Except.map, GSState.alloc]
  obtain ⟨-, vs, hv⟩ := gsRun_ok x after _ (galsimStuff_ok x _ h0 img wcs xi).1 ha
  rw [← hnow]
  unfold contents
  cases hr : (galsimStuff x (gsRun x before) img wcs xi).2 with
  | error e => rfl
  | ok a =>
    simp only [Except.map]
    rw [hv, List.getElem?_append_left]
    by_contra hc
    rw [hr] at hnow
    simp only [contents, Except.map] at hnow
    rw [List.getElem?_eq_none (by omega)] at hnow
    cases hi2 : x.impl img wcs xi <;> simp [hi2] at hnow

theorem gsStep_size (x : GSExt W V) : ∀ (ops : List (GSOp W V)) (s : GSState V), s.entries.length ≤ 128 →
    (s.on = false → s.entries = []) →
    (ops.foldl (gsStep x) s).entries.length ≤ 128 ∧
      ((ops.foldl (gsStep x) s).on = false → (ops.foldl (gsStep x) s).entries = []) := by
  intro ops
  induction ops with
  | nil => intro s h h2; exact ⟨h, h2⟩
  | cons op ops ih =>
    intro s h h2
    refine ih _ ?_ ?_
    · cases op with
      | turnOn => exact h
      | turnOff => simp [gsStep, GSState.turnOff]
      | write a v => exact h
      | call img wcs xi =>
        simp only [gsStep, galsimStuff]
        split
        · unfold gsCached
          split
          · next e rest hf => exact (gsFind_some hf).2.length_eq ▸ h
          · split
            · exact h
            · simp [gsMaxSize]
        · split
          · exact h
          · exact h
    · cases op with
      | turnOn => simp [gsStep, GSState.turnOn]
      | turnOff => simp [gsStep, GSState.turnOff]
      | write a v => exact h2
      | call img wcs xi =>
        simp only [gsStep, galsimStuff]
        split
        · next hon =>
          intro hoff
          unfold gsCached at hoff
          split at hoff
          · simp [hon] at hoff
          · split at hoff <;> simp [hon, GSState.alloc] at hoff
        · split
          · exact h2
          · exact h2

/-- Caching is on after a history: it was switched on and not switched off since. -/
def CachingOn (ops : List (GSOp W V)) : Prop := ∃ a b, ops = a ++ GSOp.turnOn :: b ∧ GSOp.turnOff ∉ b

theorem galsimStuff_on (x : GSExt W V) (s : GSState V) (img : List (List Fl)) (wcs : W) (xi : String) :
    (galsimStuff x s img wcs xi).1.on = s.on := by
  unfold galsimStuff
  split
  · unfold gsCached
    split
    · rfl
    · cases x.eval (x.repr wcs) with
      | error e => rfl
      | ok w =>
        simp only [Except.bind]
        cases x.impl img w xi <;> rfl
  · cases x.impl img wcs xi <;> rfl

theorem gsRun_on (x : GSExt W V) (ops : List (GSOp W V)) : (gsRun x ops).on = true ↔ CachingOn ops := by
  induction ops using List.reverseRecOn with
  | nil => simp [gsRun, GSState.init, CachingOn]
  | append_singleton ops op ih =>
    have hstep : gsRun x (ops ++ [op]) = gsStep x (gsRun x ops) op := by simp [gsRun]
    have hkeep : op ≠ .turnOn → op ≠ .turnOff → (CachingOn (ops ++ [op]) ↔ CachingOn ops) := by
      intro h1 h2
      constructor
      · rintro ⟨a, b, h, hb⟩
        rcases List.eq_nil_or_concat b with rfl | ⟨b', o, rfl⟩
        · have := List.append_inj_right' h rfl
          simp only [List.cons.injEq, and_true] at this
          exact absurd this h1
        · have h' : ops ++ [op] = (a ++ GSOp.turnOn :: b') ++ [o] := by simpa using h
          have := List.append_inj_left' h' rfl
          exact ⟨a, b', this, fun hm => hb (by simp [hm])⟩
      · rintro ⟨a, b, rfl, hb⟩
        exact ⟨a, b ++ [op], by simp, by simp [hb, Ne.symm h2]⟩
    rw [hstep]
    cases op with
    | turnOn => exact ⟨fun _ => ⟨ops, [], rfl, by simp⟩, fun _ => rfl⟩
    | turnOff =>
      refine ⟨fun h => by simp [gsStep, GSState.turnOff] at h, ?_⟩
      rintro ⟨a, b, h, hb⟩
      rcases List.eq_nil_or_concat b with rfl | ⟨b', o, rfl⟩
      · have := List.append_inj_right' h rfl
        simp at this
      · have h' : ops ++ [GSOp.turnOff] = (a ++ GSOp.turnOn :: b') ++ [o] := by simpa using h
        have := List.append_inj_right' h' rfl
        simp only [List.cons.injEq, and_true] at this
        exact absurd (by simp [← this]) hb
    | call img wcs xi =>
      rw [hkeep (by simp) (by simp), ← ih]
      show (galsimStuff x _ img wcs xi).1.on = true ↔ _
      rw [galsimStuff_on]
    | write a v => rw [hkeep (by simp) (by simp), ← ih]; rfl

/-- C89: the cache never holds more than 128 entries, and none while caching is off. -/
theorem C89_bounded (x : GSExt W V) (ops : List (GSOp W V)) :
    (gsRun x ops).entries.length ≤ 128 ∧ (¬ CachingOn ops → (gsRun x ops).entries = []) := by
  have h := gsStep_size x ops GSState.init (by simp [GSState.init]) (fun _ => rfl)
  refine ⟨h.1, fun hc => h.2 ?_⟩
  rw [← gsRun_on x] at hc
  exact Bool.eq_false_iff.2 hc

/-- Entries without NaN. -/
def NoNaN (img : List (List Fl)) : Prop := ∀ r ∈ img, ∀ a ∈ r, a ≠ Fl.nan

theorem eqv_refl {k : GSKey} (h : NoNaN k.img) : GSKey.eqv k k := by
  refine ⟨?_, rfl, rfl⟩
  rw [List.forall₂_same]
  intro r hr
  rw [List.forall₂_same]
  intro a ha
  have := h r hr a ha
  cases a <;> simp_all [Fl.pyEq]

theorem not_eqv_nan {k e : GSKey} (h : ¬ NoNaN k.img) : ¬ GSKey.eqv e k := by
  rintro ⟨h1, -, -⟩
  apply h
  intro r hr a ha
  obtain ⟨i, hi, rfl⟩ := List.getElem_of_mem hr
  have hi' : i < e.img.length := h1.length_eq ▸ hi
  have h2 := (List.forall₂_iff_get.mp h1).2 i hi' hi
  simp only [List.get_eq_getElem] at h2
  obtain ⟨j, hj, rfl⟩ := List.getElem_of_mem ha
  have hj' : j < (e.img[i]).length := h2.length_eq ▸ hj
  have h3 := (List.forall₂_iff_get.mp h2).2 j hj' hj
  simp only [List.get_eq_getElem] at h3
  intro hn
  rw [hn] at h3
  cases hh : (e.img[i])[j] <;> simp [hh, Fl.pyEq] at h3

theorem gsFind_isSome {k : GSKey} {es : List (GSKey × ℕ)} {e : GSKey × ℕ} (he : e ∈ es) (hk : GSKey.eqv e.1 k) :
    gsFind k es ≠ none := by
  induction es with
  | nil => simp at he
  | cons d ds ih =>
    unfold gsFind
    split
    · simp
    · next hd =>
      rcases List.mem_cons.mp he with rfl | he
      · exact absurd hk hd
      · simpa using ih he

theorem gsFind_nan {k : GSKey} (h : ¬ NoNaN k.img) : ∀ es, gsFind k es = none := by
  intro es
  induction es with
  | nil => rfl
  | cons d ds ih => unfold gsFind; rw [if_neg (not_eqv_nan h), ih]; rfl

theorem gs_shared (x : GSExt W V) (s : GSState V) (hon : s.on = true) (img : List (List Fl)) (wcs : W) (xi : String)
    (a : ℕ) (h : (galsimStuff x s img wcs xi).2 = .ok a) :
    (NoNaN img → (galsimStuff x (galsimStuff x s img wcs xi).1 img wcs xi).2 = .ok a) ∧
    (¬ NoNaN img → a = s.heap.length ∧
      (galsimStuff x (galsimStuff x s img wcs xi).1 img wcs xi).2 = .ok (s.heap.length + 1)) := by
  have hst : ∀ s : GSState V, s.on = true → galsimStuff x s img wcs xi = gsCached x s ⟨img, x.repr wcs, xi⟩ := by
    intro s hs
    simp [galsimStuff, hs]
  rw [hst s hon] at h ⊢
  generalize hkk : (⟨img, x.repr wcs, xi⟩ : GSKey) = k at h hst ⊢
  have hki : k.img = img := by rw [← hkk]
  have hon' : (gsCached x s k).1.on = true := by
    unfold gsCached
    split
    · exact hon
    · split <;> simp [hon, GSState.alloc]
  rw [hst _ hon']
  constructor
  · intro hn
    have key : ∃ rest, (gsCached x s k).1.entries = (k, a) :: rest := by
      unfold gsCached at h ⊢
      split at h
      · next e rest hf =>
        obtain ⟨hk, -⟩ := gsFind_some hf
        simp only [Except.ok.injEq] at h
        refine ⟨rest, ?_⟩
        simp only [← hk, ← h]
      · next hf =>
        split at h
        · simp at h
        · next v hv =>
          simp only [GSState.alloc, Except.ok.injEq] at h
          simp [GSState.alloc, gsMaxSize, h]
    obtain ⟨rest, hr⟩ := key
    rw [gsCached, hr]
    simp only [gsFind]
    rw [if_pos (eqv_refl (by rw [hki]; exact hn))]
  · intro hn
    have hf := fun es => gsFind_nan (k := k) (by rw [hki]; exact hn) es
    unfold gsCached at h
    rw [hf] at h
    simp only at h
    split at h
    · simp at h
    · next v hv =>
      simp only [GSState.alloc, Except.ok.injEq] at h
      refine ⟨h.symm, ?_⟩
      have h1 : (gsCached x s k).1.heap = s.heap ++ [v] := by
        unfold gsCached; rw [hf]; simp only; rw [hv]; rfl
      generalize gsCached x s k = t at h1
      unfold gsCached
      rw [hf]
      simp only
      rw [hv]
      simp [GSState.alloc, h1]

/-- C89: with caching on, a call repeated at once returns the very same objects if the image has no NaN (so that
writing into them changes what later callers get), and new ones if it has. -/
theorem C89_shared (x : GSExt W V) (ops : List (GSOp W V)) (hon : CachingOn ops) (img : List (List Fl)) (wcs : W) (xi : String)
    (a : ℕ) (h : (galsimStuff x (gsRun x ops) img wcs xi).2 = .ok a) :
    (NoNaN img → (galsimStuff x (gsRun x (ops ++ [.call img wcs xi])) img wcs xi).2 = .ok a) ∧
    (¬ NoNaN img → (gsRun x ops).heap[a]? = none ∧
      ∃ a', (galsimStuff x (gsRun x (ops ++ [.call img wcs xi])) img wcs xi).2 = .ok a' ∧ a' ≠ a) := by
  have h1 := gs_shared x _ ((gsRun_on x ops).2 hon) img wcs xi a h
  have h2 : gsRun x (ops ++ [.call img wcs xi]) = (galsimStuff x (gsRun x ops) img wcs xi).1 := by simp [gsRun, gsStep]
  rw [h2]
  refine ⟨h1.1, fun hn => ?_⟩
  obtain ⟨ha, hb⟩ := h1.2 hn
  exact ⟨by simp [ha], _, hb, by omega⟩

theorem gs_fresh (x : GSExt W V) (s : GSState V) (hoff : s.on = false) (img : List (List Fl)) (wcs : W) (xi : String)
    (a : ℕ) (h : (galsimStuff x s img wcs xi).2 = .ok a) : s.heap[a]? = none ∧
      (galsimStuff x s img wcs xi).1.entries = s.entries := by
  unfold galsimStuff at h ⊢
  rw [hoff] at h ⊢
  simp only [Bool.false_eq_true, if_false] at h ⊢
  cases hr : x.impl img wcs xi with
  | error e => simp [hr] at h
  | ok v => simp [hr, GSState.alloc] at h ⊢; omega

/-- C89: with caching off every call returns objects nobody else has, and keeps none. -/
theorem C89_fresh (x : GSExt W V) (ops : List (GSOp W V)) (hoff : ¬ CachingOn ops) (img : List (List Fl)) (wcs : W) (xi : String)
    (a : ℕ) (h : (galsimStuff x (gsRun x ops) img wcs xi).2 = .ok a) :
    (gsRun x ops).heap[a]? = none ∧ (galsimStuff x (gsRun x ops) img wcs xi).1.entries = [] := by
  have h0 : (gsRun x ops).on = false := by
    rw [← gsRun_on x] at hoff
    exact Bool.eq_false_iff.2 hoff
  have h1 := gs_fresh x _ h0 img wcs xi a h
  exact ⟨h1.1, h1.2.trans ((C89_bounded x ops).2 hoff)⟩

/-- A galsim of which the wcs 0 can be represented and the wcs 1 cannot; an object is the number of rows. -/
def demoExt : GSExt ℕ ℕ := ⟨fun w => if w = 0 then "zero" else "bad", fun s => if s = "zero" then .ok 0 else
  .error .unbound, fun img _ _ => .ok img.length⟩

/-- C89 (violations): after a caller has written into an object, a cached call gives the changed object, and a wcs
whose representation cannot be evaluated is refused with caching although it is accepted without. -/
theorem C89_not_transparent :
    contents (galsimStuff demoExt (gsRun demoExt [.turnOn, .call [[.fin 1]] 0 "lanczos15", .write 0 7])
        [[.fin 1]] 0 "lanczos15").1
      (galsimStuff demoExt (gsRun demoExt [.turnOn, .call [[.fin 1]] 0 "lanczos15", .write 0 7])
        [[.fin 1]] 0 "lanczos15").2 = .ok (some 7) ∧
    demoExt.impl [[.fin 1]] 0 "lanczos15" = .ok 1 ∧
    (galsimStuff demoExt (gsRun demoExt [.turnOn]) [[.fin 1]] 1 "lanczos15").2 = .error .unbound ∧
    (galsimStuff demoExt (gsRun demoExt []) [[.fin 1]] 1 "lanczos15").2 = .ok 0 := by
  have he : GSKey.eqv ⟨[[.fin 1]], "zero", "lanczos15"⟩ ⟨[[.fin 1]], "zero", "lanczos15"⟩ :=
    eqv_refl (by simp [NoNaN])
  refine ⟨?_, rfl, ?_, rfl⟩
  · simp [gsRun, gsStep, GSState.turnOn, GSState.init, galsimStuff, gsCached, gsFind, demoExt, GSState.alloc,
      Except.bind, gsMaxSize, contents, Except.map, he]
  · simp [gsRun, gsStep, GSState.turnOn, GSState.init, galsimStuff, gsCached, gsFind, demoExt, Except.bind]

/-- A case of `C89_transparent`: caching switched on, an equal call before. -/
example : contents (galsimStuff demoExt (gsRun demoExt [.turnOn, .call [[.fin 1]] 0 "lanczos15"])
    [[.fin 1]] 0 "lanczos15").1 (galsimStuff demoExt (gsRun demoExt [.turnOn, .call [[.fin 1]] 0 "lanczos15"])
    [[.fin 1]] 0 "lanczos15").2 = .ok (some 1) :=
  C89_transparent demoExt [.turnOn, .call [[.fin 1]] 0 "lanczos15"] [] (by simp [NoWrites]) (by simp [NoWrites])
    [[.fin 1]] 0 "lanczos15" ⟨0, rfl, fun _ _ => rfl⟩

/-- Cases of `C89_fresh` and `C89_shared`: caching switched on and off again, and on. -/
example : ¬ CachingOn ([.turnOn, .call [[.fin 1]] 0 "lanczos15", .turnOff] : List (GSOp ℕ ℕ)) := by
  rw [← gsRun_on demoExt]; simp [gsRun, gsStep, GSState.turnOff]

example : CachingOn ([.turnOff, .turnOn, .call [[.fin 1]] 0 "lanczos15"] : List (GSOp ℕ ℕ)) := ⟨[.turnOff], _, rfl, by simp⟩

end Ngmix.Props
