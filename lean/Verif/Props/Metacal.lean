import Verif.Spec.Metacal
import Verif.Proof.ExceptLemmas

/-!
# C53, C57: the observations made by metacal, and the cache of reconvolution psfs
-/

namespace Ngmix.Props

open Ngmix Ngmix.Spec

noncomputable section

variable {O X : Type}

/-! ### The cache -/

/-- A complete entry is what would be made from scratch; an incomplete one exists only for MetacalDilatePSF, for
requests that fail. -/
def CacheOk (mc : Mc O X) (c : PsfCache O) : Prop := ∀ b g1 g2,
  (∀ im o, c (b, g1, g2) = some (.full im o) → freshPsf mc b g1 g2 = .ok (im, o)) ∧
  (∀ o, c (b, g1, g2) = some (.half o) →
    (∃ p px, mc.kind = .dilating p px ∧ mc.gs.dilate p (1 + 2 * shearSize g1 g2) = .ok o) ∧
      ∃ e, freshPsf mc b g1 g2 = .error e)

theorem catchRuntime_eq {α : Type} (x : Except PyErr α) : catchRuntime x = drawn x := by
  unfold catchRuntime drawn
  rfl

theorem doDilate_eq (gs : GalSim O) (o : O) (s : ShapeObj) :
    doDilate gs o s = gs.dilate o (1 + 2 * shearSize s.g1 s.g2) := by
  unfold doDilate shearSize
  norm_num

theorem cacheSet_same (c : PsfCache O) (k : PsfKey) (v : CacheVal O) : cacheSet c k v k = some v := by
  simp [cacheSet]

theorem cacheSet_other (c : PsfCache O) (k k' : PsfKey) (v : CacheVal O) (h : k' ≠ k) :
    cacheSet c k v k' = c k' := by
  simp [cacheSet, h]

/-- The outcomes of one request. -/
theorem getTargetPsf_spec (mc : Mc O X) (s : ShapeObj) (b : Bool) (c : PsfCache O) (hc : CacheOk mc c) :
    CacheOk mc (getTargetPsf mc s b c).1 ∧
    (∀ r, freshPsf mc b s.g1 s.g2 = .ok r → (getTargetPsf mc s b c).2 = .ok r) ∧
    (∀ e, freshPsf mc b s.g1 s.g2 = .error e →
      (c (b, s.g1, s.g2) = none → (getTargetPsf mc s b c).2 = .error e) ∧
      (c (b, s.g1, s.g2) ≠ none → (getTargetPsf mc s b c).2 = .error .type) ∧
      ((getTargetPsf mc s b c).1 (b, s.g1, s.g2) ≠ none ↔
        ∃ p px o, mc.kind = .dilating p px ∧ mc.gs.dilate p (1 + 2 * shearSize s.g1 s.g2) = .ok o)) := by
  rcases hk : c (b, s.g1, s.g2) with _ | v
  · -- not in the cache
    have hT : getTargetPsf mc s b c =
        match getDilatedPsf mc s b c with
        | (c, .error e) => (c, .error e)
        | (c, .ok o) =>
            match catchRuntime (mc.gs.drawPsf o) with
            | .error e => (c, .error e)
            | .ok im => (cacheSet c (b, s.g1, s.g2) (.full im o),
                readCache (cacheSet c (b, s.g1, s.g2) (.full im o)) (b, s.g1, s.g2)) := by
      unfold getTargetPsf
      simp only [hk]
      rfl
    -- the dilated psf is the specified one, and the cache changes only at this key, where it holds the dilated profile
    have hD : (getDilatedPsf mc s b c).2 = reconvPsf mc b s.g1 s.g2 ∧
        (∀ k, k ≠ (b, s.g1, s.g2) → (getDilatedPsf mc s b c).1 k = c k) ∧
        ((getDilatedPsf mc s b c).1 (b, s.g1, s.g2) = none ∧
            ¬ (∃ p px o, mc.kind = .dilating p px ∧ mc.gs.dilate p (1 + 2 * shearSize s.g1 s.g2) = .ok o) ∨
          ∃ p px o, mc.kind = .dilating p px ∧ mc.gs.dilate p (1 + 2 * shearSize s.g1 s.g2) = .ok o ∧
            (getDilatedPsf mc s b c).1 (b, s.g1, s.g2) = some (.half o)) := by
      unfold getDilatedPsf reconvPsf
      rcases hkind : mc.kind with ⟨p, px⟩ | target
      · simp only []
        unfold mcDoDilate
        simp only [hk, doDilate_eq]
        rcases hd : mc.gs.dilate p (1 + 2 * shearSize s.g1 s.g2) with e | o
        · simp only []
          refine ⟨rfl, fun _ _ => trivial, .inl ⟨hk, ?_⟩⟩
          rintro ⟨p', px', o', h1, h2⟩
          injection h1 with h1 _
          rw [← h1, hd] at h2
          cases h2
        · simp only []
          refine ⟨rfl, fun k hne => cacheSet_other _ _ _ _ hne, .inr ⟨p, px, o, rfl, hd, cacheSet_same _ _ _⟩⟩
      · simp only []
        by_cases hb : b = true
        · rw [if_pos hb, if_pos hb]
          refine ⟨rfl, fun _ _ => rfl, .inl ⟨hk, ?_⟩⟩
          rintro ⟨p', px', o', h1, _⟩
          cases h1
        · rw [if_neg hb, if_neg hb]
          refine ⟨?_, fun _ _ => rfl, .inl ⟨hk, ?_⟩⟩
          · cases target with
            | error e => rfl
            | ok t => exact doDilate_eq _ _ _
          · rintro ⟨p', px', o', h1, _⟩
            cases h1
    rw [hT]
    rcases hg : getDilatedPsf mc s b c with ⟨c1, r1⟩
    rw [hg] at hD
    simp only at hD
    obtain ⟨hr1, hother, hkey⟩ := hD
    have hfresh : freshPsf mc b s.g1 s.g2 = r1.bind fun p => (drawn (mc.gs.drawPsf p)).map fun im => (im, p) := by
      unfold freshPsf; rw [hr1]
    -- entries at other keys are unaffected
    have hrest : ∀ c2 : PsfCache O, (∀ k, k ≠ (b, s.g1, s.g2) → c2 k = c1 k) →
        (∀ im o, c2 (b, s.g1, s.g2) = some (.full im o) → freshPsf mc b s.g1 s.g2 = .ok (im, o)) →
        (∀ o, c2 (b, s.g1, s.g2) = some (.half o) →
          (∃ p px, mc.kind = .dilating p px ∧ mc.gs.dilate p (1 + 2 * shearSize s.g1 s.g2) = .ok o) ∧
          ∃ e, freshPsf mc b s.g1 s.g2 = .error e) → CacheOk mc c2 := by
      intro c2 h2 hf hh b' g1 g2
      by_cases hkk : ((b', g1, g2) : PsfKey) = (b, s.g1, s.g2)
      · simp only [Prod.mk.injEq] at hkk
        obtain ⟨rfl, rfl, rfl⟩ := hkk
        exact ⟨hf, hh⟩
      · rw [h2 _ hkk, hother _ hkk]
        exact hc b' g1 g2
    have hfail : ∀ e, freshPsf mc b s.g1 s.g2 = .error e → CacheOk mc c1 := by
      intro e he
      refine hrest c1 (fun _ _ => rfl) ?_ ?_
      · intro im o ho
        rcases hkey with ⟨h, _⟩ | ⟨_, _, _, _, _, h⟩ <;> rw [h] at ho <;> cases ho
      · intro o ho
        rcases hkey with ⟨h, _⟩ | ⟨p, px, o', h1, h2, h⟩
        · rw [h] at ho; cases ho
        · rw [h] at ho
          simp only [Option.some.injEq, CacheVal.half.injEq] at ho
          subst ho
          exact ⟨⟨p, px, h1, h2⟩, e, he⟩
    have hkey' : c1 (b, s.g1, s.g2) ≠ none ↔
        ∃ p px o, mc.kind = .dilating p px ∧ mc.gs.dilate p (1 + 2 * shearSize s.g1 s.g2) = .ok o := by
      rcases hkey with ⟨h, hn⟩ | ⟨p, px, o', h1, h2, h⟩
      · rw [h]; exact ⟨fun hx => absurd rfl hx, fun hx => absurd hx hn⟩
      · rw [h]; exact ⟨fun _ => ⟨p, px, o', h1, h2⟩, fun _ => by simp⟩
    cases r1 with
    | error e =>
      have hfe : freshPsf mc b s.g1 s.g2 = .error e := by rw [hfresh]; rfl
      simp only []
      refine ⟨hfail e hfe, fun r hr => (by rw [hfe] at hr; cases hr), fun e' he' => ?_⟩
      rw [hfe] at he'
      injection he' with he'
      subst he'
      exact ⟨fun _ => rfl, fun h => absurd rfl h, hkey'⟩
    | ok o =>
      simp only [catchRuntime_eq]
      have hfo : freshPsf mc b s.g1 s.g2 = (drawn (mc.gs.drawPsf o)).map fun im => (im, o) := by rw [hfresh]; rfl
      rcases hdr : drawn (mc.gs.drawPsf o) with e | im
      · have hfe : freshPsf mc b s.g1 s.g2 = .error e := by rw [hfo, hdr]; rfl
        simp only []
        refine ⟨hfail e hfe, fun r hr => (by rw [hfe] at hr; cases hr), fun e' he' => ?_⟩
        rw [hfe] at he'
        injection he' with he'
        subst he'
        exact ⟨fun _ => rfl, fun h => absurd rfl h, hkey'⟩
      · have hfe : freshPsf mc b s.g1 s.g2 = .ok (im, o) := by rw [hfo, hdr]; rfl
        simp only []
        refine ⟨?_, ?_, fun e he => (by rw [hfe] at he; cases he)⟩
        · refine hrest _ (fun k hne => cacheSet_other _ _ _ _ hne) ?_ ?_
          · intro im' o' ho
            rw [cacheSet_same] at ho
            simp only [Option.some.injEq, CacheVal.full.injEq] at ho
            rw [hfe, ho.1, ho.2]
          · intro o' ho
            rw [cacheSet_same] at ho
            cases ho
        · intro r hr
          rw [hfe] at hr
          unfold readCache
          rw [cacheSet_same]
          exact hr
  · -- in the cache
    have hT : getTargetPsf mc s b c = (c, readCache c (b, s.g1, s.g2)) := by
      unfold getTargetPsf
      simp only [hk]
    rw [hT]
    refine ⟨hc, ?_, ?_⟩
    · intro r hr
      unfold readCache
      rw [hk]
      cases v with
      | full im o =>
        have := (hc b s.g1 s.g2).1 im o hk
        rw [hr] at this
        exact this.symm
      | half o =>
        obtain ⟨-, e, he⟩ := (hc b s.g1 s.g2).2 o hk
        rw [hr] at he
        cases he
    · intro e he
      cases v with
      | full im o =>
        have := (hc b s.g1 s.g2).1 im o hk
        rw [he] at this
        cases this
      | half o =>
        obtain ⟨⟨p, px, h1, h2⟩, -⟩ := (hc b s.g1 s.g2).2 o hk
        refine ⟨fun h => (by cases h), fun _ => ?_, fun _ => ⟨p, px, o, h1, h2⟩, fun _ => ?_⟩
        · simp only [readCache, hk]
        · simp [hk]

/-! ### One observation -/

theorem setGalsim_makeObs (mc : Mc O X) (im pim : ℕ → ℕ → ℝ) (p : O) :
    setGalsim (makeObs mc im pim) p = Spec.newObs mc im (newPsf mc pim (some p)) := by
  unfold setGalsim makeObs makePsfObs Spec.newObs newPsf Image.fill
  rcases mc.kind with ⟨a, b⟩ | t
  · rfl
  · rcases mc.psfNoise with _ | n <;> norm_num

theorem makeObs_eq (mc : Mc O X) (im pim : ℕ → ℕ → ℝ) :
    makeObs mc im pim = Spec.newObs mc im (newPsf mc pim none) := by
  unfold makeObs makePsfObs Spec.newObs newPsf Image.fill
  rcases mc.kind with ⟨a, b⟩ | t
  · rfl
  · rcases mc.psfNoise with _ | n <;> norm_num

theorem getTargetImage_some (mc : Mc O X) (p : O) (s : ShapeObj) :
    getTargetImage mc p (some s) = (mc.gs.shear mc.imNopsf s.g1 s.g2).bind fun gal => reconvolved mc gal p := by
  unfold getTargetImage targetGalObj reconvolved
  simp only [catchRuntime_eq]
  cases mc.gs.shear mc.imNopsf s.g1 s.g2 <;> rfl

theorem getTargetImage_none (mc : Mc O X) (p : O) :
    getTargetImage mc p none = reconvolved mc mc.imNopsf p := by
  unfold getTargetImage targetGalObj reconvolved
  simp only [catchRuntime_eq]

/-- `get_obs_galshear`: returns the specified observations when they exist, and raises otherwise. -/
theorem galshear_spec (mc : Mc O X) (s : ShapeObj) (u : Bool) (c : PsfCache O) (hc : CacheOk mc c) :
    CacheOk mc (getObsGalshear mc s u c).1 ∧
    (∀ o v, shearedObs mc s.g1 s.g2 = .ok o → unshearedObs mc s.g1 s.g2 = .ok v →
      (getObsGalshear mc s u c).2 = .ok (o, if u then some v else none)) ∧
    (∀ o, shearedObs mc s.g1 s.g2 = .ok o → u = false → (getObsGalshear mc s u c).2 = .ok (o, none)) ∧
    (∀ e, shearedObs mc s.g1 s.g2 = .error e → ∃ e', (getObsGalshear mc s u c).2 = .error e') ∧
    (∀ e, unshearedObs mc s.g1 s.g2 = .error e → u = true → ∃ e', (getObsGalshear mc s u c).2 = .error e') := by
  obtain ⟨h1, h2, h3⟩ := getTargetPsf_spec mc s false c hc
  unfold getObsGalshear
  rcases ht : getTargetPsf mc s false c with ⟨c1, r⟩
  rw [ht] at h1 h2 h3
  simp only at h1 h2 h3
  rcases hf : freshPsf mc false s.g1 s.g2 with e | ⟨pim, p⟩
  · have hr : ∃ e', r = .error e' := by
      obtain ⟨ha, hb, -⟩ := h3 e hf
      by_cases hcn : c (false, s.g1, s.g2) = none
      · exact ⟨_, ha hcn⟩
      · exact ⟨_, hb hcn⟩
    obtain ⟨e', rfl⟩ := hr
    have hs : shearedObs mc s.g1 s.g2 = .error e := by unfold shearedObs; rw [hf]; rfl
    have hu : unshearedObs mc s.g1 s.g2 = .error e := by unfold unshearedObs; rw [hf]; rfl
    rw [hs, hu]
    exact ⟨h1, fun o v h => (by cases h), fun o h => (by cases h), fun _ _ => ⟨e', rfl⟩, fun _ _ _ => ⟨e', rfl⟩⟩
  · have hr := h2 _ hf
    subst hr
    simp only [getTargetImage_some, getTargetImage_none, setGalsim_makeObs]
    have hs : shearedObs mc s.g1 s.g2 = (mc.gs.shear mc.imNopsf s.g1 s.g2).bind fun gal =>
        (reconvolved mc gal p).map fun im => Spec.newObs mc im (newPsf mc pim (some p)) := by
      unfold shearedObs; rw [hf]; rfl
    have hu : unshearedObs mc s.g1 s.g2 =
        (reconvolved mc mc.imNopsf p).map fun im => Spec.newObs mc im (newPsf mc pim (some p)) := by
      unfold unshearedObs; rw [hf]; rfl
    rw [hs, hu]
    refine ⟨h1, ?_⟩
    rcases mc.gs.shear mc.imNopsf s.g1 s.g2 with e | gal
    · exact ⟨fun o v h => (by cases h), fun o h => (by cases h), fun _ _ => ⟨e, rfl⟩, fun _ _ _ => ⟨e, rfl⟩⟩
    · have hb : ∀ {β : Type} (f : O → Except PyErr β), (Except.ok gal : Except PyErr O).bind f = f gal := fun _ => rfl
      simp only [hb]
      rcases reconvolved mc gal p with e | im
      · exact ⟨fun o v h => (by cases h), fun o h => (by cases h), fun _ _ => ⟨e, rfl⟩, fun _ _ _ => ⟨e, rfl⟩⟩
      · have hb2 : ∀ {β : Type} (f : (ℕ → ℕ → ℝ) → Except PyErr β),
            (Except.ok im : Except PyErr (ℕ → ℕ → ℝ)).bind f = f im := fun _ => rfl
        simp only [hb2]
        rcases reconvolved mc mc.imNopsf p with e | uim
        · refine ⟨fun o v _ h => (by cases h), fun o h hu => ?_, fun _ h => (by cases h), fun _ _ hu => ⟨e, ?_⟩⟩
          · subst hu
            have : Spec.newObs mc im (newPsf mc pim (some p)) = o := by injection h
            rw [← this]; rfl
          · rw [if_pos hu]; rfl
        · refine ⟨fun o v h h' => ?_, fun o h hu => ?_, fun _ h => (by cases h), fun _ h => (by cases h)⟩
          · have e1 : Spec.newObs mc im (newPsf mc pim (some p)) = o := by injection h
            have e2 : Spec.newObs mc uim (newPsf mc pim (some p)) = v := by injection h'
            rw [← e1, ← e2]
            cases u <;> rfl
          · subst hu
            have : Spec.newObs mc im (newPsf mc pim (some p)) = o := by injection h
            rw [← this]; rfl

/-- `get_obs_psfshear`. -/
theorem psfshear_spec (mc : Mc O X) (s : ShapeObj) (c : PsfCache O) (hc : CacheOk mc c) :
    CacheOk mc (getObsPsfshear mc s c).1 ∧
    (∀ o, psfShearedObs mc s.g1 s.g2 = .ok o → (getObsPsfshear mc s c).2 = .ok o) ∧
    (∀ e, psfShearedObs mc s.g1 s.g2 = .error e → ∃ e', (getObsPsfshear mc s c).2 = .error e') := by
  obtain ⟨h1, h2, h3⟩ := getTargetPsf_spec mc s true c hc
  unfold getObsPsfshear
  rcases ht : getTargetPsf mc s true c with ⟨c1, r⟩
  rw [ht] at h1 h2 h3
  simp only at h1 h2 h3
  rcases hf : freshPsf mc true s.g1 s.g2 with e | ⟨pim, p⟩
  · have hr : ∃ e', r = .error e' := by
      obtain ⟨ha, hb, -⟩ := h3 e hf
      by_cases hcn : c (true, s.g1, s.g2) = none
      · exact ⟨_, ha hcn⟩
      · exact ⟨_, hb hcn⟩
    obtain ⟨e', rfl⟩ := hr
    have hs : psfShearedObs mc s.g1 s.g2 = .error e := by unfold psfShearedObs; rw [hf]; rfl
    rw [hs]
    exact ⟨h1, fun o h => (by cases h), fun _ _ => ⟨e', rfl⟩⟩
  · have hr := h2 _ hf
    subst hr
    simp only [getTargetImage_none, makeObs_eq]
    have hu : psfShearedObs mc s.g1 s.g2 =
        (reconvolved mc mc.imNopsf p).map fun im => Spec.newObs mc im (newPsf mc pim none) := by
      unfold psfShearedObs; rw [hf]; rfl
    rw [hu]
    exact ⟨h1, fun o h => h, fun e h => ⟨e, h⟩⟩

/-! ### Dictionaries -/

theorem dict_get_set {α : Type} (d : Dict α) (k k' : String) (v : α) :
    (d.set k v).get? k' = if k' = k then some v else d.get? k' := by
  unfold Dict.set Dict.get?
  by_cases hk : k ∈ d.map Prod.fst
  · rw [if_pos hk]
    induction d with
    | nil => cases hk
    | cons p d ih =>
      simp only [List.map_cons, List.find?_cons]
      by_cases hp : p.1 = k
      · by_cases hkk : k' = k
        · simp [hp, hkk]
        · have hpk : ¬ p.1 = k' := fun h => hkk (h.symm.trans hp)
          have hkk' : ¬ k = k' := fun h => hkk h.symm
          simp only [hp, if_true, decide_eq_true_eq, hkk', decide_false, if_neg hkk]
          by_cases hm : k ∈ d.map Prod.fst
          · rw [ih hm, if_neg hkk]
          · have : d.map (fun p => if p.1 = k then (k, v) else p) = d := by
              conv_rhs => rw [← List.map_id d]
              apply List.map_congr_left
              intro q hq
              rw [if_neg (fun h => hm (List.mem_map.mpr ⟨q, hq, h⟩))]
              rfl
            rw [this]
      · have hm : k ∈ d.map Prod.fst := by
          rcases List.mem_cons.mp hk with h | h
          · exact absurd h.symm hp
          · exact h
        rw [if_neg hp]
        by_cases hpk : p.1 = k'
        · have : ¬ k' = k := fun h => hp (hpk.trans h)
          simp [hpk, this]
        · simp only [hpk, decide_false]
          exact ih hm
  · rw [if_neg hk, List.find?_append]
    by_cases hkk : k' = k
    · subst hkk
      have : d.find? (fun p => decide (p.1 = k')) = none := by
        rw [List.find?_eq_none]
        intro q hq
        simp only [decide_eq_true_eq]
        exact fun h => hk (List.mem_map.mpr ⟨q, hq, h⟩)
      simp [this]
    · have : ¬ k = k' := fun h => hkk h.symm
      simp [this, hkk]

theorem dict_mem_keys_set {α : Type} (d : Dict α) (k k' : String) (v : α) :
    k' ∈ (d.set k v).keys ↔ k' = k ∨ k' ∈ d.keys := by
  unfold Dict.set Dict.keys
  by_cases hk : k ∈ d.map Prod.fst
  · rw [if_pos hk, List.map_map]
    have : d.map (Prod.fst ∘ fun p => if p.1 = k then (k, v) else p) = d.map Prod.fst := by
      apply List.map_congr_left
      intro q _
      simp only [Function.comp]
      split_ifs with h
      · exact h.symm
      · rfl
    rw [this]
    constructor
    · exact .inr
    · rintro (rfl | h)
      · exact hk
      · exact h
  · rw [if_neg hk]
    simp [or_comm]

theorem dict_nodup_set {α : Type} (d : Dict α) (k : String) (v : α) (h : d.keys.Nodup) : (d.set k v).keys.Nodup := by
  unfold Dict.set Dict.keys at *
  by_cases hk : k ∈ d.map Prod.fst
  · rw [if_pos hk, List.map_map]
    have : d.map (Prod.fst ∘ fun p => if p.1 = k then (k, v) else p) = d.map Prod.fst := by
      apply List.map_congr_left
      intro q _
      simp only [Function.comp]
      split_ifs with h
      · exact h.symm
      · rfl
    rw [this]; exact h
  · rw [if_neg hk]
    simp only [List.map_append, List.map_cons, List.map_nil]
    exact List.Nodup.append h (by simp) (by simpa using hk)

/-- Keys and lookups agree. -/
theorem dict_get_isSome {α : Type} (d : Dict α) (k : String) : (d.get? k).isSome ↔ k ∈ d.keys := by
  unfold Dict.get? Dict.keys
  rw [Option.isSome_map, List.find?_isSome]
  simp

/-! ### get_all -/

/-- The shears of the eight types. -/
def gOf (step : ℝ) (t : String) : ℝ × ℝ :=
  if t = "1p" ∨ t = "1p_psf" then (step, 0)
  else if t = "1m" ∨ t = "1m_psf" then (-step, 0)
  else if t = "2p" ∨ t = "2p_psf" then (0, step) else (0, -step)

theorem shearDict_spec (step : ℝ) :
    (1 ≤ |step| → shearDict step = .error .gmixRange) ∧
    (|step| < 1 → ∃ sh, shearDict step = .ok sh ∧ ∀ t ∈ metacalTypes, t ≠ "noshear" →
      ∃ s, sh.get? t = some s ∧ (s.g1, s.g2) = gOf step t) := by
  have e0 : (0.0 : ℝ) = 0 := by norm_num
  have h1 : Real.sqrt (step * step + 0 * 0) = |step| := by
    rw [mul_zero, add_zero, Real.sqrt_mul_self_eq_abs]
  have h2 : Real.sqrt (-step * -step + 0 * 0) = |step| := by
    rw [mul_zero, add_zero, Real.sqrt_mul_self_eq_abs, abs_neg]
  have h3 : Real.sqrt (0 * 0 + step * step) = |step| := by
    rw [mul_zero, zero_add, Real.sqrt_mul_self_eq_abs]
  have h4 : Real.sqrt (0 * 0 + -step * -step) = |step| := by
    rw [mul_zero, zero_add, Real.sqrt_mul_self_eq_abs, abs_neg]
  constructor
  · intro h
    unfold shearDict ShapeObj.new
    simp only [e0, h2, ge_iff_le, if_pos h]
    rfl
  · intro h
    have h' : ¬ (|step| ≥ 1) := not_le.mpr h
    have hd : shearDict step = .ok [("1m", ⟨-step, 0, |step|⟩), ("1p", ⟨step, 0, |step|⟩), ("2m", ⟨0, -step, |step|⟩),
        ("2p", ⟨0, step, |step|⟩), ("1m_psf", ⟨-step, 0, |step|⟩), ("1p_psf", ⟨step, 0, |step|⟩),
        ("2m_psf", ⟨0, -step, |step|⟩), ("2p_psf", ⟨0, step, |step|⟩)] := by
      unfold shearDict ShapeObj.copy ShapeObj.new
      simp only [e0, h1, h2, h3, h4, if_neg h', Except.bind, Except.map]
    refine ⟨_, hd, ?_⟩
    intro t ht hn
    simp only [metacalTypes, List.mem_cons, List.not_mem_nil, or_false] at ht
    rcases ht with rfl | rfl | rfl | rfl | rfl | rfl | rfl | rfl | rfl
    · exact absurd rfl hn
    all_goals exact ⟨_, rfl, by simp [gOf]⟩

/-- Entries one pass of the loop adds. -/
def adds (t : String) : List String :=
  if t = "noshear" then [] else if t = "1p" then ["noshear", "1p"] else [t]

theorem isPsfType_spec : ∀ t ∈ metacalTypes, isPsfType t = decide (t ∈ ["1p_psf", "1m_psf", "2p_psf", "2m_psf"]) := by
  decide

/-- The specification of the types other than `noshear`. -/
theorem metacalObs_eq (mc : Mc O X) (step : ℝ) : ∀ t ∈ metacalTypes, t ≠ "noshear" →
    metacalObs mc step t = if isPsfType t then psfShearedObs mc (gOf step t).1 (gOf step t).2
      else shearedObs mc (gOf step t).1 (gOf step t).2 := by
  intro t ht hn
  rw [isPsfType_spec t ht]
  simp only [metacalTypes, List.mem_cons, List.not_mem_nil, or_false] at ht
  rcases ht with rfl | rfl | rfl | rfl | rfl | rfl | rfl | rfl | rfl
  · exact absurd rfl hn
  all_goals simp [metacalObs, gOf]

/-- State of the loop: keys are unique, and each entry is the specified observation. -/
def DictOk (mc : Mc O X) (step : ℝ) (d : Dict (MObs O X)) : Prop :=
  d.keys.Nodup ∧ ∀ k o, d.get? k = some o → metacalObs mc step k = .ok o

theorem getAllStep_spec (mc : Mc O X) (step : ℝ) (sh : Dict ShapeObj) (t : String) (c : PsfCache O) (d : Dict (MObs O X))
    (hsh : ∀ t ∈ metacalTypes, t ≠ "noshear" → ∃ s, sh.get? t = some s ∧ (s.g1, s.g2) = gOf step t)
    (ht : t ∈ metacalTypes) (hc : CacheOk mc c) (hd : DictOk mc step d) :
    CacheOk mc (getAllStep mc sh t c d).1 ∧
    ((∀ k ∈ adds t, ∃ o, metacalObs mc step k = .ok o) → ∃ d', (getAllStep mc sh t c d).2 = .ok d' ∧
      DictOk mc step d' ∧ ∀ k, k ∈ d'.keys ↔ k ∈ d.keys ∨ k ∈ adds t) ∧
    ((∃ k ∈ adds t, ∃ e, metacalObs mc step k = .error e) → ∃ e, (getAllStep mc sh t c d).2 = .error e) := by
  by_cases hn : t = "noshear"
  · unfold getAllStep
    rw [if_pos hn]
    have ha : adds t = [] := by unfold adds; rw [if_pos hn]
    rw [ha]
    refine ⟨hc, fun _ => ⟨d, rfl, hd, by simp⟩, ?_⟩
    rintro ⟨k, hk, -⟩
    cases hk
  · obtain ⟨s, hs, hg⟩ := hsh t ht hn
    have hm := metacalObs_eq mc step t ht hn
    rw [← hg] at hm
    simp only at hm
    -- adding a specified observation
    have hset : ∀ (d : Dict (MObs O X)) k o, DictOk mc step d → metacalObs mc step k = .ok o →
        DictOk mc step (d.set k o) := by
      intro d k o hd hk
      refine ⟨dict_nodup_set d k o hd.1, fun k' o' h => ?_⟩
      rw [dict_get_set] at h
      split_ifs at h with hkk
      · injection h with h; rw [hkk, ← h]; exact hk
      · exact hd.2 k' o' h
    unfold getAllStep
    rw [if_neg hn, hs]
    simp only []
    by_cases hp : isPsfType t = true
    · rw [if_pos hp] at hm ⊢
      have ha : adds t = [t] := by
        have : t ≠ "1p" := by
          rintro rfl
          revert hp; decide
        unfold adds; rw [if_neg hn, if_neg this]
      obtain ⟨h1, h2, h3⟩ := psfshear_spec mc s c hc
      rcases hr : getObsPsfshear mc s c with ⟨c1, r⟩
      rw [hr] at h1 h2 h3
      rw [ha]
      simp only at h1 h2 h3
      rcases ho : psfShearedObs mc s.g1 s.g2 with e | o
      · obtain ⟨e', rfl⟩ := h3 e ho
        refine ⟨h1, fun h => ?_, fun _ => ⟨e', rfl⟩⟩
        obtain ⟨o, h⟩ := h t (by simp)
        rw [hm, ho] at h
        cases h
      · have := h2 o ho
        subst this
        rw [ho] at hm
        refine ⟨h1, fun _ => ⟨d.set t o, rfl, hset d t o hd hm, fun k => ?_⟩, ?_⟩
        · rw [dict_mem_keys_set]; simp [or_comm]
        · rintro ⟨k, hk, e, he⟩
          rw [List.mem_singleton.mp hk, hm] at he
          cases he
    · rw [if_neg hp] at hm ⊢
      by_cases h1p : t = "1p"
      · rw [if_pos h1p]
        have ha : adds t = ["noshear", "1p"] := by unfold adds; rw [if_neg hn, if_pos h1p]
        have hg1 : s.g1 = step ∧ s.g2 = 0 := by
          rw [h1p] at hg
          simp only [gOf, true_or, if_true, Prod.mk.injEq] at hg
          exact hg
        have hmn : metacalObs mc step "noshear" = unshearedObs mc s.g1 s.g2 := by
          rw [hg1.1, hg1.2]; simp [metacalObs]
        obtain ⟨h1, h2, -, h4, h5⟩ := galshear_spec mc s true c hc
        rcases hr : getObsGalshear mc s true c with ⟨c1, r⟩
        rw [hr] at h1 h2 h4 h5
        rw [ha]
        simp only at h1 h2 h4 h5
        rw [h1p] at hm
        rcases ho : shearedObs mc s.g1 s.g2 with e | o
        · obtain ⟨e', rfl⟩ := h4 e ho
          refine ⟨h1, fun h => ?_, fun _ => ⟨e', rfl⟩⟩
          obtain ⟨o, h⟩ := h "1p" (by simp)
          rw [hm, ho] at h
          cases h
        · rcases hu : unshearedObs mc s.g1 s.g2 with e | v
          · obtain ⟨e', rfl⟩ := h5 e hu trivial
            refine ⟨h1, fun h => ?_, fun _ => ⟨e', rfl⟩⟩
            obtain ⟨o, h⟩ := h "noshear" (by simp)
            rw [hmn, hu] at h
            cases h
          · have := h2 o v ho hu
            simp only [if_true] at this
            subst this
            rw [ho] at hm
            rw [hu] at hmn
            refine ⟨h1, fun _ => ⟨(d.set "noshear" v).set t o, rfl,
              hset _ t o (hset d "noshear" v hd hmn) (h1p ▸ hm), fun k => ?_⟩, ?_⟩
            · rw [dict_mem_keys_set, dict_mem_keys_set, h1p]
              simp only [List.mem_cons, List.not_mem_nil, or_false]
              tauto
            · rintro ⟨k, hk, e, he⟩
              simp only [List.mem_cons, List.not_mem_nil, or_false] at hk
              rcases hk with rfl | rfl
              · rw [hmn] at he; cases he
              · rw [hm] at he; cases he
      · rw [if_neg h1p]
        have ha : adds t = [t] := by unfold adds; rw [if_neg hn, if_neg h1p]
        obtain ⟨h1, -, h2, h3, -⟩ := galshear_spec mc s false c hc
        rcases hr : getObsGalshear mc s false c with ⟨c1, r⟩
        rw [hr] at h1 h2 h3
        rw [ha]
        simp only at h1 h2 h3
        rcases ho : shearedObs mc s.g1 s.g2 with e | o
        · obtain ⟨e', rfl⟩ := h3 e ho
          refine ⟨h1, fun h => ?_, fun _ => ⟨e', rfl⟩⟩
          obtain ⟨o, h⟩ := h t (by simp)
          rw [hm, ho] at h
          cases h
        · have := h2 o ho trivial
          subst this
          rw [ho] at hm
          refine ⟨h1, fun _ => ⟨d.set t o, rfl, hset d t o hd hm, fun k => ?_⟩, ?_⟩
          · rw [dict_mem_keys_set]; simp [or_comm]
          · rintro ⟨k, hk, e, he⟩
            rw [List.mem_singleton.mp hk, hm] at he
            cases he

theorem getAllLoop_spec (mc : Mc O X) (step : ℝ) (sh : Dict ShapeObj)
    (hsh : ∀ t ∈ metacalTypes, t ≠ "noshear" → ∃ s, sh.get? t = some s ∧ (s.g1, s.g2) = gOf step t) :
    ∀ (l : List String) (c : PsfCache O) (d : Dict (MObs O X)), (∀ t ∈ l, t ∈ metacalTypes) → CacheOk mc c →
      DictOk mc step d →
    CacheOk mc (getAllLoop mc sh l c d).1 ∧
    ((∀ k ∈ l.flatMap adds, ∃ o, metacalObs mc step k = .ok o) → ∃ d', (getAllLoop mc sh l c d).2 = .ok d' ∧
      DictOk mc step d' ∧ ∀ k, k ∈ d'.keys ↔ k ∈ d.keys ∨ k ∈ l.flatMap adds) ∧
    ((∃ k ∈ l.flatMap adds, ∃ e, metacalObs mc step k = .error e) →
      ∃ e, (getAllLoop mc sh l c d).2 = .error e) := by
  intro l
  induction l with
  | nil =>
    intro c d _ hc hd
    refine ⟨hc, fun _ => ⟨d, rfl, hd, by simp⟩, ?_⟩
    rintro ⟨k, hk, -⟩
    cases hk
  | cons t ts ih =>
    intro c d hl hc hd
    obtain ⟨h1, h2, h3⟩ := getAllStep_spec mc step sh t c d hsh (hl t List.mem_cons_self) hc hd
    unfold getAllLoop
    rcases hr : getAllStep mc sh t c d with ⟨c1, r⟩
    rw [hr] at h1 h2 h3
    simp only at h1 h2 h3
    cases r with
    | error e =>
      refine ⟨h1, fun h => ?_, fun _ => ⟨e, rfl⟩⟩
      obtain ⟨d', hd', -⟩ := h2 (fun k hk => h k (by simp [hk]))
      cases hd'
    | ok d1 =>
      have hnoerr : ¬ ∃ k ∈ adds t, ∃ e, metacalObs mc step k = .error e := by
        intro h
        obtain ⟨e, he⟩ := h3 h
        cases he
      have hall : ∀ k ∈ adds t, ∃ o, metacalObs mc step k = .ok o := by
        intro k hk
        rcases hx : metacalObs mc step k with e | o
        · exact absurd ⟨k, hk, e, hx⟩ hnoerr
        · exact ⟨o, rfl⟩
      obtain ⟨d1', hd1', hok, hkeys⟩ := h2 hall
      injection hd1' with hd1'
      subst hd1'
      obtain ⟨i1, i2, i3⟩ := ih c1 d1 (fun t ht => hl t (List.mem_cons_of_mem _ ht)) h1 hok
      refine ⟨i1, fun h => ?_, ?_⟩
      · obtain ⟨d', hd', hok', hk'⟩ := i2 (fun k hk => h k (by
          simp only [List.flatMap_cons, List.mem_append]; exact .inr hk))
        refine ⟨d', hd', hok', fun k => ?_⟩
        rw [hk', hkeys, List.flatMap_cons, List.mem_append]
        tauto
      · rintro ⟨k, hk, e, he⟩
        rw [List.flatMap_cons, List.mem_append] at hk
        rcases hk with hk | hk
        · exact absurd ⟨k, hk, e, he⟩ hnoerr
        · exact i3 ⟨k, hk, e, he⟩

/-- What the prepared list leads to. -/
theorem mem_flatMap_adds (l : List String) (h : "noshear" ∈ l → "1p" ∈ l) (k : String) :
    k ∈ l.flatMap adds ↔ Wanted l k := by
  unfold Wanted
  rw [List.mem_flatMap]
  constructor
  · rintro ⟨t, ht, hk⟩
    unfold adds at hk
    split_ifs at hk with h1 h2
    · cases hk
    · subst h2
      simp only [List.mem_cons, List.not_mem_nil, or_false] at hk
      rcases hk with rfl | rfl
      · exact .inr (.inl ⟨rfl, ht⟩)
      · exact .inl ht
    · rw [List.mem_singleton.mp hk]; exact .inl ht
  · have h1p : "1p" ∈ l → ∀ k, k = "noshear" ∨ k = "1p" → ∃ a ∈ l, k ∈ adds a := by
      intro hl k hk
      refine ⟨"1p", hl, ?_⟩
      have : adds "1p" = ["noshear", "1p"] := by decide
      rw [this]; simpa using hk
    rintro (hk | ⟨rfl, hk⟩ | ⟨rfl, hk⟩)
    · by_cases hn : k = "noshear"
      · exact h1p (h (hn ▸ hk)) k (.inl hn)
      · by_cases h1 : k = "1p"
        · exact h1p (h1 ▸ hk) k (.inr h1)
        · exact ⟨k, hk, by unfold adds; rw [if_neg hn, if_neg h1]; simp⟩
    · exact h1p hk _ (.inl rfl)
    · exact h1p (h hk) _ (.inr rfl)

theorem typesValid_iff (kind : McKind O) (l : List String) : typesValid kind l = true ↔ ∀ t ∈ l, ValidFor kind t := by
  cases kind with
  | dilating a b =>
    show (l.all fun t => metacalTypes.contains t) = true ↔ _
    simp only [List.all_eq_true, List.contains_iff_mem]
    rfl
  | round g =>
    show (l.all fun t => metacalMinimalTypes.contains t) = true ↔ _
    simp only [List.all_eq_true, List.contains_iff_mem]
    rfl

theorem validFor_sub (kind : McKind O) (t : String) (h : ValidFor kind t) : t ∈ metacalTypes := by
  cases kind with
  | dilating a b => exact h
  | round g =>
    have h : t ∈ ["noshear", "1p", "1m", "2p", "2m"] := h
    simp only [metacalTypes, List.mem_cons, List.not_mem_nil, or_false] at h ⊢
    tauto

theorem defaultTypes_sub (kind : McKind O) : ∀ t ∈ defaultTypes kind, t ∈ metacalTypes := by
  cases kind with
  | dilating a b => exact fun _ h => h
  | round g =>
    show ∀ t ∈ metacalMinimalTypes, t ∈ metacalTypes
    decide

theorem prepTypes_sub (kind : McKind O) (types : TypesArg) :
    ∀ l, (prepTypes kind types).2 = .ok l → ∀ t ∈ l, t ∈ metacalTypes := by
  intro l hl t ht
  have hval : ∀ l, typesValid kind l = true → ∀ t ∈ l, t ∈ metacalTypes := fun l hl t ht =>
    validFor_sub kind t ((typesValid_iff kind l).mp hl t ht)
  have hadd : ∀ l', (∀ t ∈ l', t ∈ metacalTypes) → ∀ t ∈ l' ++ ["1p"], t ∈ metacalTypes := by
    intro l' h t ht
    rcases List.mem_append.mp ht with h' | h'
    · exact h t h'
    · rw [List.mem_singleton.mp h']; decide
  cases types with
  | none =>
    simp only [prepTypes, Except.ok.injEq] at hl
    split_ifs at hl
    · exact hadd _ (defaultTypes_sub kind) t (hl ▸ ht)
    · exact defaultTypes_sub kind t (hl ▸ ht)
  | list l' =>
    simp only [prepTypes] at hl
    split_ifs at hl with h1 h2
    · simp only [Except.ok.injEq] at hl
      exact hadd _ (hval l' h1) t (hl ▸ ht)
    · simp only [Except.ok.injEq] at hl
      exact hval l' h1 t (hl ▸ ht)
  | tuple l' =>
    simp only [prepTypes] at hl
    split_ifs at hl with h1 h2
    · simp only [Except.ok.injEq] at hl
      exact hval l' h1 t (hl ▸ ht)

/-- The state of the cache is good after every history. -/
theorem cacheOk_step (mc : Mc O X) (c : PsfCache O) (op : McOp) (hc : CacheOk mc c) : CacheOk mc (mcStep mc c op) := by
  cases op with
  | target s b => exact (getTargetPsf_spec mc s b c hc).1
  | galshear s b => exact (galshear_spec mc s b c hc).1
  | psfshear s => exact (psfshear_spec mc s c hc).1
  | all step types =>
    show CacheOk mc (getAll mc step types c).1
    unfold getAll
    have hprep := prepTypes_sub mc.kind types
    rcases hp : prepTypes mc.kind types with ⟨ty, r⟩
    rw [hp] at hprep
    simp only at hprep ⊢
    cases r with
    | error e => exact hc
    | ok l =>
      simp only []
      rcases hsd : shearDict step with e | sh
      · exact hc
      · simp only []
        have hlt : |step| < 1 := by
          by_contra h
          rw [(shearDict_spec step).1 (not_lt.mp h)] at hsd
          cases hsd
        obtain ⟨sh', hsh', hs⟩ := (shearDict_spec step).2 hlt
        rw [hsd] at hsh'
        injection hsh' with hsh'
        subst hsh'
        exact (getAllLoop_spec mc step sh hs l c [] (hprep l rfl) hc ⟨List.nodup_nil, fun k o h => by cases h⟩).1

theorem cacheOk_after (mc : Mc O X) (h : List McOp) : CacheOk mc (mcAfter mc h) := by
  unfold mcAfter
  have : ∀ (h : List McOp) c, CacheOk mc c → CacheOk mc (h.foldl (mcStep mc) c) := by
    intro h
    induction h with
    | nil => exact fun _ hc => hc
    | cons op h ih => exact fun c hc => ih _ (cacheOk_step mc c op hc)
  exact this h _ fun b g1 g2 => ⟨fun im o h => (by cases h), fun o h => by cases h⟩

/-! ### Entries are never removed -/

theorem cacheSet_keeps (c : PsfCache O) (k k' : PsfKey) (v : CacheVal O) (h : c k' ≠ none) :
    cacheSet c k v k' ≠ none := by
  by_cases hk : k' = k
  · rw [hk, cacheSet_same]; simp
  · rw [cacheSet_other _ _ _ _ hk]; exact h

theorem getTargetPsf_keeps (mc : Mc O X) (s : ShapeObj) (b : Bool) (c : PsfCache O) (k : PsfKey) (h : c k ≠ none) :
    (getTargetPsf mc s b c).1 k ≠ none := by
  have hdil : (getDilatedPsf mc s b c).1 k ≠ none := by
    unfold getDilatedPsf
    split
    · unfold mcDoDilate
      rcases hx : c (b, s.g1, s.g2) with _ | v
      · simp only []
        rcases doDilate mc.gs _ s with e | o
        · exact h
        · exact cacheSet_keeps _ _ _ _ h
      · cases v <;> exact h
    · split_ifs <;> exact h
  unfold getTargetPsf
  simp only []
  rcases hx : c (b, s.g1, s.g2) with _ | v
  · simp only []
    rcases hg : getDilatedPsf mc s b c with ⟨c1, r⟩
    rw [hg] at hdil
    cases r with
    | error e => exact hdil
    | ok o =>
      simp only []
      rcases catchRuntime (mc.gs.drawPsf o) with e | im
      · exact hdil
      · exact cacheSet_keeps _ _ _ _ hdil
  · exact h

theorem galshear_keeps (mc : Mc O X) (s : ShapeObj) (u : Bool) (c : PsfCache O) (k : PsfKey) (h : c k ≠ none) :
    (getObsGalshear mc s u c).1 k ≠ none := by
  have := getTargetPsf_keeps mc s false c k h
  unfold getObsGalshear
  rcases hg : getTargetPsf mc s false c with ⟨c1, r⟩
  rw [hg] at this
  rcases r with e | ⟨a, b⟩ <;> exact this

theorem psfshear_keeps (mc : Mc O X) (s : ShapeObj) (c : PsfCache O) (k : PsfKey) (h : c k ≠ none) :
    (getObsPsfshear mc s c).1 k ≠ none := by
  have := getTargetPsf_keeps mc s true c k h
  unfold getObsPsfshear
  rcases hg : getTargetPsf mc s true c with ⟨c1, r⟩
  rw [hg] at this
  rcases r with e | ⟨a, b⟩ <;> exact this

theorem getAllStep_keeps (mc : Mc O X) (sh : Dict ShapeObj) (t : String) (c : PsfCache O) (d : Dict (MObs O X))
    (k : PsfKey) (h : c k ≠ none) : (getAllStep mc sh t c d).1 k ≠ none := by
  unfold getAllStep
  by_cases h1 : t = "noshear"
  · rw [if_pos h1]; exact h
  · rw [if_neg h1]
    rcases sh.get? t with _ | s
    · exact h
    · simp only []
      split_ifs with h2 h3
      · have := psfshear_keeps mc s c k h
        rcases hg : getObsPsfshear mc s c with ⟨c1, r⟩
        rw [hg] at this
        rcases r with e | o <;> exact this
      · have := galshear_keeps mc s true c k h
        rcases hg : getObsGalshear mc s true c with ⟨c1, r⟩
        rw [hg] at this
        rcases r with e | ⟨o, _ | u⟩ <;> exact this
      · have := galshear_keeps mc s false c k h
        rcases hg : getObsGalshear mc s false c with ⟨c1, r⟩
        rw [hg] at this
        rcases r with e | ⟨o, u⟩ <;> exact this

theorem getAllLoop_keeps (mc : Mc O X) (sh : Dict ShapeObj) (k : PsfKey) :
    ∀ (l : List String) (c : PsfCache O) (d : Dict (MObs O X)), c k ≠ none → (getAllLoop mc sh l c d).1 k ≠ none := by
  intro l
  induction l with
  | nil => exact fun _ _ h => h
  | cons t ts ih =>
    intro c d h
    have := getAllStep_keeps mc sh t c d k h
    unfold getAllLoop
    rcases hg : getAllStep mc sh t c d with ⟨c1, r⟩
    rw [hg] at this
    cases r with
    | error e => exact this
    | ok d1 => exact ih c1 d1 this

theorem mcStep_keeps (mc : Mc O X) (c : PsfCache O) (op : McOp) (k : PsfKey) (h : c k ≠ none) : mcStep mc c op k ≠ none := by
  cases op with
  | target s b => exact getTargetPsf_keeps mc s b c k h
  | galshear s b => exact galshear_keeps mc s b c k h
  | psfshear s => exact psfshear_keeps mc s c k h
  | all step types =>
    show (getAll mc step types c).1 k ≠ none
    unfold getAll
    simp only []
    rcases (prepTypes mc.kind types).2 with e | l
    · exact h
    · simp only []
      rcases shearDict step with e | sh
      · exact h
      · exact getAllLoop_keeps mc sh k l c [] h

/-- `get_all` once the list of types is prepared. -/
theorem getAll_prepared (mc : Mc O X) (h : List McOp) (step : ℝ) (types ty : TypesArg) (l : List String)
    (hp : prepTypes mc.kind types = (ty, .ok l)) (hl : "noshear" ∈ l → "1p" ∈ l) :
    (getAll mc step types (mcAfter mc h)).2.1 = ty ∧
    (1 ≤ |step| → (getAll mc step types (mcAfter mc h)).2.2 = .error .gmixRange) ∧
    (|step| < 1 →
      ((∀ k, Wanted l k → ∃ o, metacalObs mc step k = .ok o) → ∃ d,
        (getAll mc step types (mcAfter mc h)).2.2 = .ok d ∧ d.keys.Nodup ∧ (∀ k, k ∈ d.keys ↔ Wanted l k) ∧
        ∀ k o, d.get? k = some o → metacalObs mc step k = .ok o) ∧
      ((∃ k e, Wanted l k ∧ metacalObs mc step k = .error e) →
        ∃ e, (getAll mc step types (mcAfter mc h)).2.2 = .error e)) := by
  have hsub := prepTypes_sub mc.kind types
  rw [hp] at hsub
  have hc := cacheOk_after mc h
  unfold getAll
  rw [hp]
  simp only []
  by_cases hs : 1 ≤ |step|
  · rw [(shearDict_spec step).1 hs]
    exact ⟨rfl, fun _ => rfl, fun h => absurd h (not_lt.mpr hs)⟩
  · obtain ⟨sh, hsh, hs'⟩ := (shearDict_spec step).2 (not_le.mp hs)
    rw [hsh]
    refine ⟨rfl, fun h => absurd h hs, fun _ => ?_⟩
    obtain ⟨-, h2, h3⟩ := getAllLoop_spec mc step sh hs' l (mcAfter mc h) [] (hsub l rfl) hc
      ⟨List.nodup_nil, fun k o h => by cases h⟩
    constructor
    · intro hall
      obtain ⟨d, hd, hok, hk⟩ := h2 (fun k hk => hall k ((mem_flatMap_adds l hl k).mp hk))
      refine ⟨d, hd, hok.1, fun k => ?_, hok.2⟩
      rw [hk, mem_flatMap_adds l hl]
      simp [Dict.keys]
    · rintro ⟨k, e, hk, he⟩
      exact h3 ⟨k, (mem_flatMap_adds l hl k).mpr hk, e, he⟩

/-- Preparing a list. -/
theorem prepTypes_list (kind : McKind O) (l : List String) :
    (¬ (∀ t ∈ l, ValidFor kind t) → prepTypes kind (.list l) = (.list l, .error .assertion) ∧
      prepTypes kind (.tuple l) = (.tuple l, .error .assertion)) ∧
    ((∀ t ∈ l, ValidFor kind t) → "noshear" ∈ l → "1p" ∉ l →
      prepTypes kind (.list l) = (.list (l ++ ["1p"]), .ok (l ++ ["1p"])) ∧
      prepTypes kind (.tuple l) = (.tuple l, .error .attribute)) ∧
    ((∀ t ∈ l, ValidFor kind t) → ("noshear" ∈ l → "1p" ∈ l) →
      prepTypes kind (.list l) = (.list l, .ok l) ∧ prepTypes kind (.tuple l) = (.tuple l, .ok l)) := by
  refine ⟨fun h => ?_, fun h h1 h2 => ?_, fun h h1 => ?_⟩
  · have : ¬ typesValid kind l = true := fun h' => h ((typesValid_iff kind l).mp h')
    simp only [prepTypes]
    rw [if_neg this, if_neg this]
    exact ⟨rfl, rfl⟩
  · have hv := (typesValid_iff kind l).mpr h
    simp only [prepTypes]
    rw [if_pos hv, if_pos hv, if_pos ⟨h1, h2⟩, if_pos ⟨h1, h2⟩]
    exact ⟨rfl, rfl⟩
  · have hv := (typesValid_iff kind l).mpr h
    have hn : ¬ ("noshear" ∈ l ∧ "1p" ∉ l) := fun h' => h'.2 (h1 h'.1)
    simp only [prepTypes]
    rw [if_pos hv, if_pos hv, if_neg hn, if_neg hn]
    exact ⟨rfl, rfl⟩

/-- C53: `get_all` on a list of types, on a Metacal object with any history.  Unknown types (and, for the classes with
a round psf, the psf types) raise `AssertionError` before anything is done; a step of size 1 or more raises
`GMixRangeError`.  Otherwise, if the observations of the wanted types can be made, the dictionary has exactly the wanted
keys (the requested ones, with `noshear` and `1p` implying each other), each once, and each entry is the specified
observation; if one cannot be made the call raises. -/
theorem C53_get_all (mc : Mc O X) (h : List McOp) (step : ℝ) (l : List String) :
    (¬ (∀ t ∈ l, ValidFor mc.kind t) →
      getAll mc step (.list l) (mcAfter mc h) = (mcAfter mc h, .list l, .error .assertion)) ∧
    ((∀ t ∈ l, ValidFor mc.kind t) →
      (1 ≤ |step| → (getAll mc step (.list l) (mcAfter mc h)).2.2 = .error .gmixRange) ∧
      (|step| < 1 →
        ((∀ k, Wanted l k → ∃ o, metacalObs mc step k = .ok o) → ∃ d,
          (getAll mc step (.list l) (mcAfter mc h)).2.2 = .ok d ∧ d.keys.Nodup ∧ (∀ k, k ∈ d.keys ↔ Wanted l k) ∧
          ∀ k o, d.get? k = some o → metacalObs mc step k = .ok o) ∧
        ((∃ k e, Wanted l k ∧ metacalObs mc step k = .error e) →
          ∃ e, (getAll mc step (.list l) (mcAfter mc h)).2.2 = .error e))) := by
  obtain ⟨p1, p2, p3⟩ := prepTypes_list mc.kind l
  constructor
  · intro hb
    unfold getAll
    rw [(p1 hb).1]
  · intro hv
    by_cases hn : "noshear" ∈ l ∧ "1p" ∉ l
    · obtain ⟨-, g2, g3⟩ := getAll_prepared mc h step _ _ _ (p2 hv hn.1 hn.2).1 (fun _ => by simp)
      have hw : ∀ k, Wanted (l ++ ["1p"]) k ↔ Wanted l k := by
        intro k
        unfold Wanted
        simp only [List.mem_append, List.mem_singleton]
        constructor
        · rintro ((h | h) | ⟨h, _⟩ | ⟨h, h'⟩)
          · exact .inl h
          · exact .inr (.inr ⟨h, hn.1⟩)
          · exact .inl (h ▸ hn.1)
          · exact .inr (.inr ⟨h, hn.1⟩)
        · rintro (h | ⟨h, h'⟩ | ⟨h, h'⟩)
          · exact .inl (.inl h)
          · exact .inr (.inl ⟨h, .inl h'⟩)
          · exact .inl (.inr h)
      simp only [hw] at g3
      exact ⟨g2, g3⟩
    · have hn' : "noshear" ∈ l → "1p" ∈ l := by tauto
      obtain ⟨-, g2, g3⟩ := getAll_prepared mc h step _ _ _ (p3 hv hn').1 hn'
      exact ⟨g2, g3⟩

/-- C53: the caller's list of types is modified, by appending `1p`, exactly when it is valid and contains `noshear`
without `1p`; a tuple then raises `AttributeError`, and otherwise behaves as a list. -/
theorem C53_types_argument (mc : Mc O X) (h : List McOp) (step : ℝ) (l : List String) :
    ((getAll mc step (.list l) (mcAfter mc h)).2.1 =
      .list (open Classical in
        if (∀ t ∈ l, ValidFor mc.kind t) ∧ "noshear" ∈ l ∧ "1p" ∉ l then l ++ ["1p"] else l)) ∧
    ((∀ t ∈ l, ValidFor mc.kind t) → "noshear" ∈ l → "1p" ∉ l →
      (getAll mc step (.tuple l) (mcAfter mc h)).2.2 = .error .attribute) ∧
    (¬ ("noshear" ∈ l ∧ "1p" ∉ l) →
      (getAll mc step (.tuple l) (mcAfter mc h)).2.2 = (getAll mc step (.list l) (mcAfter mc h)).2.2) := by
  obtain ⟨p1, p2, p3⟩ := prepTypes_list mc.kind l
  refine ⟨?_, fun hv h1 h2 => ?_, fun hn => ?_⟩
  · by_cases hv : ∀ t ∈ l, ValidFor mc.kind t
    · by_cases hn : "noshear" ∈ l ∧ "1p" ∉ l
      · rw [if_pos ⟨hv, hn⟩]
        exact (getAll_prepared mc h step _ _ _ (p2 hv hn.1 hn.2).1 (fun _ => by simp)).1
      · rw [if_neg (fun hx => hn hx.2)]
        have hn' : "noshear" ∈ l → "1p" ∈ l := by tauto
        exact (getAll_prepared mc h step _ _ _ (p3 hv hn').1 hn').1
    · rw [if_neg (fun hx => hv hx.1)]
      unfold getAll
      rw [(p1 hv).1]
  · unfold getAll
    rw [(p2 hv h1 h2).2]
  · by_cases hv : ∀ t ∈ l, ValidFor mc.kind t
    · have hn' : "noshear" ∈ l → "1p" ∈ l := by tauto
      unfold getAll
      rw [(p3 hv hn').1, (p3 hv hn').2]
      cases shearDict step <;> rfl
    · unfold getAll
      rw [(p1 hv).1, (p1 hv).2]

/-- C53: without a `types` argument all the types the class knows are made. -/
theorem C53_default (mc : Mc O X) (h : List McOp) (step : ℝ) (hs : |step| < 1)
    (hall : ∀ k, ValidFor mc.kind k → ∃ o, metacalObs mc step k = .ok o) :
    ∃ d, (getAll mc step .none (mcAfter mc h)).2.2 = .ok d ∧ d.keys.Nodup ∧ (∀ k, k ∈ d.keys ↔ ValidFor mc.kind k) ∧
      ∀ k o, d.get? k = some o → metacalObs mc step k = .ok o := by
  have hdef : ∀ k, k ∈ defaultTypes mc.kind ↔ ValidFor mc.kind k := by
    intro k
    rcases mc.kind with ⟨a, b⟩ | g <;> exact Iff.rfl
  have h1p : "noshear" ∈ defaultTypes mc.kind ∧ "1p" ∈ defaultTypes mc.kind := by
    rcases mc.kind with ⟨a, b⟩ | g
    · exact (by decide : "noshear" ∈ metacalTypes ∧ "1p" ∈ metacalTypes)
    · exact (by decide : "noshear" ∈ metacalMinimalTypes ∧ "1p" ∈ metacalMinimalTypes)
  have hp : prepTypes mc.kind .none = (.none, .ok (defaultTypes mc.kind)) := by
    simp only [prepTypes]
    rw [if_neg (fun hx => hx.2 h1p.2)]
  have hw : ∀ k, Wanted (defaultTypes mc.kind) k ↔ ValidFor mc.kind k := by
    intro k
    rw [← hdef]
    unfold Wanted
    constructor
    · rintro (h | ⟨rfl, _⟩ | ⟨rfl, _⟩)
      · exact h
      · exact h1p.1
      · exact h1p.2
    · exact .inl
  obtain ⟨-, -, g3⟩ := getAll_prepared mc h step _ _ _ hp (fun _ => h1p.2)
  obtain ⟨g4, -⟩ := g3 hs
  simp only [hw] at g4
  exact g4 hall

/-- C53: every observation made keeps the input's weight map, noise image, size and remaining attributes; its psf keeps
size and remaining attributes, and for MetacalDilatePSF also weights and centre. -/
theorem C53_kept (mc : Mc O X) (step : ℝ) (t : String) (o : MObs O X) (h : metacalObs mc step t = .ok o) :
    o.weight = mc.obs.weight ∧ o.noise = mc.obs.noise ∧ o.rest = mc.obs.rest ∧
    o.image.nrow = mc.obs.image.nrow ∧ o.image.ncol = mc.obs.image.ncol ∧
    o.psf.image.nrow = mc.obs.psf.image.nrow ∧ o.psf.image.ncol = mc.obs.psf.image.ncol ∧
    o.psf.rest = mc.obs.psf.rest ∧
    (∀ p px, mc.kind = .dilating p px → o.psf.weight = mc.obs.psf.weight ∧ o.psf.cen = mc.obs.psf.cen) := by
  have hnew : ∃ im pim gal, o = Spec.newObs mc im (newPsf mc pim gal) := by
    have hs : ∀ g1 g2, shearedObs mc g1 g2 = .ok o → ∃ im pim gal, o = Spec.newObs mc im (newPsf mc pim gal) := by
      intro g1 g2 h
      unfold shearedObs at h
      obtain ⟨p, -, h⟩ := exBind_ok h
      obtain ⟨gal, -, h⟩ := exBind_ok h
      obtain ⟨im, -, h⟩ := exMap_ok h
      exact ⟨_, _, _, h.symm⟩
    have hu : ∀ g1 g2, unshearedObs mc g1 g2 = .ok o → ∃ im pim gal, o = Spec.newObs mc im (newPsf mc pim gal) := by
      intro g1 g2 h
      unfold unshearedObs at h
      obtain ⟨p, -, h⟩ := exBind_ok h
      obtain ⟨im, -, h⟩ := exMap_ok h
      exact ⟨_, _, _, h.symm⟩
    have hp : ∀ g1 g2, psfShearedObs mc g1 g2 = .ok o → ∃ im pim gal, o = Spec.newObs mc im (newPsf mc pim gal) := by
      intro g1 g2 h
      unfold psfShearedObs at h
      obtain ⟨p, -, h⟩ := exBind_ok h
      obtain ⟨im, -, h⟩ := exMap_ok h
      exact ⟨_, _, _, h.symm⟩
    unfold metacalObs at h
    split_ifs at h
    exacts [hu _ _ h, hs _ _ h, hs _ _ h, hs _ _ h, hs _ _ h, hp _ _ h, hp _ _ h, hp _ _ h, hp _ _ h]
  obtain ⟨im, pim, gal, rfl⟩ := hnew
  unfold Spec.newObs newPsf
  rcases hk : mc.kind with ⟨a, b⟩ | g
  · simp
  · rcases mc.psfNoise with _ | n <;> simp

/-- C57: whatever was asked before (requests that raised included), a psf that can be made is returned as made from
scratch.  A psf that cannot be made raises: for the classes with a round psf always the same error; MetacalDilatePSF
raises that error or, once an attempt has left the dilated profile in the cache, `TypeError`. -/
theorem C57_history (mc : Mc O X) (h : List McOp) (s : ShapeObj) (b : Bool) :
    (∀ r, freshPsf mc b s.g1 s.g2 = .ok r → (getTargetPsf mc s b (mcAfter mc h)).2 = .ok r) ∧
    (∀ e, freshPsf mc b s.g1 s.g2 = .error e →
      (getTargetPsf mc s b (mcAfter mc h)).2 = .error e ∨
      (getTargetPsf mc s b (mcAfter mc h)).2 = .error .type ∧
        ∃ p px o, mc.kind = .dilating p px ∧ mc.gs.dilate p (1 + 2 * shearSize s.g1 s.g2) = .ok o) := by
  have hc := cacheOk_after mc h
  obtain ⟨-, h2, h3⟩ := getTargetPsf_spec mc s b _ hc
  refine ⟨h2, fun e he => ?_⟩
  obtain ⟨h4, h5, -⟩ := h3 e he
  rcases hk : mcAfter mc h (b, s.g1, s.g2) with _ | v
  · exact .inl (h4 hk)
  · right
    refine ⟨h5 (by simp [hk]), ?_⟩
    cases v with
    | full im o =>
      have := (hc b s.g1 s.g2).1 im o hk
      rw [he] at this
      cases this
    | half o =>
      obtain ⟨⟨p, px, e1, e2⟩, -⟩ := (hc b s.g1 s.g2).2 o hk
      exact ⟨p, px, o, e1, e2⟩

/-- C57: for the classes with a round psf a request gives the same result, value or exception, in every history. -/
theorem C57_round (mc : Mc O X) (g : Except PyErr O) (hk : mc.kind = .round g) (h : List McOp) (s : ShapeObj) (b : Bool) :
    (getTargetPsf mc s b (mcAfter mc h)).2 = freshPsf mc b s.g1 s.g2 := by
  obtain ⟨h1, h2⟩ := C57_history mc h s b
  rcases hf : freshPsf mc b s.g1 s.g2 with e | r
  · rcases h2 e hf with h | ⟨-, p, px, o, hd, -⟩
    · exact h
    · rw [hk] at hd; cases hd
  · exact h1 r hf

/-- C57: observations.  Asking for a sheared observation, with or without the unsheared one, or for one with a sheared psf
succeeds after a history of calls exactly when it does on a new object, with the same result; for the classes with a round
psf failures are the same as well. -/
theorem C57_observations (mc : Mc O X) (h : List McOp) (s : ShapeObj) :
    (∀ b r, (getObsGalshear mc s b (mcAfter mc h)).2 = .ok r ↔ (getObsGalshear mc s b (mcAfter mc [])).2 = .ok r) ∧
    (∀ r, (getObsPsfshear mc s (mcAfter mc h)).2 = .ok r ↔ (getObsPsfshear mc s (mcAfter mc [])).2 = .ok r) ∧
    (∀ g, mc.kind = .round g →
      (∀ b, (getObsGalshear mc s b (mcAfter mc h)).2 = (getObsGalshear mc s b (mcAfter mc [])).2) ∧
      (getObsPsfshear mc s (mcAfter mc h)).2 = (getObsPsfshear mc s (mcAfter mc [])).2) := by
  have gal : ∀ b c, (getObsGalshear mc s b c).2 = (getTargetPsf mc s false c).2.bind fun q =>
      (getTargetImage mc q.2 (some s)).bind fun im =>
        if b then
          (getTargetImage mc q.2 none).map fun uim =>
            (setGalsim (makeObs mc im q.1) q.2, some (setGalsim (makeObs mc uim q.1) q.2))
        else .ok (setGalsim (makeObs mc im q.1) q.2, none) := by
    intro b c
    unfold getObsGalshear
    rcases getTargetPsf mc s false c with ⟨c', e | ⟨pim, p⟩⟩ <;> rfl
  have psf : ∀ c, (getObsPsfshear mc s c).2 = (getTargetPsf mc s true c).2.bind fun q =>
      (getTargetImage mc q.2 none).map fun im => makeObs mc im q.1 := by
    intro c
    unfold getObsPsfshear
    rcases getTargetPsf mc s true c with ⟨c', e | ⟨pim, p⟩⟩ <;> rfl
  have same : ∀ b q, (getTargetPsf mc s b (mcAfter mc h)).2 = .ok q ↔ (getTargetPsf mc s b (mcAfter mc [])).2 = .ok q := by
    intro b q
    have both : ∀ h, (getTargetPsf mc s b (mcAfter mc h)).2 = .ok q ↔ freshPsf mc b s.g1 s.g2 = .ok q := by
      intro h
      obtain ⟨h1, h2⟩ := C57_history mc h s b
      rcases hf : freshPsf mc b s.g1 s.g2 with e | r
      · rcases h2 e hf with h3 | ⟨h3, -⟩ <;> rw [h3] <;> simp
      · rw [h1 r hf]
    rw [both h, both []]
  have lift : ∀ {β : Type} (b : Bool) (k : (ℕ → ℕ → ℝ) × O → Except PyErr β) (r : β),
      (getTargetPsf mc s b (mcAfter mc h)).2.bind k = .ok r ↔ (getTargetPsf mc s b (mcAfter mc [])).2.bind k = .ok r := by
    intro β b k r
    constructor
    · intro hr
      obtain ⟨q, hq, hk⟩ := exBind_ok hr
      rw [(same b q).1 hq]; exact hk
    · intro hr
      obtain ⟨q, hq, hk⟩ := exBind_ok hr
      rw [(same b q).2 hq]; exact hk
  refine ⟨fun b r => ?_, fun r => ?_, fun g hg => ⟨fun b => ?_, ?_⟩⟩
  · rw [gal, gal]; exact lift false _ r
  · rw [psf, psf]; exact lift true _ r
  · rw [gal, gal, C57_round mc g hg, C57_round mc g hg]
  · rw [psf, psf, C57_round mc g hg, C57_round mc g hg]

/-- C57, violation: on a new MetacalDilatePSF object, if the psf can be dilated but not completed (drawing fails, say),
the first request raises the original error (`GMixRangeError` for a GalSim drawing error) and every later request for
the same shear, whatever was asked in between, raises `TypeError`. -/
theorem C57_retry_differs (mc : Mc O X) (p px o : O) (hk : mc.kind = .dilating p px) (s : ShapeObj) (b : Bool) (e : PyErr)
    (hd : mc.gs.dilate p (1 + 2 * shearSize s.g1 s.g2) = .ok o) (hf : freshPsf mc b s.g1 s.g2 = .error e)
    (h : List McOp) :
    (getTargetPsf mc s b (mcAfter mc [])).2 = .error e ∧
    (getTargetPsf mc s b (mcAfter mc (.target s b :: h))).2 = .error .type := by
  have hc0 := cacheOk_after mc []
  obtain ⟨h1, -, h3⟩ := getTargetPsf_spec mc s b _ hc0
  obtain ⟨h4, -, h6⟩ := h3 e hf
  refine ⟨h4 rfl, ?_⟩
  -- an entry, once present, stays present
  have hkeep : ∀ (h : List McOp) c, CacheOk mc c → c (b, s.g1, s.g2) ≠ none →
      (h.foldl (mcStep mc) c) (b, s.g1, s.g2) ≠ none := by
    intro h
    induction h with
    | nil => exact fun _ _ hn => hn
    | cons op h ih =>
      intro c hc hn
      exact ih _ (cacheOk_step mc c op hc) (mcStep_keeps mc c op _ hn)
  have hne := hkeep h _ h1 (h6.mpr ⟨p, px, o, hk, hd⟩)
  have hc := cacheOk_after mc (.target s b :: h)
  obtain ⟨-, -, h7⟩ := getTargetPsf_spec mc s b _ hc
  exact (h7 e hf).2.1 hne

/-! ### Concrete instances -/

/-- A toy GalSim: a profile is its flux, everything can be drawn. -/
def toyGS : GalSim ℝ := ⟨fun o g1 _ => .ok (o + g1), fun o d => .ok (o * d), fun a b => .ok (a * b),
  fun o => .ok fun _ _ => o, fun o => .ok fun _ _ => o⟩

/-- One where drawing a psf fails. -/
def toyGSFail : GalSim ℝ := { toyGS with drawPsf := fun _ => .error .runtime }

def toyObs : MObs ℝ Unit :=
  ⟨⟨3, 3, fun _ _ => 1⟩, ⟨3, 3, fun _ _ => 1⟩, none, ⟨⟨3, 3, fun _ _ => 1⟩, ⟨3, 3, fun _ _ => 1⟩, (1, 1), none, ()⟩,
    none, ()⟩

/-- All types can be made, so `C53_get_all` and `C53_default` apply, for both kinds of class. -/
example : ∀ kind ∈ [McKind.dilating (1 : ℝ) 2, .round (.ok 3)], ∀ k, ValidFor kind k →
    ∃ o, metacalObs (⟨toyGS, kind, toyObs, 5, none, 1⟩ : Mc ℝ Unit) 0.01 k = .ok o := by
  intro kind hk k hv
  simp only [List.mem_cons, List.not_mem_nil, or_false] at hk
  rcases hk with rfl | rfl
  · have hv : k ∈ ["noshear", "1p", "1m", "2p", "2m", "1p_psf", "1m_psf", "2p_psf", "2m_psf"] := hv
    simp only [List.mem_cons, List.not_mem_nil, or_false] at hv
    rcases hv with rfl | rfl | rfl | rfl | rfl | rfl | rfl | rfl | rfl <;> exact ⟨_, rfl⟩
  · have hv : k ∈ ["noshear", "1p", "1m", "2p", "2m"] := hv
    simp only [List.mem_cons, List.not_mem_nil, or_false] at hv
    rcases hv with rfl | rfl | rfl | rfl | rfl <;> exact ⟨_, rfl⟩

/-- The hypotheses of `C57_retry_differs`. -/
example : freshPsf (⟨toyGSFail, .dilating 1 2, toyObs, 5, none, 1⟩ : Mc ℝ Unit) false 0.01 0 = .error .gmixRange := rfl

end

end Ngmix.Props
