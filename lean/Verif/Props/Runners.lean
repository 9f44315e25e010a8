import Verif.Model.Runners
import Verif.Spec.Runners
import Mathlib.Data.List.Basic
import Mathlib.Data.List.Forall2
import Mathlib.Tactic.Common

/-!
# Properties C35-C37: runners and bootstrapping
-/

namespace Ngmix.Props

open Ngmix Ngmix.Spec

variable {σ Guess R G : Type}

/-! ## C35 -/

theorem runLoop_outcome (ops : ResOps R G) (F : FitSetup σ Guess R) (obs : ℕ) (n : ℕ)
    (last : Option R) (w : World σ Guess) :
    RetryOutcome (attempt F obs) (fun r => ops.flags r = 0) (n + 1) w
      (runLoop ops F obs (n + 1) last w).1 (runLoop ops F obs (n + 1) last w).2 := by
  induction n generalizing last w with
  | zero =>
    refine ⟨0, by omega, fun _ => w, rfl, by omega, ?_, fun _ => rfl⟩
    unfold runLoop
    rcases h : attempt F obs w with ⟨w', r⟩
    cases r with
    | error e => rfl
    | ok r => simp only; split_ifs <;> rfl
  | succ n ih =>
    unfold runLoop
    rcases h : attempt F obs w with ⟨w', r⟩
    cases r with
    | error e =>
      refine ⟨0, by omega, fun _ => w, rfl, by omega, h, ?_⟩
      rintro ⟨r, hr, -⟩; exact absurd hr (by simp)
    | ok r =>
      simp only
      by_cases hs : ops.flags r = 0
      · rw [if_pos hs]
        refine ⟨0, by omega, fun _ => w, rfl, by omega, h, ?_⟩
        rintro ⟨r', hr, hns⟩
        injection hr with hr
        exact absurd (hr ▸ hs) hns
      · rw [if_neg hs]
        obtain ⟨k, hk, ws, h0, hfail, hlast, hend⟩ := ih (some r) w'
        refine ⟨k + 1, by omega, fun i => if i = 0 then w else ws (i - 1), rfl, ?_, ?_, ?_⟩
        · intro i hi
          rcases Nat.eq_zero_or_pos i with rfl | hpos
          · refine ⟨r, ?_, hs⟩
            simp [h0, h]
          · obtain ⟨r', hr', hns⟩ := hfail (i - 1) (by omega)
            refine ⟨r', ?_, hns⟩
            simp only [if_neg (show i ≠ 0 by omega), if_neg (show i + 1 ≠ 0 by omega)]
            rw [hr']
            congr 2
            omega
        · simpa using hlast
        · intro hh; have := hend hh; omega

/-- C35: for `ntry ≥ 1` `run_fitter` is a retry loop: it stops after the first success, returns the
first successful result if there is one among the first `ntry` attempts and otherwise the last
failing one, and an exception of the guesser or fitter propagates at once. -/
theorem C35_retry_semantics (ops : ResOps R G) (F : FitSetup σ Guess R) (obs : ℕ) (ntry : ℤ)
    (h : 1 ≤ ntry) (w : World σ Guess) :
    RetryOutcome (attempt F obs) (fun r => ops.flags r = 0) ntry.toNat w
      (runFitter ops F obs ntry w).1 (runFitter ops F obs ntry w).2 := by
  obtain ⟨n, hn⟩ : ∃ n : ℕ, ntry.toNat = n + 1 := ⟨ntry.toNat - 1, by omega⟩
  unfold runFitter
  rw [hn]
  exact runLoop_outcome ops F obs n none w

/-- C35 counterexample (code as it is): with `ntry <= 0` nothing is run and the function fails with
an unbound local variable instead of a result or a meaningful error. -/
theorem C35_ntry_nonpositive (ops : ResOps R G) (F : FitSetup σ Guess R) (obs : ℕ) (ntry : ℤ)
    (h : ntry ≤ 0) (w : World σ Guess) : runFitter ops F obs ntry w = (w, .error .unbound) := by
  have : ntry.toNat = 0 := by omega
  unfold runFitter; rw [this]; rfl

/-- Number of fitter calls in a log. -/
def fitCalls : List (Event Guess) → ℕ
  | [] => 0
  | .fit _ _ :: l => fitCalls l + 1
  | .guess _ _ :: l => fitCalls l

theorem fitCalls_append (a b : List (Event Guess)) : fitCalls (a ++ b) = fitCalls a + fitCalls b := by
  induction a with
  | nil => simp [fitCalls]
  | cons e a ih => cases e <;> simp [fitCalls, ih] <;> omega

/-- Spec: the log consists of fits of `obs`, each with a guess drawn immediately before it. -/
inductive FreshGuesses (obs : ℕ) : List (Event Guess) → Prop
  | nil : FreshGuesses obs []
  | cons (g : Guess) (l) : FreshGuesses obs l →
      FreshGuesses obs (.guess obs g :: .fit obs (some g) :: l)

/-- Spec: the log consists of fits of `obs` without guess. -/
def NoGuessFits (obs : ℕ) (l : List (Event Guess)) : Prop := ∀ e ∈ l, e = .fit obs none

theorem attempt_trace (F : FitSetup σ Guess R) (obs : ℕ) (w : World σ Guess) :
    ∃ l, (attempt F obs w).1.trace = w.trace ++ l ∧ fitCalls l ≤ 1 ∧
      (F.guesser ≠ none → FreshGuesses obs l) ∧ (F.guesser = none → NoGuessFits obs l) := by
  unfold attempt
  cases hg : F.guesser with
  | none =>
    refine ⟨[.fit obs none], rfl, by simp [fitCalls], by simp, fun _ => ?_⟩
    intro e he; simpa using he
  | some gs =>
    simp only
    rcases h : gs w.st obs with ⟨s1, g⟩
    cases g with
    | error e => exact ⟨[], by simp, by simp [fitCalls], fun _ => .nil, by simp⟩
    | ok g =>
      exact ⟨[.guess obs g, .fit obs (some g)], rfl, by simp [fitCalls],
        fun _ => .cons g [] .nil, by simp⟩

theorem FreshGuesses.append {obs : ℕ} {a b : List (Event Guess)} (ha : FreshGuesses obs a)
    (hb : FreshGuesses obs b) : FreshGuesses obs (a ++ b) := by
  induction ha with
  | nil => exact hb
  | cons g l _ ih => exact .cons g _ ih

theorem runLoop_trace (ops : ResOps R G) (F : FitSetup σ Guess R) (obs : ℕ) (n : ℕ)
    (last : Option R) (w : World σ Guess) :
    ∃ l, (runLoop ops F obs n last w).1.trace = w.trace ++ l ∧ fitCalls l ≤ n ∧
      (F.guesser ≠ none → FreshGuesses obs l) ∧ (F.guesser = none → NoGuessFits obs l) := by
  induction n generalizing last w with
  | zero =>
    cases last <;> exact ⟨[], by simp [runLoop], by simp [fitCalls], fun _ => .nil,
      fun _ => by intro e he; simp at he⟩
  | succ n ih =>
    obtain ⟨l, h1, h2, h3, h4⟩ := attempt_trace F obs w
    unfold runLoop
    rcases h : attempt F obs w with ⟨w', r⟩
    rw [h] at h1
    cases r with
    | error e => exact ⟨l, h1, by omega, h3, h4⟩
    | ok r =>
      simp only
      split_ifs
      · exact ⟨l, h1, by omega, h3, h4⟩
      · obtain ⟨l', g1, g2, g3, g4⟩ := ih (some r) w'
        refine ⟨l ++ l', ?_, ?_, fun hh => (h3 hh).append (g3 hh), fun hh e he => ?_⟩
        · rw [g1]; simp only at h1; rw [h1, List.append_assoc]
        · rw [fitCalls_append]; omega
        · rcases List.mem_append.1 he with he | he
          · exact h4 hh e he
          · exact g4 hh e he

/-- C35: at most `ntry` fitter calls are made, all on the given observation, and when there is a
guesser every single call gets a guess freshly drawn for it (none is reused). -/
theorem C35_calls (ops : ResOps R G) (F : FitSetup σ Guess R) (obs : ℕ) (ntry : ℤ)
    (w : World σ Guess) :
    ∃ l, (runFitter ops F obs ntry w).1.trace = w.trace ++ l ∧ (fitCalls l : ℤ) ≤ max ntry 0 ∧
      (F.guesser ≠ none → FreshGuesses obs l) ∧ (F.guesser = none → NoGuessFits obs l) := by
  obtain ⟨l, h1, h2, h3, h4⟩ := runLoop_trace ops F obs ntry.toNat none w
  exact ⟨l, h1, by omega, h3, h4⟩

/-! ## C36 -/

/-- Spec: the observation that is fit for `o`: its psf if it has one, otherwise itself. -/
def targetOf (h : Heap R G) (o : ℕ) : ℕ := (h.cell o).psf.getD o

/-- Spec: the result is a success that offers the mixture `g`. -/
def Yields (ops : ResOps R G) (r : R) (g : G) : Prop := ops.flags r = 0 ∧ ops.getGmix r = some (.ok g)

/-- Spec of one psf-runner step: the metadata dictionary of the target got result `r`; the target got `r`'s mixture
exactly when the fit succeeded and offers one; nothing else changed. -/
def StepHeap (ops : ResOps R G) (h h' : Heap R G) (t : ℕ) (r : R) : Prop :=
  (∀ d, d = (h.cell t).md → h'.entry d = some r) ∧ (∀ d, d ≠ (h.cell t).md → h'.entry d = h.entry d) ∧
  (∀ o, (h'.cell o).psf = (h.cell o).psf ∧ (h'.cell o).md = (h.cell o).md) ∧
  (∀ g, Yields ops r g → (h'.cell t).gmix = some g) ∧
  ((∀ g, ¬ Yields ops r g) → (h'.cell t).gmix = (h.cell t).gmix) ∧
  ∀ o, o ≠ t → h'.cell o = h.cell o

theorem setResult_step (h : Heap R G) (t : ℕ) (r : R) :
    (∀ d, d = (h.cell t).md → (h.setResult t r).entry d = some r) ∧
    (∀ d, d ≠ (h.cell t).md → (h.setResult t r).entry d = h.entry d) := by
  constructor
  · rintro d rfl; simp [Heap.setResult]
  · intro d hd; simp [Heap.setResult, hd]

theorem runPsfObs_step (ops : ResOps R G) (F : FitSetup σ Guess R) (ntry : ℤ) (o : ℕ)
    (s s' : World σ Guess × Heap R G) (r : R)
    (h : runPsfObs ops F ntry true o s = (s', .ok r)) :
    StepHeap ops s.2 s'.2 (targetOf s.2 o) r := by
  unfold runPsfObs at h
  change (match runFitter ops F (fitTarget s.2 o) ntry s.1 with
    | (w, .error e) => ((w, s.2), Except.error e)
    | (w, .ok r) => _) = _ at h
  rcases hr : runFitter ops F (fitTarget s.2 o) ntry s.1 with ⟨w, out⟩
  rw [hr] at h
  change StepHeap ops s.2 s'.2 (fitTarget s.2 o) r
  generalize fitTarget s.2 o = t at *
  cases out with
  | error e => simp at h
  | ok r' =>
    simp only [if_true] at h
    by_cases hf : ops.flags r' = 0
    · rw [if_pos hf] at h
      rcases hg : ops.getGmix r' with _ | e | g
      · rw [hg] at h
        injection h with h1 h2
        injection h2 with h2
        subst h2
        rw [← h1]
        refine ⟨(setResult_step _ _ _).1, (setResult_step _ _ _).2, fun _ => ⟨rfl, rfl⟩, ?_, fun _ => rfl, fun _ _ => rfl⟩
        rintro g' ⟨-, hg'⟩; rw [hg] at hg'; cases hg'
      · rw [hg] at h
        injection h with h1 h2
        cases h2
      · rw [hg] at h
        injection h with h1 h2
        injection h2 with h2
        subst h2
        rw [← h1]
        refine ⟨(setResult_step _ _ _).1, (setResult_step _ _ _).2, ?_, ?_, ?_, ?_⟩
        · intro o'
          by_cases ho : o' = t
          · subst ho; simp [Heap.setGmix, Heap.setResult]
          · simp [Heap.setGmix, Heap.setResult, ho]
        · rintro g' ⟨-, hg'⟩; rw [hg] at hg'; injection hg' with hg'; injection hg' with hg'
          simp [Heap.setGmix, ← hg']
        · intro hn; exact absurd ⟨hf, hg⟩ (hn g)
        · intro o' ho; simp [Heap.setGmix, Heap.setResult, ho]
    · rw [if_neg hf] at h
      injection h with h1 h2
      injection h2 with h2
      subst h2
      rw [← h1]
      exact ⟨(setResult_step _ _ _).1, (setResult_step _ _ _).2, fun _ => ⟨rfl, rfl⟩, fun _ hy => absurd hy.1 hf,
        fun _ => rfl, fun _ _ => rfl⟩

/-- Spec of a run over a list of observations, any of which may share psf observations or metadata dictionaries: one
result per observation in order; each target's metadata hold the result of the last fit made of an observation with
that dictionary; each target holds the mixture of the last of its fits that offers one; everything else is unchanged. -/
def ListHeap (ops : ResOps R G) (h h' : Heap R G) (obs : List ℕ) (rs : List R) : Prop :=
  rs.length = obs.length ∧
  (∀ (i o : ℕ) (r : R), obs[i]? = some o → rs[i]? = some r →
    (∀ (j o' : ℕ), i < j → obs[j]? = some o' → (h.cell (targetOf h o')).md ≠ (h.cell (targetOf h o)).md) →
    h'.result (targetOf h o) = some r) ∧
  (∀ (i o : ℕ) (r : R) (g : G), obs[i]? = some o → rs[i]? = some r → Yields ops r g →
    (∀ (j o' : ℕ) (r' : R), i < j → obs[j]? = some o' → rs[j]? = some r' → targetOf h o' = targetOf h o → ∀ g', ¬ Yields ops r' g') →
    (h'.cell (targetOf h o)).gmix = some g) ∧
  (∀ t, (∀ (i o : ℕ) (r : R), obs[i]? = some o → rs[i]? = some r → targetOf h o = t → ∀ g, ¬ Yields ops r g) →
    (h'.cell t).gmix = (h.cell t).gmix) ∧
  (∀ d, (∀ o ∈ obs, (h.cell (targetOf h o)).md ≠ d) → h'.entry d = h.entry d) ∧
  (∀ o ∈ obs, ∃ r ∈ rs, h'.result (targetOf h o) = some r) ∧
  (∀ o, (h'.cell o).psf = (h.cell o).psf ∧ (h'.cell o).md = (h.cell o).md)

theorem runPsfList_spec (ops : ResOps R G) (F : FitSetup σ Guess R) (ntry : ℤ) (obs : List ℕ) :
    ∀ (s s' : World σ Guess × Heap R G) (rs : List R),
    runPsfList ops F ntry true obs s = (s', .ok rs) → ListHeap ops s.2 s'.2 obs rs := by
  induction obs with
  | nil =>
    intro s s' rs h
    simp only [runPsfList] at h
    injection h with h1 h2
    injection h2 with h2
    subst h1 h2
    exact ⟨rfl, by intro i o r hi; simp at hi, by intro i o r g hi; simp at hi, fun _ _ => rfl, fun _ _ => rfl,
      by intro o ho; simp at ho, fun _ => ⟨rfl, rfl⟩⟩
  | cons o os ih =>
    intro s s' rs h
    unfold runPsfList at h
    rcases h1 : runPsfObs ops F ntry true o s with ⟨s1, out⟩
    rw [h1] at h
    cases out with
    | error e => simp at h
    | ok r =>
      simp only at h
      rcases h2 : runPsfList ops F ntry true os s1 with ⟨s2, out2⟩
      rw [h2] at h
      cases out2 with
      | error e => simp at h
      | ok rs' =>
        simp only at h
        injection h with e1 e2
        injection e2 with e2
        subst e1 e2
        obtain ⟨p1, p2, p3, p4, p5, p6⟩ := runPsfObs_step ops F ntry o s s1 r h1
        have ht : ∀ a, targetOf s1.2 a = targetOf s.2 a := fun a => by unfold targetOf; rw [(p3 a).1]
        obtain ⟨hlen, hres, hgm, hun, hent, hsome, hps⟩ := ih s1 s2 rs' h2
        simp only [ht] at hres hgm hun hent hsome
        have hmd : ∀ a, (s1.2.cell a).md = (s.2.cell a).md := fun a => (p3 a).2
        simp only [hmd] at hres hent
        have hmd2 : ∀ a, (s2.2.cell a).md = (s.2.cell a).md := fun a => (hps a).2.trans (hmd a)
        refine ⟨by simp [hlen], ?_, ?_, ?_, ?_, ?_, fun a => ⟨(hps a).1.trans (p3 a).1, hmd2 a⟩⟩
        · intro i a ra hi hi' hlater
          cases i with
          | zero =>
            simp only [List.getElem?_cons_zero, Option.some.injEq] at hi hi'
            subst hi hi'
            unfold Heap.result
            rw [hmd2, hent]
            · exact p1 _ rfl
            · intro o' ho'
              obtain ⟨j, hj⟩ := List.mem_iff_getElem?.mp ho'
              exact hlater (j + 1) o' (by omega) (by simpa using hj)
          | succ i =>
            simp only [List.getElem?_cons_succ] at hi hi'
            exact hres i a ra hi hi' fun j o' hj ho' => hlater (j + 1) o' (by omega) (by simpa using ho')
        · intro i a ra g hi hi' hy hlater
          cases i with
          | zero =>
            simp only [List.getElem?_cons_zero, Option.some.injEq] at hi hi'
            subst hi hi'
            rw [hun]
            · exact p4 g hy
            · intro j o' r' hj hj' heq
              exact hlater (j + 1) o' r' (by omega) (by simpa using hj) (by simpa using hj') heq
          | succ i =>
            simp only [List.getElem?_cons_succ] at hi hi'
            exact hgm i a ra g hi hi' hy fun j o' r' hj ho' hr' =>
              hlater (j + 1) o' r' (by omega) (by simpa using ho') (by simpa using hr')
        · intro t hno
          rw [hun t fun i o' r' hi hi' => hno (i + 1) o' r' (by simpa using hi) (by simpa using hi')]
          by_cases hto : t = targetOf s.2 o
          · rw [hto]
            exact p5 (hno 0 o r rfl rfl hto.symm)
          · rw [p6 t hto]
        · intro d hd
          rw [hent d fun o' ho' => hd o' (List.mem_cons_of_mem _ ho')]
          exact p2 d fun h => hd o List.mem_cons_self h.symm
        · intro a ha
          by_cases hlast : ∃ o' ∈ os, (s.2.cell (targetOf s.2 o')).md = (s.2.cell (targetOf s.2 a)).md
          · obtain ⟨o', ho', he⟩ := hlast
            obtain ⟨r', hr', hr''⟩ := hsome o' ho'
            refine ⟨r', List.mem_cons_of_mem _ hr', ?_⟩
            unfold Heap.result at hr'' ⊢
            rw [hmd2] at hr'' ⊢
            rw [← he]; exact hr''
          · rcases List.mem_cons.mp ha with rfl | ha
            · refine ⟨r, List.mem_cons_self, ?_⟩
              unfold Heap.result
              rw [hmd2, hent _ fun o' ho' he => hlast ⟨o', ho', he⟩]
              exact p1 _ rfl
            · exact absurd ⟨a, ha, rfl⟩ hlast

/-- C36: running the psf runner over an ObsList and returning normally: one result per observation in order, each
recorded in the metadata of its psf if it has one and in its own otherwise; a mixture is set exactly from the
successful fits that offer one, a failed fit leaves the mixture as it was, and nothing else is changed.  Of several
fits recorded in the same place the last one counts. -/
theorem C36_psf_runner_list (ops : ResOps R G) (F : FitSetup σ Guess R) (ntry : ℤ) (obs : List ℕ)
    (s s' : World σ Guess × Heap R G) (rs : List R)
    (h : runPsfFitter ops F ntry true (.list obs) s = (s', .ok (.list rs))) :
    ListHeap ops s.2 s'.2 obs rs := by
  unfold runPsfFitter at h
  simp only at h
  rcases hr : runPsfList ops F ntry true obs s with ⟨s1, out⟩
  rw [hr] at h
  cases out with
  | error e => simp [Except.map] at h
  | ok rs' =>
    simp [Except.map] at h
    rw [← h.1, ← h.2]
    exact runPsfList_spec ops F ntry obs s s1 rs' hr

theorem getElem?_inj_of_nodup_map {α β : Type} (f : α → β) : ∀ (l : List α), (l.map f).Nodup →
    ∀ (i j : ℕ) (a b : α), l[i]? = some a → l[j]? = some b → f a = f b → i = j := by
  intro l hl i j a b hi hj hf
  have h1 : (l.map f)[i]? = some (f a) := by rw [List.getElem?_map, hi]; rfl
  have h2 : (l.map f)[j]? = some (f a) := by rw [List.getElem?_map, hj, hf]; rfl
  obtain ⟨hi', h1⟩ := List.getElem?_eq_some_iff.mp h1
  obtain ⟨hj', h2⟩ := List.getElem?_eq_some_iff.mp h2
  exact (List.getElem_inj hl).mp (h1.trans h2.symm)

/-- C36: when the observations fit have different metadata dictionaries, as all new observations have, every single
fit is recorded where it belongs. -/
theorem C36_distinct (ops : ResOps R G) (h h' : Heap R G) (obs : List ℕ) (rs : List R)
    (hl : ListHeap ops h h' obs rs) (hnd : (obs.map fun o => (h.cell (targetOf h o)).md).Nodup)
    (i : ℕ) (o : ℕ) (r : R) (hi : obs[i]? = some o) (hi' : rs[i]? = some r) :
    h'.result (targetOf h o) = some r ∧
    (∀ g, Yields ops r g → (h'.cell (targetOf h o)).gmix = some g) ∧
    ((∀ g, ¬ Yields ops r g) → (h'.cell (targetOf h o)).gmix = (h.cell (targetOf h o)).gmix) := by
  obtain ⟨-, hres, hgm, hun, -, -, -⟩ := hl
  have hinj := getElem?_inj_of_nodup_map _ obs hnd
  refine ⟨hres i o r hi hi' fun j o' hj ho' he => ?_, fun g hy => hgm i o r g hi hi' hy fun j o' r' hj ho' _ he => ?_,
    fun hn => hun _ fun j o' r' ho' hr' he => ?_⟩
  · have := hinj j i o' o ho' hi he; omega
  · have := hinj j i o' o ho' hi (by rw [he]); omega
  · have := hinj j i o' o ho' hi (by rw [he])
    subst this
    rw [hi'] at hr'; injection hr' with hr'; subst hr'
    exact hn

/-- C36 (defect of the unchanged code): observations whose psfs share a metadata dictionary.  The result stored with
the first psf, whose fit failed, is the successful one of the second. -/
theorem C36_shared_metadata :
    ∃ (ops : ResOps ℕ ℕ) (F : FitSetup ℕ Unit ℕ) (s : World ℕ Unit × Heap ℕ ℕ),
      let x := runPsfFitter ops F 1 true (.list [0, 1]) s
      x.2 = .ok (.list [1, 0]) ∧ ops.flags 1 ≠ 0 ∧ (s.2.cell 0).psf = some 10 ∧ (s.2.cell 1).psf = some 11 ∧
      x.1.2.result 10 = some 0 := by
  refine ⟨⟨id, fun _ => none⟩, ⟨fun n _ _ => (n - 1, .ok n), none⟩,
    (⟨1, []⟩, ⟨fun o => ⟨if o < 10 then some (o + 10) else none, 7, none⟩, fun _ => none⟩), ?_⟩
  exact ⟨rfl, by decide, rfl, rfl, rfl⟩

/-- C36: when `get_gmix` of a successful result raises, the exception propagates, with the result already recorded. -/
theorem C36_get_gmix_raises (ops : ResOps R G) (F : FitSetup σ Guess R) (ntry : ℤ) (o : ℕ) (w w' : World σ Guess)
    (h : Heap R G) (r : R) (e : PyErr) (hr : runFitter ops F (targetOf h o) ntry w = (w', .ok r))
    (hf : ops.flags r = 0) (hg : ops.getGmix r = some (.error e)) :
    ∃ h', runPsfFitter ops F ntry true (.obs o) (w, h) = ((w', h'), .error e) ∧
      h'.result (targetOf h o) = some r ∧ h'.cell = h.cell := by
  have hr' : runFitter ops F (fitTarget h o) ntry w = (w', .ok r) := hr
  refine ⟨h.setResult (targetOf h o) r, ?_, ?_, rfl⟩
  · simp only [runPsfFitter, runPsfObs, hr', if_true, hf, hg]
    rfl
  · simp [Heap.result, Heap.setResult]

theorem runPsfList_append (ops : ResOps R G) (F : FitSetup σ Guess R) (ntry : ℤ) (sr : Bool)
    (a b : List ℕ) : ∀ (s : World σ Guess × Heap R G),
    runPsfList ops F ntry sr (a ++ b) s =
      match runPsfList ops F ntry sr a s with
      | (s', .error e) => (s', .error e)
      | (s', .ok ra) =>
          match runPsfList ops F ntry sr b s' with
          | (s'', .error e) => (s'', .error e)
          | (s'', .ok rb) => (s'', .ok (ra ++ rb)) := by
  induction a with
  | nil =>
    intro s
    simp only [List.nil_append, runPsfList]
    rcases runPsfList ops F ntry sr b s with ⟨s'', out⟩
    cases out <;> rfl
  | cons o os ih =>
    intro s
    simp only [List.cons_append, runPsfList]
    rcases runPsfObs ops F ntry sr o s with ⟨s1, out⟩
    cases out with
    | error e => rfl
    | ok r =>
      simp only [ih]
      rcases runPsfList ops F ntry sr os s1 with ⟨s2, out2⟩
      cases out2 with
      | error e => rfl
      | ok rs =>
        simp only
        rcases runPsfList ops F ntry sr b s2 with ⟨s3, out3⟩
        cases out3 <;> rfl

theorem runPsfMB_flatten (ops : ResOps R G) (F : FitSetup σ Guess R) (ntry : ℤ) (sr : Bool)
    (l : List (List ℕ)) : ∀ (s s' : World σ Guess × Heap R G) (rs : List (List R)),
    runPsfMB ops F ntry sr l s = (s', .ok rs) →
    runPsfList ops F ntry sr l.flatten s = (s', .ok rs.flatten) ∧
      rs.map List.length = l.map List.length := by
  induction l with
  | nil =>
    intro s s' rs h
    simp only [runPsfMB] at h
    injection h with h1 h2
    injection h2 with h2
    subst h1 h2
    exact ⟨rfl, rfl⟩
  | cons b bs ih =>
    intro s s' rs h
    unfold runPsfMB at h
    rcases h1 : runPsfList ops F ntry sr b s with ⟨s1, out⟩
    rw [h1] at h
    cases out with
    | error e => simp at h
    | ok rb =>
      simp only at h
      rcases h2 : runPsfMB ops F ntry sr bs s1 with ⟨s2, out2⟩
      rw [h2] at h
      cases out2 with
      | error e => simp at h
      | ok rs' =>
        simp only at h
        injection h with e1 e2
        injection e2 with e2
        subst e1 e2
        obtain ⟨g1, g2⟩ := ih s1 s2 rs' h2
        have hlen : rb.length = b.length := by
          clear h2 g1 g2 ih
          induction b generalizing s rb with
          | nil => simp only [runPsfList] at h1; injection h1 with _ h1; injection h1 with h1; rw [← h1]; rfl
          | cons o os ih2 =>
            unfold runPsfList at h1
            rcases h3 : runPsfObs ops F ntry sr o s with ⟨s3, out3⟩
            rw [h3] at h1
            cases out3 with
            | error e => simp at h1
            | ok r3 =>
              simp only at h1
              rcases h4 : runPsfList ops F ntry sr os s3 with ⟨s4, out4⟩
              rw [h4] at h1
              cases out4 with
              | error e => simp at h1
              | ok r4 =>
                simp only at h1
                injection h1 with e1 e2
                injection e2 with e2
                subst e1 e2
                simp [ih2 s3 r4 h4]
        refine ⟨?_, by simp [hlen, g2]⟩
        rw [List.flatten_cons, runPsfList_append, h1]
        simp only [g1, List.flatten_cons]

/-- C36: the same over a MultiBandObsList: the nesting of the results is that of the observations, and
flattened band by band they satisfy the ObsList statement. -/
theorem C36_psf_runner_multiband (ops : ResOps R G) (F : FitSetup σ Guess R) (ntry : ℤ)
    (bands : List (List ℕ)) (s s' : World σ Guess × Heap R G) (rs : List (List R))
    (h : runPsfFitter ops F ntry true (.mb bands) s = (s', .ok (.mb rs))) :
    rs.map List.length = bands.map List.length ∧ ListHeap ops s.2 s'.2 bands.flatten rs.flatten := by
  unfold runPsfFitter at h
  simp only at h
  rcases hr : runPsfMB ops F ntry true bands s with ⟨s1, out⟩
  rw [hr] at h
  cases out with
  | error e => simp [Except.map] at h
  | ok rs' =>
    simp [Except.map] at h
    rw [← h.1, ← h.2]
    obtain ⟨g1, g2⟩ := runPsfMB_flatten ops F ntry true bands s s1 rs' hr
    exact ⟨g2, runPsfList_spec ops F ntry _ s s1 _ g1⟩

/-- C36: a single Observation. -/
theorem C36_psf_runner_obs (ops : ResOps R G) (F : FitSetup σ Guess R) (ntry : ℤ) (o : ℕ)
    (s s' : World σ Guess × Heap R G) (r : R)
    (h : runPsfFitter ops F ntry true (.obs o) s = (s', .ok (.one r))) :
    StepHeap ops s.2 s'.2 (targetOf s.2 o) r := by
  unfold runPsfFitter at h
  simp only at h
  rcases hr : runPsfObs ops F ntry true o s with ⟨s1, out⟩
  rw [hr] at h
  cases out with
  | error e => simp [Except.map] at h
  | ok r' =>
    simp [Except.map] at h
    rw [← h.1, ← h.2]
    exact runPsfObs_step ops F ntry o s s1 r' hr

theorem runPsfObs_noset (ops : ResOps R G) (F : FitSetup σ Guess R) (ntry : ℤ) (o : ℕ)
    (s : World σ Guess × Heap R G) : (runPsfObs ops F ntry false o s).1.2 = s.2 := by
  unfold runPsfObs
  simp only
  rcases runFitter ops F (fitTarget s.2 o) ntry s.1 with ⟨w, out⟩
  cases out <;> simp

theorem runPsfList_noset (ops : ResOps R G) (F : FitSetup σ Guess R) (ntry : ℤ) (l : List ℕ) :
    ∀ s : World σ Guess × Heap R G, (runPsfList ops F ntry false l s).1.2 = s.2 := by
  induction l with
  | nil => intro s; rfl
  | cons o os ih =>
    intro s
    have h1 := runPsfObs_noset ops F ntry o s
    unfold runPsfList
    rcases hr : runPsfObs ops F ntry false o s with ⟨s1, out⟩
    rw [hr] at h1
    cases out with
    | error e => exact h1
    | ok r =>
      simp only
      have h2 := ih s1
      rcases hr2 : runPsfList ops F ntry false os s1 with ⟨s2, out2⟩
      rw [hr2] at h2
      cases out2 <;> exact h2.trans h1

/-- C36: with `set_result=False` no observation is touched, whatever happens. -/
theorem C36_no_set_result (ops : ResOps R G) (F : FitSetup σ Guess R) (ntry : ℤ) (arg : ObsArg)
    (s : World σ Guess × Heap R G) : (runPsfFitter ops F ntry false arg s).1.2 = s.2 := by
  cases arg with
  | obs o => exact runPsfObs_noset ops F ntry o s
  | list l => exact runPsfList_noset ops F ntry l s
  | other => rfl
  | mb l =>
    unfold runPsfFitter
    simp only
    induction l generalizing s with
    | nil => rfl
    | cons b bs ih =>
      have h1 := runPsfList_noset ops F ntry b s
      unfold runPsfMB
      rcases hr : runPsfList ops F ntry false b s with ⟨s1, out⟩
      rw [hr] at h1
      cases out with
      | error e => exact h1
      | ok r =>
        simp only
        have h2 := ih s1
        rcases hr2 : runPsfMB ops F ntry false bs s1 with ⟨s2, out2⟩
        rw [hr2] at h2
        cases out2 <;> exact h2.trans h1

/-- C36: anything but the three observation types is a `ValueError` without side effects. -/
theorem C36_wrong_type (ops : ResOps R G) (F : FitSetup σ Guess R) (ntry : ℤ) (sr : Bool)
    (s : World σ Guess × Heap R G) :
    runPsfFitter ops F ntry sr .other s = (s, .error .value) := rfl

/-- C36 counterexample (code as it is): "has a gmix" does not imply "the recorded result succeeded":
a failed refit of an observation that already had a mixture leaves the old mixture beside the failing
result. -/
theorem C36_stale_gmix_after_failure :
    ∃ (ops : ResOps ℕ ℕ) (F : FitSetup Unit Unit ℕ) (s : World Unit Unit × Heap ℕ ℕ),
      let x := runPsfFitter ops F 1 true (.obs 0) s
      x.2 = .ok (.one 5) ∧ x.1.2.result 0 = some 5 ∧ ops.flags 5 ≠ 0 ∧ (x.1.2.cell 0).gmix = some 7 := by
  refine ⟨⟨id, fun _ => some (.ok 3)⟩, ⟨fun u _ _ => (u, .ok 5), none⟩,
    (⟨(), []⟩, ⟨fun _ => ⟨none, 0, some 7⟩, fun _ => some 0⟩), ?_⟩
  refine ⟨rfl, rfl, by decide, rfl⟩

/-- Concrete run: two observations, the first with a psf; first fit succeeds, second fails. -/
example : ∃ (ops : ResOps ℕ ℕ) (F : FitSetup ℕ Unit ℕ) (s s' : World ℕ Unit × Heap ℕ ℕ),
    runPsfFitter ops F 1 true (.list [0, 1]) s = (s', .ok (.list [0, 1])) ∧
    (([0, 1] : List ℕ).map (fun o => (s.2.cell (targetOf s.2 o)).md)).Nodup :=
  ⟨⟨id, fun _ => some (.ok 3)⟩, ⟨fun n _ _ => (n + 1, .ok n), none⟩,
    (⟨0, []⟩, ⟨fun o => ⟨if o = 0 then some 9 else none, o, none⟩, fun _ => none⟩), _, rfl, by decide⟩

/-! ## C37 -/

/-- Spec: every observation has a psf with a recorded result. -/
def AllFitted (h : Heap R G) (l : List ℕ) : Prop :=
  ∀ o ∈ l, ∃ p r, (h.cell o).psf = some p ∧ h.result p = some r

/-- Spec: the psf fit of the observation succeeded. -/
def GoodPsf (ops : ResOps R G) (h : Heap R G) (o : ℕ) : Prop :=
  ∃ p r, (h.cell o).psf = some p ∧ h.result p = some r ∧ ops.flags r = 0

open Classical in
theorem keepGood_eq (ops : ResOps R G) (h : Heap R G) (l : List ℕ) (hl : AllFitted h l) :
    keepGood ops h l = .ok (l.filter (fun o => decide (GoodPsf ops h o))) := by
  induction l with
  | nil => rfl
  | cons o os ih =>
    obtain ⟨p, r, hp, hr⟩ := hl o (by simp)
    have hok : psfOk ops h o = .ok (decide (ops.flags r = 0)) := by
      simp [psfOk, hp, hr]
    have hgood : GoodPsf ops h o ↔ ops.flags r = 0 := by
      constructor
      · rintro ⟨p', r', hp', hr', hf⟩
        rw [hp] at hp'; injection hp' with hp'; subst hp'
        rw [hr] at hr'; injection hr' with hr'; subst hr'
        exact hf
      · intro hf; exact ⟨p, r, hp, hr, hf⟩
    unfold keepGood
    rw [hok, ih (fun a ha => hl a (by simp [ha]))]
    simp only [Except.bind, List.filter_cons, hgood]

open Classical in
/-- C37: on an ObsList the result is exactly the sublist of observations whose psf fit succeeded, in
order, and `BootPSFFailure` is raised exactly when there is none. -/
theorem C37_list (ops : ResOps R G) (h : Heap R G) (l : List ℕ) (hl : AllFitted h l) :
    ((∃ o ∈ l, GoodPsf ops h o) →
      removeFailed ops h (.list l) = .ok (.list (l.filter fun o => decide (GoodPsf ops h o)))) ∧
    ((¬ ∃ o ∈ l, GoodPsf ops h o) → removeFailed ops h (.list l) = .error .bootPSF) := by
  simp only [removeFailed, removeFailedList]
  rw [keepGood_eq ops h l hl]
  simp only [Except.bind]
  constructor
  · rintro ⟨o, ho, hg⟩
    rw [if_neg]
    · rfl
    · intro h0
      have hm : o ∈ l.filter (fun o => decide (GoodPsf ops h o)) := List.mem_filter.2 ⟨ho, by simpa using hg⟩
      rw [List.length_eq_zero_iff.1 h0] at hm
      simp at hm
  · intro hno
    rw [if_pos]
    · rfl
    · rw [List.length_eq_zero_iff, List.filter_eq_nil_iff]
      intro a ha; simpa using fun hg => hno ⟨a, ha, hg⟩

open Classical in
/-- C37: on a MultiBandObsList every band is filtered in order, no band disappears, and
`BootPSFFailure` is raised exactly when some band has no good psf. -/
theorem C37_multiband (ops : ResOps R G) (h : Heap R G) (bands : List (List ℕ))
    (hl : ∀ b ∈ bands, AllFitted h b) :
    ((∀ b ∈ bands, ∃ o ∈ b, GoodPsf ops h o) →
      removeFailed ops h (.mb bands)
        = .ok (.mb (bands.map fun b => b.filter fun o => decide (GoodPsf ops h o)))) ∧
    ((∃ b ∈ bands, ∀ o ∈ b, ¬ GoodPsf ops h o) →
      removeFailed ops h (.mb bands) = .error .bootPSF) := by
  have key : ∀ bands : List (List ℕ), (∀ b ∈ bands, AllFitted h b) →
      ((∀ b ∈ bands, ∃ o ∈ b, GoodPsf ops h o) →
        removeFailedMB ops h bands = .ok (bands.map fun b => b.filter fun o => decide (GoodPsf ops h o))) ∧
      ((∃ b ∈ bands, ∀ o ∈ b, ¬ GoodPsf ops h o) → removeFailedMB ops h bands = .error .bootPSF) := by
    intro bands
    induction bands with
    | nil => intro _; exact ⟨fun _ => rfl, by simp⟩
    | cons b bs ih =>
      intro hl
      have hlist := C37_list ops h b (hl b (by simp))
      have ih' := ih (fun c hc => hl c (by simp [hc]))
      have conv : removeFailed ops h (.list b) = (removeFailedList ops h b).map .list := rfl
      constructor
      · intro hall
        have h1 := hlist.1 (hall b (by simp))
        rw [conv] at h1
        have h1' : removeFailedList ops h b = .ok (b.filter fun o => decide (GoodPsf ops h o)) := by
          cases hx : removeFailedList ops h b with
          | error e => rw [hx] at h1; simp [Except.map] at h1
          | ok y => rw [hx] at h1; simp [Except.map] at h1; rw [h1]
        unfold removeFailedMB
        rw [h1', ih'.1 (fun c hc => hall c (by simp [hc]))]
        rfl
      · rintro ⟨c, hc, hbad⟩
        by_cases hb : ∃ o ∈ b, GoodPsf ops h o
        · have hcb : c ∈ bs := by
            rcases List.mem_cons.1 hc with rfl | hc
            · obtain ⟨o, ho, hg⟩ := hb; exact absurd hg (hbad o ho)
            · exact hc
          have h1 := hlist.1 hb
          rw [conv] at h1
          unfold removeFailedMB
          cases hx : removeFailedList ops h b with
          | error e => rw [hx] at h1; simp [Except.map] at h1
          | ok y => simp only [Except.bind]; rw [ih'.2 ⟨c, hcb, hbad⟩]
        · have h1 := hlist.2 hb
          rw [conv] at h1
          unfold removeFailedMB
          cases hx : removeFailedList ops h b with
          | error e => rw [hx] at h1; simp [Except.map] at h1; rw [h1]; rfl
          | ok y => rw [hx] at h1; simp [Except.map] at h1
  constructor
  · intro hh; simp only [removeFailed]; rw [(key bands hl).1 hh]; rfl
  · intro hh; simp only [removeFailed]; rw [(key bands hl).2 hh]; rfl

/-- C37: a single observation is returned as it is, or `BootPSFFailure` is raised. -/
theorem C37_single (ops : ResOps R G) (h : Heap R G) (o : ℕ) (hl : AllFitted h [o]) :
    (GoodPsf ops h o → removeFailed ops h (.obs o) = .ok (.obs o)) ∧
    (¬ GoodPsf ops h o → removeFailed ops h (.obs o) = .error .bootPSF) := by
  obtain ⟨p, r, hp, hr⟩ := hl o (by simp)
  have hok : psfOk ops h o = .ok (decide (ops.flags r = 0)) := by simp [psfOk, hp, hr]
  simp only [removeFailed]
  rw [hok]
  constructor
  · rintro ⟨p', r', hp', hr', hf⟩
    rw [hp] at hp'; injection hp' with hp'; subst hp'
    rw [hr] at hr'; injection hr' with hr'; subst hr'
    simp [Except.bind, hf]
  · intro hn
    have hf : ops.flags r ≠ 0 := fun hf => hn ⟨p, r, hp, hr, hf⟩
    simp [Except.bind, hf]

/-- C37: an observation without a psf is an `AttributeError`, one whose psf was never fit a `KeyError`, and anything that
is not an observation or a list of observations a `ValueError`. -/
theorem C37_unfitted (ops : ResOps R G) (h : Heap R G) (o : ℕ) :
    ((h.cell o).psf = none → removeFailed ops h (.obs o) = .error .attribute) ∧
    (∀ p, (h.cell o).psf = some p → h.result p = none → removeFailed ops h (.obs o) = .error .key) ∧
    removeFailed ops h .other = .error .value := by
  refine ⟨?_, ?_, rfl⟩
  · intro hp; simp [removeFailed, psfOk, hp, Except.bind]
  · intro p hp hr; simp [removeFailed, psfOk, hp, hr, Except.bind]

/-- C37: the same in a list, at the first observation of that kind, whatever follows it; and in a list of bands, when
each band before it keeps an observation. -/
theorem C37_unfitted_in_list (ops : ResOps R G) (h : Heap R G) (before after : List ℕ) (o : ℕ)
    (hb : AllFitted h before) (e : PyErr)
    (ho : (e = .attribute ∧ (h.cell o).psf = none) ∨ (e = .key ∧ ∃ p, (h.cell o).psf = some p ∧ h.result p = none)) :
    removeFailed ops h (.list (before ++ o :: after)) = .error e ∧
    ∀ bands rest : List (List ℕ), (∀ b ∈ bands, AllFitted h b ∧ ∃ o ∈ b, GoodPsf ops h o) →
      removeFailed ops h (.mb (bands ++ (before ++ o :: after) :: rest)) = .error e := by
  have hok : psfOk ops h o = .error e := by
    rcases ho with ⟨rfl, hp⟩ | ⟨rfl, p, hp, hr⟩
    · simp [psfOk, hp]
    · simp [psfOk, hp, hr]
  have hk : keepGood ops h (before ++ o :: after) = .error e := by
    clear ho
    induction before with
    | nil => simp [keepGood, hok, Except.bind]
    | cons a t ih =>
      obtain ⟨p, r, hp, hr⟩ := hb a (by simp)
      have ih := ih fun x hx => hb x (by simp [hx])
      simp only [List.cons_append, keepGood, ih]
      simp [psfOk, hp, hr, Except.bind]
  have hl : removeFailedList ops h (before ++ o :: after) = .error e := by
    simp [removeFailedList, hk, Except.bind]
  refine ⟨by simp [removeFailed, hl, Except.map], fun bands rest hbs => ?_⟩
  have key : removeFailedMB ops h (bands ++ (before ++ o :: after) :: rest) = .error e := by
    induction bands with
    | nil => simp [removeFailedMB, hl, Except.bind]
    | cons b t ih =>
      have ih := ih fun x hx => hbs x (by simp [hx])
      obtain ⟨hf, hg⟩ := hbs b (by simp)
      have h1 := (C37_list ops h b hf).1 hg
      cases hx : removeFailedList ops h b with
      | error e' => simp [removeFailed, hx, Except.map] at h1
      | ok g => simp [removeFailedMB, hx, ih, Except.bind]
  simp [removeFailed, key, Except.map]

open Classical in
/-- C37: `bootstrap` with a psf runner calls the object runner exactly once, with exactly the
observations whose psf fit succeeded; if none succeeded it is never called and `BootPSFFailure` is
raised. -/
theorem C37_bootstrap_list (ops : ResOps R G) (F : FitSetup σ Guess R) (ntry : ℤ)
    {Out : Type} (runner : World σ Guess × Heap R G → ObsArg → (World σ Guess × Heap R G) × Except PyErr Out)
    (obs : List ℕ) (s s' : World σ Guess × Heap R G) (rs : List R)
    (hpsf : ∀ o ∈ obs, (s.2.cell o).psf ≠ none)
    (h : runPsfFitter ops F ntry true (.list obs) s = (s', .ok (.list rs))) :
    let good := obs.filter fun o => decide (GoodPsf ops s'.2 o)
    let b := bootstrap ops (some (F, ntry, true)) true runner (.list obs) s
    (good ≠ [] → b = ((runner s' (.list good)).1, [.list good], (runner s' (.list good)).2)) ∧
    (good = [] → b = (s', [], .error .bootPSF)) := by
  intro good b
  have hl := C36_psf_runner_list ops F ntry obs s s' rs h
  have hfit : AllFitted s'.2 obs := by
    intro o ho
    obtain ⟨p, hp⟩ := Option.ne_none_iff_exists'.1 (hpsf _ ho)
    obtain ⟨r, -, hr⟩ := hl.2.2.2.2.2.1 o ho
    have ht : targetOf s.2 o = p := by unfold targetOf; rw [hp]; rfl
    rw [ht] at hr
    exact ⟨p, r, by rw [(hl.2.2.2.2.2.2 o).1, hp], hr⟩
  have hc := C37_list ops s'.2 obs hfit
  constructor
  · intro hne
    have : ∃ o ∈ obs, GoodPsf ops s'.2 o := by
      obtain ⟨o, ho⟩ := List.exists_mem_of_ne_nil _ hne
      have := List.mem_filter.1 ho
      exact ⟨o, this.1, by simpa using this.2⟩
    simp only [b, bootstrap, h, hc.1 this, if_true]
    rfl
  · intro he
    have : ¬ ∃ o ∈ obs, GoodPsf ops s'.2 o := by
      rintro ⟨o, ho, hg⟩
      have hm : o ∈ good := List.mem_filter.2 ⟨ho, by simpa using hg⟩
      rw [he] at hm; simp at hm
    simp only [b, bootstrap, h, hc.2 this, if_true]

open Classical in
/-- C37: the same with several bands: the runner gets every band with exactly the observations whose psf
fit succeeded; if a band has none it is never called and `BootPSFFailure` is raised. -/
theorem C37_bootstrap_multiband (ops : ResOps R G) (F : FitSetup σ Guess R) (ntry : ℤ)
    {Out : Type} (runner : World σ Guess × Heap R G → ObsArg → (World σ Guess × Heap R G) × Except PyErr Out)
    (bands : List (List ℕ)) (s s' : World σ Guess × Heap R G) (rs : List (List R))
    (hpsf : ∀ b ∈ bands, ∀ o ∈ b, (s.2.cell o).psf ≠ none)
    (h : runPsfFitter ops F ntry true (.mb bands) s = (s', .ok (.mb rs))) :
    let good := bands.map fun b => b.filter fun o => decide (GoodPsf ops s'.2 o)
    let b := bootstrap ops (some (F, ntry, true)) true runner (.mb bands) s
    ([] ∉ good → b = ((runner s' (.mb good)).1, [.mb good], (runner s' (.mb good)).2)) ∧
    ([] ∈ good → b = (s', [], .error .bootPSF)) := by
  intro good b
  have hl := (C36_psf_runner_multiband ops F ntry bands s s' rs h).2
  have hfit : ∀ b ∈ bands, AllFitted s'.2 b := by
    intro b hb o ho
    obtain ⟨p, hp⟩ := Option.ne_none_iff_exists'.1 (hpsf b hb o ho)
    obtain ⟨r, -, hr⟩ := hl.2.2.2.2.2.1 o (List.mem_flatten.2 ⟨b, hb, ho⟩)
    have ht : targetOf s.2 o = p := by unfold targetOf; rw [hp]; rfl
    rw [ht] at hr
    exact ⟨p, r, by rw [(hl.2.2.2.2.2.2 o).1, hp], hr⟩
  have hc := C37_multiband ops s'.2 bands hfit
  constructor
  · intro hne
    have : ∀ b ∈ bands, ∃ o ∈ b, GoodPsf ops s'.2 o := by
      intro b hb
      have h1 : (b.filter fun o => decide (GoodPsf ops s'.2 o)) ≠ [] := fun e =>
        hne (List.mem_map.2 ⟨b, hb, e⟩)
      obtain ⟨o, ho⟩ := List.exists_mem_of_ne_nil _ h1
      have := List.mem_filter.1 ho
      exact ⟨o, this.1, by simpa using this.2⟩
    simp only [b, bootstrap, h, hc.1 this, if_true]
    rfl
  · intro he
    obtain ⟨c, hcm, hce⟩ := List.mem_map.1 he
    have : ∃ b ∈ bands, ∀ o ∈ b, ¬ GoodPsf ops s'.2 o := by
      refine ⟨c, hcm, fun o ho hg => ?_⟩
      have hm : o ∈ c.filter fun o => decide (GoodPsf ops s'.2 o) :=
        List.mem_filter.2 ⟨ho, by simpa using hg⟩
      rw [hce] at hm
      simp at hm
    simp only [b, bootstrap, h, hc.2 this, if_true]

/-- C37: the same with a single observation. -/
theorem C37_bootstrap_single (ops : ResOps R G) (F : FitSetup σ Guess R) (ntry : ℤ)
    {Out : Type} (runner : World σ Guess × Heap R G → ObsArg → (World σ Guess × Heap R G) × Except PyErr Out)
    (o : ℕ) (s s' : World σ Guess × Heap R G) (r : R) (hp : (s.2.cell o).psf ≠ none)
    (h : runPsfFitter ops F ntry true (.obs o) s = (s', .ok (.one r))) :
    let b := bootstrap ops (some (F, ntry, true)) true runner (.obs o) s
    (ops.flags r = 0 → b = ((runner s' (.obs o)).1, [.obs o], (runner s' (.obs o)).2)) ∧
    (ops.flags r ≠ 0 → b = (s', [], .error .bootPSF)) := by
  intro b
  have hs := C36_psf_runner_obs ops F ntry o s s' r h
  obtain ⟨p, hp⟩ := Option.ne_none_iff_exists'.1 hp
  have ht : targetOf s.2 o = p := by unfold targetOf; rw [hp]; rfl
  have hp' : (s'.2.cell o).psf = some p := by rw [(hs.2.2.1 o).1, hp]
  have hr : s'.2.result p = some r := by
    rw [← ht]; exact hs.1 _ (hs.2.2.1 _).2
  have hc := C37_single ops s'.2 o (by intro x hx; rw [List.mem_singleton] at hx; subst hx; exact ⟨p, r, hp', hr⟩)
  have hgood : GoodPsf ops s'.2 o ↔ ops.flags r = 0 := by
    constructor
    · rintro ⟨p1, r1, h1, h2, h3⟩
      rw [hp'] at h1; cases h1
      rw [hr] at h2; cases h2
      exact h3
    · intro h0
      exact ⟨p, r, hp', hr, h0⟩
  constructor
  · intro h0
    simp only [b, bootstrap, h, hc.1 (hgood.2 h0), if_true]
  · intro h0
    simp only [b, bootstrap, h, hc.2 (fun hg => h0 (hgood.1 hg)), if_true]

/-- C37: with `ignore_failed_psf=False` the object runner is called exactly once, after the psf fits, with the
observations as they were sent; an error of the psf runner is raised in both cases and the object runner is not called;
without psf runner the object runner is called at once. -/
theorem C37_bootstrap_keep_all (ops : ResOps R G) (F : FitSetup σ Guess R) (ntry : ℤ) (setResult : Bool)
    {Out : Type} (runner : World σ Guess × Heap R G → ObsArg → (World σ Guess × Heap R G) × Except PyErr Out)
    (arg : ObsArg) (s s' : World σ Guess × Heap R G) :
    (∀ res, runPsfFitter ops F ntry setResult arg s = (s', .ok res) →
      bootstrap ops (some (F, ntry, setResult)) false runner arg s = ((runner s' arg).1, [arg], (runner s' arg).2)) ∧
    (∀ e ignore, runPsfFitter ops F ntry setResult arg s = (s', .error e) →
      bootstrap ops (some (F, ntry, setResult)) ignore runner arg s = (s', [], .error e)) ∧
    ∀ ignore, bootstrap ops (none : Option (FitSetup σ Guess R × ℤ × Bool)) ignore runner arg s =
      ((runner s arg).1, [arg], (runner s arg).2) := by
  refine ⟨fun res h => ?_, fun e ignore h => ?_, fun ignore => rfl⟩
  · simp only [bootstrap, h, Bool.false_eq_true, if_false]
  · simp only [bootstrap, h]

/-- C37 counterexample (code as it is): observations that are their own psf (no `psf` attribute), which
the psf runner supports, can never be bootstrapped with `ignore_failed_psf=True`: after successful fits
`AttributeError` is raised. -/
theorem C37_bootstrap_without_psf (ops : ResOps R G) (F : FitSetup σ Guess R) (ntry : ℤ)
    {Out : Type} (runner : World σ Guess × Heap R G → ObsArg → (World σ Guess × Heap R G) × Except PyErr Out)
    (o : ℕ) (s s' : World σ Guess × Heap R G) (r : R) (hp : (s.2.cell o).psf = none)
    (h : runPsfFitter ops F ntry true (.obs o) s = (s', .ok (.one r))) :
    bootstrap ops (some (F, ntry, true)) true runner (.obs o) s = (s', [], .error .attribute) := by
  have hs := C36_psf_runner_obs ops F ntry o s s' r h
  have hp' : (s'.2.cell o).psf = none := by rw [(hs.2.2.1 o).1, hp]
  simp only [bootstrap, h, if_true, (C37_unfitted ops s'.2 o).1 hp']

/-- C37: when the psfs have different metadata dictionaries, an observation is kept exactly if its own fit succeeded. -/
theorem C37_kept_own_fit (ops : ResOps R G) (F : FitSetup σ Guess R) (ntry : ℤ) (obs : List ℕ)
    (s s' : World σ Guess × Heap R G) (rs : List R) (hpsf : ∀ o ∈ obs, (s.2.cell o).psf ≠ none)
    (hnd : (obs.map fun o => (s.2.cell (targetOf s.2 o)).md).Nodup)
    (h : runPsfFitter ops F ntry true (.list obs) s = (s', .ok (.list rs)))
    (i : ℕ) (o : ℕ) (r : R) (hi : obs[i]? = some o) (hi' : rs[i]? = some r) :
    GoodPsf ops s'.2 o ↔ ops.flags r = 0 := by
  have hl := C36_psf_runner_list ops F ntry obs s s' rs h
  have hr := (C36_distinct ops s.2 s'.2 obs rs hl hnd i o r hi hi').1
  obtain ⟨p, hp⟩ := Option.ne_none_iff_exists'.1 (hpsf _ (List.mem_of_getElem? hi))
  have ht : targetOf s.2 o = p := by unfold targetOf; rw [hp]; rfl
  rw [ht] at hr
  have hp' : (s'.2.cell o).psf = some p := by rw [(hl.2.2.2.2.2.2 o).1, hp]
  constructor
  · rintro ⟨q, r', hq, hr', hf⟩
    rw [hp'] at hq; injection hq with hq; subst hq
    rw [hr] at hr'; injection hr' with hr'; subst hr'
    exact hf
  · intro hf; exact ⟨p, r, hp', hr, hf⟩

/-- C37 (defect of the unchanged code): observations whose psfs share a metadata dictionary: the observation whose psf
fit failed is fit together with the other one. -/
theorem C37_shared_metadata :
    ∃ (ops : ResOps ℕ ℕ) (F : FitSetup ℕ Unit ℕ) (s : World ℕ Unit × Heap ℕ ℕ),
      (∀ o ∈ [0, 1], (s.2.cell o).psf ≠ none) ∧ (s.2.cell 0).psf ≠ (s.2.cell 1).psf ∧
      (runPsfFitter ops F 1 true (.list [0, 1]) s).2 = .ok (.list [1, 0]) ∧ ops.flags 1 ≠ 0 ∧
      (bootstrap ops (some (F, 1, true)) true (fun s _ => (s, .ok ())) (.list [0, 1]) s).2 = ([.list [0, 1]], .ok ()) := by
  refine ⟨⟨id, fun _ => none⟩, ⟨fun n _ _ => (n - 1, .ok n), none⟩,
    (⟨1, []⟩, ⟨fun o => ⟨if o < 10 then some (o + 10) else none, 7, none⟩, fun _ => none⟩), ?_, ?_, rfl, by decide, rfl⟩
  · intro o ho; simp at ho; rcases ho with rfl | rfl <;> decide
  · decide

/-- Concrete heap: observation 0 has a good psf 10, observation 1 a failed psf 11. -/
example : ∃ (ops : ResOps ℕ ℕ) (h : Heap ℕ ℕ), AllFitted h [0, 1] ∧ GoodPsf ops h 0 ∧
    ¬ GoodPsf ops h 1 := by
  refine ⟨⟨id, fun _ => none⟩, ⟨fun o => ⟨if o < 10 then some (o + 10) else none, o, none⟩,
    fun d => if d = 10 then some 0 else some 4⟩, ?_, ?_, ?_⟩
  · intro o ho
    simp at ho
    rcases ho with rfl | rfl
    · exact ⟨10, 0, rfl, rfl⟩
    · exact ⟨11, 4, rfl, rfl⟩
  · exact ⟨10, 0, rfl, rfl, rfl⟩
  · rintro ⟨p, r, hp, hr, hf⟩
    simp at hp
    subst hp
    simp [Heap.result] at hr
    subst hr
    simp at hf

end Ngmix.Props
