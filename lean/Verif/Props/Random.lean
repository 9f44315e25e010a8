import Verif.Model.Random
import Mathlib.Tactic.Linarith
import Mathlib.Tactic.NormNum

/-!
# Property C91: generators of priors, uniform deviates, and samples of a KDE
-/

namespace Ngmix.Props

open Ngmix

variable {σ γ : Type}

/-- The stream of deviates that starts in a state: element `k`. -/
def streamAt (np : NPRandom σ γ) (s : σ) : ℕ → ℝ
  | 0 => (np.next s).1
  | k + 1 => streamAt np (np.next s).2 k

/-- The state of a stream after `k` deviates. -/
def stateAt (np : NPRandom σ γ) (s : σ) : ℕ → σ
  | 0 => s
  | k + 1 => stateAt np (np.next s).2 k

theorem stateAt_succ (np : NPRandom σ γ) (k : ℕ) : ∀ s, stateAt np s (k + 1) = (np.next (stateAt np s k)).2 := by
  induction k with
  | zero => intro s; rfl
  | succ k ih => intro s; exact ih _

theorem streamAt_eq (np : NPRandom σ γ) (k : ℕ) : ∀ s, streamAt np s k = (np.next (stateAt np s k)).1 := by
  induction k with
  | zero => intro s; rfl
  | succ k ih => intro s; exact ih _

/-- Number of draws from a generator. -/
def drawsOf (a : ℕ) (ops : List RngOp) : ℕ := (ops.filter fun op => match op with | .draw b => b == a | _ => false).length

theorem rng_history (np : NPRandom σ γ) (a : ℕ) : ∀ (ops : List RngOp) (w : RngWorld σ γ) (s : σ),
    w.rngs[a]? = some s → (ops.foldl (rngStep np) w).rngs[a]? = some (stateAt np s (drawsOf a ops)) := by
  intro ops
  induction ops with
  | nil => intro w s h; simpa [drawsOf, stateAt] using h
  | cons op ops ih =>
    intro w s h
    have hlt : a < w.rngs.length := by
      by_contra hc
      rw [List.getElem?_eq_none (by omega)] at h
      cases h
    rw [List.foldl_cons]
    cases op with
    | make b =>
      have h' : (rngStep np w (.make b)).rngs[a]? = some s := by
        cases b with
        | some b => simpa [rngStep, makeRng] using h
        | none => simp only [rngStep, makeRng]; rw [List.getElem?_append_left hlt, h]
      rw [ih _ _ h']
      simp [drawsOf]
    | prior b =>
      have h' : (rngStep np w (.prior b)).rngs[a]? = some s := by
        cases b <;> simpa [rngStep, priorRng, makeRng] using h
      rw [ih _ _ h']
      simp [drawsOf]
    | draw b =>
      by_cases hb : b = a
      · subst hb
        have h' : (rngStep np w (.draw b)).rngs[b]? = some (np.next s).2 := by
          simp only [rngStep, rngNext, h]
          rw [List.getElem?_set_self hlt]
        rw [ih _ _ h']
        simp [drawsOf, stateAt]
      · have h' : (rngStep np w (.draw b)).rngs[a]? = some s := by
          simp only [rngStep, rngNext]
          split
          · exact h
          · simp only; rw [List.getElem?_set_ne hb, h]
        rw [ih _ _ h']
        simp [drawsOf, hb]

/-- C91: `make_rng` and the priors, given a generator, use that very object and leave the others and numpy's own
untouched; without one `make_rng` makes a new one, seeded by one draw from numpy's own generator, and a prior raises
AssertionError.  Whatever is made and drawn afterwards, by whomever, a generator gives the deviates of the stream of its
seed in order: the draw after `k` draws from it is number `k`. -/
theorem C91_generators (np : NPRandom σ γ) (w : RngWorld σ γ) :
    (∀ a, makeRng np w (some a) = (w, a) ∧ priorRng np w (some a) = (w, .ok a)) ∧
    priorRng np w none = (w, .error .assertion) ∧
    ((makeRng np w none).1.glob = (np.randint w.glob).2 ∧ w.rngs[(makeRng np w none).2]? = none ∧
      (∀ (b : ℕ) s, w.rngs[b]? = some s → (makeRng np w none).1.rngs[b]? = some s) ∧
      ∀ ops, (rngNext np (ops.foldl (rngStep np) (makeRng np w none).1) (makeRng np w none).2).2 =
        some (streamAt np (np.ofSeed (np.randint w.glob).1) (drawsOf (makeRng np w none).2 ops))) ∧
    (∀ (a : ℕ) s ops, w.rngs[a]? = some s →
      (rngNext np (ops.foldl (rngStep np) w) a).2 = some (streamAt np s (drawsOf a ops))) := by
  have key : ∀ (w : RngWorld σ γ) (a : ℕ) s ops, w.rngs[a]? = some s →
      (rngNext np (ops.foldl (rngStep np) w) a).2 = some (streamAt np s (drawsOf a ops)) := by
    intro w a s ops h
    have := rng_history np a ops w s h
    simp only [rngNext, this, streamAt_eq]
  refine ⟨fun a => ⟨rfl, rfl⟩, rfl, ⟨rfl, by simp [makeRng], ?_, ?_⟩, key w⟩
  · intro b s h
    have hlt : b < w.rngs.length := by
      by_contra hc
      rw [List.getElem?_eq_none (by omega)] at h
      cases h
    simp only [makeRng]
    rw [List.getElem?_append_left hlt, h]
  · intro ops
    exact key _ _ _ ops (by simp [makeRng])

/-- C91: `srandu()` is in [-1, 1), and `srandu(n)` gives `n` such numbers, made from the next `n` deviates of the
generator in order. -/
theorem C91_srandu (np : NPRandom σ γ) (hu : ∀ s, 0 ≤ (np.next s).1 ∧ (np.next s).1 < 1) (a : ℕ) (n : ℕ) :
    ∀ (w : RngWorld σ γ) (s : σ), w.rngs[a]? = some s →
      ∃ xs, (sranduN np a n w).2 = some xs ∧ xs.length = n ∧ (∀ x ∈ xs, -1 ≤ x ∧ x < 1) ∧
        (∀ k (hk : k < xs.length), xs[k] = 2 * streamAt np s k - 1) ∧
        (sranduN np a n w).1.rngs[a]? = some (stateAt np s n) := by
  induction n with
  | zero => intro w s h; exact ⟨[], rfl, rfl, by simp, by simp, by simpa [sranduN, stateAt] using h⟩
  | succ n ih =>
    intro w s h
    have hlt : a < w.rngs.length := by
      by_contra hc
      rw [List.getElem?_eq_none (by omega)] at h
      cases h
    have h1 : srandu1 np w a = ({ w with rngs := w.rngs.set a (np.next s).2 }, some (-1.0 + (1.0 - -1.0) * (np.next s).1)) := by
      simp [srandu1, rngNext, h]
    obtain ⟨xs, q1, q2, q3, q4, q5⟩ := ih { w with rngs := w.rngs.set a (np.next s).2 } (np.next s).2 (by simp [hlt])
    have hx : (-1.0 + (1.0 - -1.0) * (np.next s).1 : ℝ) = 2 * (np.next s).1 - 1 := by norm_num; ring
    refine ⟨(-1.0 + (1.0 - -1.0) * (np.next s).1) :: xs, ?_, by simp [q2], ?_, ?_, ?_⟩
    · simp only [sranduN, h1, q1, Option.map_some]
    · intro x hm
      rcases List.mem_cons.mp hm with rfl | hm
      · rw [hx]
        have := hu s
        constructor <;> linarith [this.1, this.2]
      · exact q3 x hm
    · intro k hk
      cases k with
      | zero => simpa [streamAt] using hx
      | succ k => simpa [streamAt] using q4 k (by simpa using hk)
    · simp only [sranduN, h1, q5, stateAt]

/-- C91: `KDE.sample()` is the first point drawn, and `KDE.sample(n)` all points drawn for `n`, one per row: numbers
exactly if the data had one dimension, otherwise rows of coordinates (the documentation says columns).  Errors are those
of resampling; an empty draw makes `sample()` an IndexError. -/
theorem C91_kde (resample : ℤ → σ → σ × Except PyErr (List (List ℝ))) (is1d : Bool) (nrand : Option ℤ) (s : σ) :
    (kdeSample resample is1d nrand s).1 = (resample (nrand.getD 1) s).1 ∧
    (∀ e, (resample (nrand.getD 1) s).2 = .error e → (kdeSample resample is1d nrand s).2 = .error e) ∧
    (∀ ps, (resample (nrand.getD 1) s).2 = .ok ps →
      (is1d = false → nrand.isSome → (kdeSample resample is1d nrand s).2 = .ok (.rows ps)) ∧
      (is1d = false → nrand = none → ∀ p rest, ps = p :: rest → (kdeSample resample is1d nrand s).2 = .ok (.row p)) ∧
      (is1d = true → (∀ p ∈ ps, ∃ x, p = [x]) →
        (nrand.isSome → ∃ xs, (kdeSample resample is1d nrand s).2 = .ok (.values xs) ∧ ps = xs.map fun x => [x]) ∧
        (nrand = none → ∀ x rest, ps = [x] :: rest → (kdeSample resample is1d nrand s).2 = .ok (.value x))) ∧
      (nrand = none → ps = [] → (kdeSample resample is1d nrand s).2 = .error .index)) := by
  have hcol : ∀ ps : List (List ℝ), (∀ p ∈ ps, ∃ x, p = [x]) → ∃ xs, firstColumn ps = .ok xs ∧ ps = xs.map fun x => [x] := by
    intro ps
    induction ps with
    | nil => intro _; exact ⟨[], rfl, rfl⟩
    | cons p ps ih =>
      intro h
      obtain ⟨x, rfl⟩ := h p (by simp)
      obtain ⟨xs, h1, h2⟩ := ih fun p hp => h p (by simp [hp])
      exact ⟨x :: xs, by simp [firstColumn, h1, Except.map], by simp [← h2]⟩
  unfold kdeSample
  refine ⟨rfl, fun e he => by simp [he, Except.bind], fun ps hp => ?_⟩
  simp only [hp, Except.bind]
  refine ⟨?_, ?_, ?_, ?_⟩
  · rintro rfl hs
    cases nrand <;> simp_all
  · rintro rfl rfl p rest rfl
    simp
  · rintro rfl h1
    obtain ⟨xs, hx, he⟩ := hcol ps h1
    simp only [hx, if_true]
    refine ⟨fun hs => ⟨xs, ?_, he⟩, ?_⟩
    · cases nrand <;> simp_all
    · rintro rfl x rest hr
      rw [he] at hr
      cases xs with
      | nil => simp at hr
      | cons y ys => simp only [List.map_cons, List.cons.injEq, List.cons.injEq] at hr; simp [hr.1.1]
  · rintro rfl rfl
    cases is1d <;> simp [firstColumn]

/-- A case: a generator made beside another; draws from the first do not disturb the second. -/
example : (rngNext (⟨fun s => (s / 2, s / 2), fun n => n, fun g => (g, g + 1)⟩ : NPRandom ℝ ℕ)
    ([RngOp.draw 0, .draw 0].foldl (rngStep ⟨fun s => (s / 2, s / 2), fun n => n, fun g => (g, g + 1)⟩)
      (makeRng ⟨fun s => (s / 2, s / 2), fun n => n, fun g => (g, g + 1)⟩ ⟨[1], 3⟩ none).1) 1).2 = some (3 / 2) := by
  have h := (C91_generators (⟨fun s => (s / 2, s / 2), fun n => n, fun g => (g, g + 1)⟩ : NPRandom ℝ ℕ)
      ⟨[1], 3⟩).2.2.1.2.2.2 [RngOp.draw 0, .draw 0]
  refine h.trans ?_
  simp [makeRng, drawsOf, streamAt]

end Ngmix.Props
