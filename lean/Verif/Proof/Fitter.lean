import Verif.Model.Fitter
import Verif.Props.FitModel
import Verif.Props.Leastsq
import Verif.Proof.PSFFlux

/-!
# Lemmas on the fitters
-/

namespace Ngmix.Props

open Ngmix Ngmix.Spec

noncomputable section

theorem runS_pure {α σ : Type} (f : σ → List (Option ℝ) → σ × Except LmErr (List Fl))
    (g : List (Option ℝ) → Except LmErr (List Fl)) (Inv : σ → Prop)
    (h : ∀ s, Inv s → ∀ x, (f s x).2 = g x ∧ Inv (f s x).1) (p : Proc α) :
    ∀ s, Inv s → (Proc.runS f s p).2 = p.run g ∧ Inv (Proc.runS f s p).1 := by
  induction p with
  | ret r => intro s hs; exact ⟨rfl, hs⟩
  | ask x k ih =>
    intro s hs
    obtain ⟨h1, h2⟩ := h s hs x
    simp only [Proc.runS, Proc.run]
    rcases hx : f s x with ⟨s', r⟩
    rw [hx] at h1 h2
    dsimp only at h1 h2
    rw [← h1]
    cases r with
    | error e => exact ⟨rfl, h2⟩
    | ok y => exact ih y s' h2

theorem toProc_run {n : ℕ} {α : Type} (conv : List (Option ℝ) → List (Option ℝ))
    (fin : MinpackOut n → Except LmErr α) (f : List (Option ℝ) → Except LmErr (List Fl)) (m : Minpack n) :
    (m.toProc conv fin).run f = ((m.run fun x => f (conv x)).2).bind fin := by
  induction m with
  | ret o => rfl
  | ask x k ih =>
    simp only [Minpack.toProc, Proc.run, Minpack.run]
    cases f (conv x) with
    | error e => rfl
    | ok y => exact ih y

/-- The procedure is the function modelled for C39. -/
theorem leastsqboundProc_run (n : ℕ) (inv : NpInv n) (dflt : Proc (LmTup n)) (minpack : List (Option ℝ) → Minpack n) (x0 : List ℝ)
    (bounds : Option (List Bound)) (f : List (Option ℝ) → Except LmErr (List Fl))
    (pts : List (List (Option ℝ))) :
    (leastsqboundProc n inv dflt minpack x0 bounds).run f =
      (leastsqbound n inv f (pts, dflt.run f) minpack x0 bounds).2 := by
  cases bounds with
  | none => rfl
  | some bs =>
    simp only [leastsqboundProc, leastsqbound]
    split_ifs with h
    · rfl
    · simp only [Proc.run]
      cases hf : f (x0.map some) with
      | error e => rfl
      | ok y =>
        dsimp only
        split_ifs with h2
        · rfl
        · rw [toProc_run]
          cases hr : ((minpack (e2i bs (x0.map some))).run fun x => f (i2e bs x)).2 with
          | error e => rfl
          | ok o => rfl

theorem evalS_pure (fm : FitModel) (nanEval : List (Option ℝ) → Except LmErr (List Fl)) (st : FMState)
    (hf : Fits fm.obs st) : ∀ s, shape s = shape st → ∀ x,
      (evalS fm nanEval s x).2 = (evalS fm nanEval st x).2 ∧ shape (evalS fm nanEval s x).1 = shape st := by
  intro s hs x
  unfold evalS
  cases allReal x with
  | none => exact ⟨rfl, hs⟩
  | some p =>
    obtain ⟨h1, -⟩ := calcFdiff_pure fm st hf p
    obtain ⟨k1, k2⟩ := calcFdiff_pure fm s (fits_of_shape hf hs) p
    rw [hs] at k1
    dsimp only
    rw [h1, k1]
    exact ⟨rfl, k2.trans hs⟩

theorem setFitResult_pure {n : ℕ} (fm : FitModel) (nanStats : Except PyErr FitStats) (st : FMState)
    (hf : Fits fm.obs st) (r : LmResult n) : ∀ s, shape s = shape st →
      (setFitResult fm nanStats s r).2 = (setFitResult fm nanStats st r).2 ∧
      shape (setFitResult fm nanStats s r).1 = shape st := by
  intro s hs
  unfold setFitResult
  split_ifs with h0
  · cases allReal r.pars with
    | none => exact ⟨rfl, hs⟩
    | some p =>
      obtain ⟨h1, -⟩ := calcLnprob_pure fm st hf p
      obtain ⟨k1, k2⟩ := calcLnprob_pure fm s (fits_of_shape hf hs) p
      rw [hs, ← h1] at k1
      rcases hx : calcLnprob fm s p with ⟨s', c⟩
      rcases hy : calcLnprob fm st p with ⟨s'', c'⟩
      rw [hx, hy] at k1
      rw [hx] at k2
      dsimp only at k1 k2 ⊢
      subst k1
      rw [hx, hy]
      cases c with
      | error e => exact ⟨rfl, k2.trans hs⟩
      | ok c => exact ⟨rfl, k2.trans hs⟩
  · exact ⟨rfl, hs⟩

/-- What flags zero means of the minimisation. -/
theorem leastsq_zero_gen {n : ℕ} {func : List (Option ℝ) → Except LmErr (List Fl)}
    {eig : (Fin n → Fin n → Fl) → Option (List Fl)} {nPrior : ℕ} {ks : Bool} {lm : Except LmErr (LmTup n)} {r : LmResult n}
    (h : runLeastsq n func eig nPrior ks lm = .ok r) (h0 : r.flags = 0) :
    ∃ t c fdiff, lm = .ok t ∧ t.info ≠ 0 ∧ t.info ≤ 4 ∧ t.cov = some c ∧ func t.x = .ok fdiff ∧
      lmDof fdiff.length nPrior n ks ≠ 0 ∧
      testCov eig (scaledCov n nPrior c fdiff (lmDof fdiff.length nPrior n ks)) = 0 ∧
      r = ⟨0, t.nfev, some t.info, t.x,
        some (fun i => Fl.sqrt (scaledCov n nPrior c fdiff (lmDof fdiff.length nPrior n ks) i i)),
        some c, scaledCov n nPrior c fdiff (lmDof fdiff.length nPrior n ks)⟩ := by
  have hr := catch_flags_zero n _ r h h0
  cases lm with
  | error e => exact absurd hr (by simp [runLeastsqTry])
  | ok t =>
    simp only [runLeastsqTry] at hr
    by_cases hi : t.info = 0
    · simp [hi] at hr
    rw [if_neg hi] at hr
    by_cases h4 : t.info > 4
    · rw [if_pos h4] at hr
      injection hr with hr; subst hr
      simp at h0
    rw [if_neg h4] at hr
    cases hc : t.cov with
    | none =>
      simp only [hc] at hr
      injection hr with hr; subst hr
      simp [Flags.LM_SINGULAR_MATRIX] at h0
    | some c =>
      simp only [hc] at hr
      cases hfd : func t.x with
      | error e => rw [hfd] at hr; simp at hr
      | ok fdiff =>
        rw [hfd] at hr
        simp only at hr
        by_cases hd : lmDof fdiff.length nPrior n ks = 0
        · rw [if_pos hd] at hr
          injection hr with hr; subst hr
          simp [Flags.ZERO_DOF] at h0
        rw [if_neg hd] at hr
        by_cases ht : testCov eig (scaledCov n nPrior c fdiff (lmDof fdiff.length nPrior n ks)) = 0
        · refine ⟨t, c, fdiff, rfl, hi, by omega, hc, hfd, hd, ht, ?_⟩
          have ht' := ht
          rw [scaledCov_eq] at ht'
          rw [if_neg (not_not.mpr ht')] at hr
          injection hr with hr
          rw [← hr]
          rfl
        · have ht' := ht
          rw [scaledCov_eq] at ht'
          rw [if_pos ht'] at hr
          injection hr with hr; subst hr
          exact absurd h0 ht

theorem leastsq_zero {n : ℕ} {func : List (Option ℝ) → Except LmErr (List Fl)}
    {eig : (Fin n → Fin n → Fl) → Option (List Fl)} {nPrior : ℕ} {lm : Except LmErr (LmTup n)} {r : LmResult n}
    (h : runLeastsq n func eig nPrior false lm = .ok r) (h0 : r.flags = 0) :
    ∃ t c fdiff, lm = .ok t ∧ t.info ≠ 0 ∧ t.info ≤ 4 ∧ t.cov = some c ∧ func t.x = .ok fdiff ∧
      (fdiff.length : ℤ) - nPrior - n ≠ 0 ∧
      testCov eig (scaledCov n nPrior c fdiff ((fdiff.length : ℤ) - nPrior - n)) = 0 ∧
      r = ⟨0, t.nfev, some t.info, t.x,
        some (fun i => Fl.sqrt (scaledCov n nPrior c fdiff ((fdiff.length : ℤ) - nPrior - n) i i)),
        some c, scaledCov n nPrior c fdiff ((fdiff.length : ℤ) - nPrior - n)⟩ := leastsq_zero_gen h h0

theorem flSumSq_from (l : List ℝ) : ∀ a : ℝ,
    (l.map Fl.fin).foldl (fun a x => a + Fl.sq x) (.fin a) = .fin (a + (l.map fun x => x ^ 2).sum) := by
  induction l with
  | nil => intro a; simp
  | cons x l ih =>
    intro a
    simp only [List.map_cons, List.foldl_cons, Fl.fin_sq, Fl.fin_add, ih, List.sum_cons]
    congr 1
    ring

theorem flSumSq_map (l : List ℝ) : flSumSq (l.map Fl.fin) = .fin ((l.map fun x => x ^ 2).sum) := by
  unfold flSumSq
  rw [flSumSq_from, zero_add]

theorem flSumSq_ninf (k : ℕ) : flSumSq (List.replicate (k + 1) Fl.ninf) = .pinf := by
  have h : ∀ k, (List.replicate k Fl.ninf).foldl (fun a x => a + Fl.sq x) Fl.pinf = Fl.pinf := by
    intro k
    induction k with
    | zero => rfl
    | succ k ih =>
      rw [List.replicate_succ, List.foldl_cons]
      exact ih
  unfold flSumSq
  rw [List.replicate_succ, List.foldl_cons]
  exact h k

theorem allReal_map (p : List ℝ) : allReal (p.map some) = some p := by
  induction p with
  | nil => rfl
  | cons x p ih => simp [allReal, ih]

theorem allReal_some {x : List (Option ℝ)} {p : List ℝ} (h : allReal x = some p) : x = p.map some := by
  induction x generalizing p with
  | nil => simp [allReal] at h; subst h; rfl
  | cons o x ih =>
    cases o with
    | none => simp [allReal] at h
    | some v =>
      simp only [allReal, Option.map_eq_some_iff] at h
      obtain ⟨r, hr, rfl⟩ := h
      simp [ih hr]

theorem slice_two_four {n : ℕ} (h : 4 < n) : sliceIdx n 2 4 = [⟨2, by omega⟩, ⟨3, by omega⟩] := by
  unfold sliceIdx
  simp [List.range_succ, show 2 < n by omega, show 3 < n by omega]

theorem slice_tail (n a : ℕ) : (sliceIdx n a n).length = n - a ∧
    ∀ k (h : a + k < n), (sliceIdx n a n)[k]? = some ⟨a + k, h⟩ := by
  have key : ∀ m, a + m ≤ n → ∃ l : List (Fin n), (List.range m).filterMap
      (fun k => if h : a + k < n then some (⟨a + k, h⟩ : Fin n) else none) = l ∧ l.length = m ∧
      ∀ k (h : a + k < n), k < m → l[k]? = some ⟨a + k, h⟩ := by
    intro m
    induction m with
    | zero => intro _; exact ⟨[], rfl, rfl, fun k _ hk => absurd hk (by omega)⟩
    | succ m ih =>
      intro hm
      obtain ⟨l, h1, h2, h3⟩ := ih (by omega)
      refine ⟨l ++ [⟨a + m, by omega⟩], ?_, by simp [h2], ?_⟩
      · rw [List.range_succ, List.filterMap_append, h1]
        simp [show a + m < n by omega]
      · intro k hk hkm
        by_cases hkm' : k < m
        · rw [List.getElem?_append_left (by omega)]
          exact h3 k hk hkm'
        · obtain rfl : k = m := by omega
          rw [List.getElem?_append_right (by omega), h2]
          simp
  by_cases hn : a ≤ n
  · obtain ⟨l, h1, h2, h3⟩ := key (n - a) (by omega)
    unfold sliceIdx
    rw [h1]
    exact ⟨h2, fun k hk => h3 k hk (by omega)⟩
  · unfold sliceIdx
    rw [show n - a = 0 by omega]
    exact ⟨rfl, fun k hk => absurd hk (by omega)⟩

theorem all_some (l : List (Option ℝ)) (h : ∀ i, i < l.length → ∃ v, l[i]? = some (some v)) :
    ∃ p : List ℝ, l = p.map some := by
  induction l with
  | nil => exact ⟨[], rfl⟩
  | cons o l ih =>
    obtain ⟨v, hv⟩ := h 0 (by simp)
    obtain ⟨p, rfl⟩ := ih fun i hi => by
      obtain ⟨w, hw⟩ := h (i + 1) (by simpa using hi)
      exact ⟨w, by simpa using hw⟩
    simp only [List.getElem?_cons_zero, Option.some.injEq] at hv
    exact ⟨v :: p, by simp [hv]⟩

end

end Ngmix.Props
