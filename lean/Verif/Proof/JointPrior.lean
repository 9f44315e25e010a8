import Verif.Spec.JointPrior
import Verif.Props.Priors

/-!
# Lemmas on the joint priors
-/

namespace Ngmix.Props

open Ngmix Ngmix.Spec JointPrior

theorem erfFl_cases (y : Fl) : erfFl y = .nan ∨ ∃ e : ℝ, erfFl y = .fin e ∧ |e| ≤ 1 := by
  cases y with
  | nan => exact Or.inl rfl
  | pinf => exact Or.inr ⟨1, rfl, by norm_num⟩
  | ninf => exact Or.inr ⟨-1, rfl, by norm_num⟩
  | fin x => exact Or.inr ⟨_, rfl, (abs_erf_lt_one x).le⟩

theorem erfProb_cases (a wa b wb x : ℝ) :
    Prior1.erfProb a wa b wb x = .nan ∨ ∃ P : ℝ, Prior1.erfProb a wa b wb x = .fin P ∧ P ≤ 1 := by
  simp only [Prior1.erfProb]
  rcases erfFl_cases (Fl.fin (b - x) / Fl.fin wb) with h | ⟨e1, h, l1⟩
  · left; rw [h]; simp
  · rcases erfFl_cases (Fl.fin (x - a) / Fl.fin wa) with h' | ⟨e2, h', l2⟩
    · left; rw [h']; simp
    · right
      refine ⟨0.5 * e1 + 0.5 * e2, by rw [h, h']; simp, ?_⟩
      have := (abs_le.mp l1).2
      have := (abs_le.mp l2).2
      linarith

theorem erfLnprob_nonpos (a wa b wb x l : ℝ) (h : Prior1.erfLnprob a wa b wb x = .fin l) : l ≤ 0 := by
  simp only [Prior1.erfLnprob] at h
  split_ifs at h with hc
  rcases erfProb_cases a wa b wb x with hP | ⟨P, hP, hle⟩
  · rw [hP] at h; simp [logFl] at h
  · rw [hP] at h hc
    simp only [Fl.lt, Fl.isZero, not_or, not_lt] at hc
    have hpos : 0 < P := lt_of_le_of_ne hc.1 (Ne.symm hc.2)
    simp only [logFl] at h
    rw [if_neg (not_lt.mpr hc.1), if_neg hc.2] at h
    injection h with h
    rw [← h]
    exact Real.log_nonpos hpos.le hle

/-- For every constructed prior, where the log probability is finite it is not positive and the residual
squares to minus twice it. -/
theorem prior1_fin (q : Prior1) (hq : Constructed q) (x l : ℝ) (h : q.lnprob x = .ok (.fin l)) :
    l ≤ 0 ∧ ∃ d : ℝ, q.fdiff x = .ok (.fin d) ∧ d ^ 2 = -2 * l := by
  cases q with
  | flat a b =>
    simp only [Prior1.lnprob] at h
    simp only [Prior1.fdiff]
    split_ifs at h ⊢
    simp only [Except.ok.injEq, Fl.fin.injEq] at h
    exact ⟨h.symm.le, 0, rfl, by rw [← h]; ring⟩
  | erf2 a wa b wb =>
    simp only [Prior1.lnprob, Except.ok.injEq] at h
    have hl := erfLnprob_nonpos a wa b wb x l h
    refine ⟨hl, _, ?_, clipRoot_sq l hl⟩
    simp only [Prior1.fdiff]
    rw [h, clipRoot_fin l hl]
  | normal m s b =>
    obtain ⟨⟨h1, -⟩, ⟨h2, -⟩, -⟩ := C44_normal m s b (.normal m s b) (by
      have : s ≠ 0 := hq
      simp [Prior1.mkNormal, this])
    obtain ⟨L, e, hL, -⟩ := h1 x trivial
    obtain ⟨L', d, e', hd, hsq⟩ := h2 x trivial
    rw [h] at e e'
    injection e with e; injection e with e
    injection e' with e'; injection e' with e'
    subst e e'
    exact ⟨hL, d, hd, hsq⟩
  | lmBounds a b => simp [Prior1.lnprob] at h
  | bounded a b => simp [Prior1.lnprob] at h
  | sinh a b => simp [Prior1.lnprob] at h
  | lognormal m s sh =>
    have hm : 0 < m := hq
    by_cases hs : s = 0
    · exfalso
      subst hs
      simp only [Prior1.lnprob, lognormalLnprob_eq] at h
      split_ifs at h
      have hv : Prior1.lnLogvar m 0 = 0 := by simp [Prior1.lnLogvar]
      have hiv : Prior1.lnLogivar m 0 = .pinf := by
        rw [Prior1.lnLogivar, hv, Fl.fin_div_zero]; simp [Fl.infOf]
      have hd : Prior1.lnLogMode m 0 - Prior1.lnLogmean m 0 = 0 := by simp [Prior1.lnLogMode, hv]
      have hmax : Prior1.lnProbMax m 0 = .nan := by
        have : (Fl.pinf * Fl.fin 0 : Fl) = .nan := by
          change Fl.infOf 0 = _; simp [Fl.infOf]
        simp only [Prior1.lnProbMax, hiv, hd]
        norm_num
        rw [this, Fl.mul_nan]
        rfl
      rw [hmax] at h
      revert h
      generalize (Fl.fin (-0.5) * _ - _ : Fl) = y
      intro h
      cases y <;> simp [HSub.hSub, Sub.sub, Fl.add, Fl.neg] at h
    · obtain ⟨⟨h1, h1'⟩, ⟨h2, h2'⟩⟩ := C44_lognormal m s hs sh (.lognormal m s sh) (by
        simp [Prior1.mkLogNormal, hm])
      by_cases hx : sh.getD 0 < x
      · obtain ⟨L, e, hL, -⟩ := h1 x hx
        obtain ⟨L', d, e', hd, hsq⟩ := h2 x hx
        rw [h] at e e'
        injection e with e; injection e with e
        injection e' with e'; injection e' with e'
        subst e e'
        exact ⟨hL, d, hd, hsq⟩
      · rw [h1' x hx] at h; exact absurd h (by simp)
  | trunc m s a b =>
    obtain ⟨⟨h1, h1'⟩, ⟨h2, -⟩⟩ := C44_trunc m s a b (.trunc m s a b) (by
      have : s ≠ 0 := hq
      simp [Prior1.mkTrunc, this])
    by_cases hx : a ≤ x ∧ x ≤ b
    · obtain ⟨L, e, hL, -⟩ := h1 x hx
      obtain ⟨L', d, e', hd, hsq⟩ := h2 x hx
      rw [h] at e e'
      injection e with e; injection e with e
      injection e' with e'; injection e' with e'
      subst e e'
      exact ⟨hL, d, hd, hsq⟩
    · rw [h1' x hx] at h; exact absurd h (by simp)

theorem priorG_nonpos (q : PriorG) (hq : ConstructedG q) (x y l : ℝ) (h : q.lnprob x y = .ok (.fin l)) :
    l ≤ 0 := by
  cases q with
  | ba s A =>
    obtain ⟨h1, h2⟩ := C44_ba s A (.ba s A) (by
      have : s ≠ 0 := hq
      simp [PriorG.mkBA, this]) x y
    rcases lt_or_ge (x ^ 2 + y ^ 2) 1 with hlt | hge
    · obtain ⟨L, d, e, hL, -⟩ := h1 hlt
      rw [h] at e; injection e with e; injection e with e; subst e
      exact hL
    · rw [(h2 hge).1] at h; exact absurd h (by simp)
  | gauss s => simp [PriorG.lnprob] at h
  | disk r =>
    simp only [PriorG.lnprob] at h
    split_ifs at h
    simp only [Except.ok.injEq, Fl.fin.injEq] at h
    exact h.symm.le

theorem priorG_fdiff (s A x y l : ℝ) (hs : s ≠ 0) (h : (PriorG.ba s A).lnprob x y = .ok (.fin l)) :
    ∃ d : ℝ, (PriorG.ba s A).fdiff x y = .ok (.fin d) ∧ d ^ 2 = -2 * l := by
  have hl := priorG_nonpos (.ba s A) hs x y l h
  refine ⟨_, ?_, clipRoot_sq l hl⟩
  simp only [PriorG.fdiff, h, Except.map]
  rw [clipRoot_fin l hl]

/-- The calls on the one dimensional priors are made with the parameter each prior belongs to. -/
theorem oneDTerms_layout (m : Prior1 → ℝ → Except PyErr Fl) (p : JointPrior) (hp : Shaped p)
    (pars : List ℝ) :
    oneDTerms m p pars = (layout p).zipIdx.map fun q => at1 (m q.1) pars (4 + q.2) := by
  obtain ⟨cls, cen, g, mids, fs⟩ := p
  have key : ∀ (k : ℕ), (fs.zipIdx.map fun F => at1 (m F.1) pars (4 + k + F.2)) =
      (fs.zipIdx k).map fun q => at1 (m q.1) pars (4 + q.2) := by
    intro k
    apply List.ext_getElem
    · simp
    · intro i h1 h2
      simp [Nat.add_assoc]
  cases cls with
  | simple =>
    obtain ⟨T, rfl⟩ := List.length_eq_one_iff.mp hp
    simp only [oneDTerms, layout, List.cons_append, List.nil_append, List.zipIdx_cons, List.map_cons]
    rw [← key]
  | bd =>
    obtain ⟨a, b, c, rfl⟩ := List.length_eq_three.mp hp
    simp only [oneDTerms, layout, List.cons_append, List.nil_append, List.zipIdx_cons, List.map_cons]
    rw [← key]
  | bdf =>
    obtain ⟨a, b, rfl⟩ := List.length_eq_two.mp hp
    simp only [oneDTerms, layout, List.cons_append, List.nil_append, List.zipIdx_cons, List.map_cons]
    rw [← key]
  | spergel =>
    obtain ⟨a, b, rfl⟩ := List.length_eq_two.mp hp
    simp only [oneDTerms, layout, List.cons_append, List.nil_append, List.zipIdx_cons, List.map_cons]
    rw [← key]
  | coellip n =>
    obtain ⟨T, rfl⟩ := List.length_eq_one_iff.mp hp.1
    obtain ⟨F, rfl⟩ := List.length_eq_one_iff.mp hp.2
    simp only [oneDTerms, layout, List.flatMap_cons, List.flatMap_nil, List.append_nil]
    rw [List.zipIdx_append, List.map_append]
    congr 1
    · apply List.ext_getElem <;> simp
    · apply List.ext_getElem
      · simp
      · intro i h1 h2
        simp [Nat.add_assoc]

/-- The one dimensional calls when every prior gives a value. -/
theorem terms_ok {ls : List Fl} (m : Prior1 → ℝ → Except PyErr Fl) (lay : List Prior1) (pars : List ℝ)
    (k : ℕ) (hl : ls.length = lay.length)
    (h : ∀ i (hi : i < lay.length), ∃ x, pars[4 + (k + i)]? = some x ∧
      m lay[i] x = .ok (ls[i]'(by omega))) :
    ((lay.zipIdx k).map fun q => at1 (m q.1) pars (4 + q.2)) = ls.map .ok := by
  apply List.ext_getElem
  · simp [hl]
  · intro i h1 h2
    simp only [List.length_map, List.length_zipIdx] at h1
    obtain ⟨x, hx, hm⟩ := h i h1
    simp only [List.getElem_map, List.getElem_zipIdx, at1, parAt, hx, Except.bind]
    exact hm

theorem sumTerms_ok (ls : List ℝ) : ∀ acc : ℝ,
    sumTerms ((ls.map Fl.fin).map Except.ok) (.fin acc) = .ok (.fin (acc + ls.sum)) := by
  induction ls with
  | nil => intro acc; simp [sumTerms]
  | cons a ls ih =>
    intro acc
    simp only [List.map_cons, sumTerms, Except.bind, Fl.fin_add, List.sum_cons]
    rw [ih, add_assoc]

theorem writeTerms_ok (ls : List Fl) : ∀ (fdiff : List Fl) (i : ℕ), i + ls.length ≤ fdiff.length →
    writeTerms (ls.map .ok) fdiff i =
      .ok (fdiff.take i ++ ls ++ fdiff.drop (i + ls.length), i + ls.length) := by
  induction ls with
  | nil => intro f i h; simp [writeTerms]
  | cons a ls ih =>
    intro f i h
    simp only [List.length_cons] at h
    simp only [List.map_cons, writeTerms, Except.bind, fdWrite]
    rw [if_pos (by omega)]
    simp only
    rw [ih _ _ (by simp; omega)]
    congr 2
    · rw [List.drop_set_of_lt (by omega), List.take_set, List.take_add_one]
      simp only [List.length_cons]
      rw [show i + 1 + ls.length = i + (ls.length + 1) by omega]
      congr 1
      rw [List.getElem?_eq_getElem (by omega)]
      have : (List.take i f).length = i := by simp; omega
      simp only [Option.toList]
      rw [List.set_append_right _ _ (by omega), this]
      simp
    · simp; omega

/-- The first failing call decides the outcome of both loops. -/
theorem write_sum_error (ts : List (Except PyErr Fl)) (e : PyErr) : ∀ (acc : Fl) (fdiff : List Fl) (i : ℕ),
    i + ts.length ≤ fdiff.length →
    (sumTerms ts acc = .error e ↔ writeTerms ts fdiff i = .error e) := by
  induction ts with
  | nil => intro acc f i _; simp [sumTerms, writeTerms]
  | cons t ts ih =>
    intro acc f i h
    simp only [List.length_cons] at h
    cases t with
    | error e' => simp [sumTerms, writeTerms, Except.bind]
    | ok v =>
      simp only [sumTerms, writeTerms, Except.bind, fdWrite]
      rw [if_pos (by omega)]
      exact ih _ _ _ (by simp; omega)

end Ngmix.Props
