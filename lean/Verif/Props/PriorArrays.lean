import Verif.Model.PriorArrays
import Verif.Spec.PriorArrays
import Verif.Props.Priors
import Verif.Proof.ExceptLemmas
import Mathlib.Data.List.Forall2
import Mathlib.MeasureTheory.Integral.IntervalIntegral.FundThmCalculus

/-!
# Probabilities of the one dimensional priors, and their array methods (C83)
-/

namespace Ngmix.Props

open Ngmix Ngmix.Spec

theorem forall2_map_iff {α : Type} {β : Type} (scalar : α → Except PyErr β) (f : α → β) (vals : List α)
    (h : ∀ v ∈ vals, scalar v = .ok (f v)) (ys : List β) :
    List.Forall₂ (fun v y => scalar v = .ok y) vals ys ↔ vals.map f = ys := by
  induction vals generalizing ys with
  | nil => simp [eq_comm]
  | cons v vs ih =>
    cases ys with
    | nil => simp
    | cons y ys =>
      rw [List.forall₂_cons, h v (by simp), ih (fun w hw => h w (by simp [hw]))]
      simp

theorem pointwise_map (scalar : ℝ → Except PyErr Fl) (f : ℝ → Fl) (array : List ℝ → Except PyErr PyNum)
    (h : ∀ v, scalar v = .ok (f v)) (ha : ∀ vals, array vals = .ok (.arr (vals.map f))) :
    Pointwise scalar array := by
  intro vals
  refine ⟨fun ys => ?_, fun e => ?_⟩
  · rw [ha, forall2_map_iff scalar f vals (fun v _ => h v)]
    simp
  · rw [ha]; simp [h]

theorem pointwise_filter (scalar : ℝ → Except PyErr Fl) (bad : ℝ → Prop) (f : ℝ → Fl)
    (array : List ℝ → Except PyErr PyNum) (e0 : PyErr)
    (hb : ∀ v, bad v → scalar v = .error e0) (h : ∀ v, ¬ bad v → scalar v = .ok (f v))
    (hbad : ∀ vals : List ℝ, (∃ v ∈ vals, bad v) → array vals = .error e0)
    (ha : ∀ vals : List ℝ, (∀ v ∈ vals, ¬ bad v) → array vals = .ok (.arr (vals.map f))) :
    Pointwise scalar array := by
  intro vals
  by_cases hv : ∃ v ∈ vals, bad v
  · rw [hbad vals hv]
    obtain ⟨v, hm, hbv⟩ := hv
    refine ⟨fun ys => ?_, fun e => ?_⟩
    · constructor
      · intro h; cases h
      · intro h2
        exfalso
        clear hbad ha
        induction h2 with
        | nil => cases hm
        | cons hx _ ih =>
          rcases List.mem_cons.mp hm with rfl | hm
          · rw [hb _ hbv] at hx; cases hx
          · exact ih hm
    · constructor
      · intro h; injection h with h; subst h
        exact ⟨v, hm, hb v hbv⟩
      · rintro ⟨w, hw, he⟩
        by_cases hbw : bad w
        · rw [hb w hbw] at he; injection he with he; rw [he]
        · rw [h w hbw] at he; cases he
  · push Not at hv
    rw [ha vals hv]
    refine ⟨fun ys => ?_, fun e => ?_⟩
    · rw [forall2_map_iff scalar f vals (fun v hm => h v (hv v hm))]; simp
    · constructor
      · intro h; cases h
      · rintro ⟨w, hw, he⟩; rw [h w (hv w hw)] at he; cases he

theorem filter_pos_iff (bad : ℝ → Prop) [DecidablePred bad] (vals : List ℝ) :
    0 < (vals.filter fun v => decide (bad v)).length ↔ ∃ v ∈ vals, bad v := by
  rw [List.length_pos_iff_exists_mem]
  simp

theorem logFl_pos_erf (x : Fl) (hx : x.isFinite) :
    (open Classical in if Fl.pos x then logFl x else Fl.ninf) =
      (open Classical in if Fl.lt x (.fin 0) ∨ Fl.isZero x then Fl.ninf else logFl x) := by
  cases x with
  | fin r =>
    by_cases h : 0 < r
    · rw [if_pos (show Fl.pos (.fin r) from h),
        if_neg (by simp only [Fl.lt, Fl.isZero]; push Not; exact ⟨h.le, h.ne'⟩)]
    · rw [if_neg (show ¬ Fl.pos (.fin r) from h), if_pos (by
        simp only [Fl.lt, Fl.isZero]
        rcases lt_or_eq_of_le (not_lt.mp h) with h | h
        exacts [Or.inl h, Or.inr h])]
  | nan => exact absurd hx (by simp [Fl.isFinite])
  | pinf => exact absurd hx (by simp [Fl.isFinite])
  | ninf => exact absurd hx (by simp [Fl.isFinite])

theorem erfProb_fin (a wa b wb x : ℝ) (hwa : wa ≠ 0) (hwb : wb ≠ 0) :
    Prior1.erfProb a wa b wb x = .fin (1 / 2 * erf ((b - x) / wb) + 1 / 2 * erf ((x - a) / wa)) := by
  simp only [Prior1.erfProb]
  rw [Fl.fin_div _ _ hwa, Fl.fin_div _ _ hwb]
  simp only [erfFl, Fl.fin_mul, Fl.fin_add]
  norm_num

theorem lognormal_array (mean sigma : ℝ) (shift : Option ℝ) (vals : List ℝ) :
    ((∃ v ∈ vals, v - shift.getD 0 ≤ 0) →
      Prior1.lognormalLnprobArray mean sigma shift vals = .error .gmixRange) ∧
    ((∀ v ∈ vals, ¬ (v - shift.getD 0 ≤ 0)) →
      Prior1.lognormalLnprobArray mean sigma shift vals = .ok (vals.map fun v =>
        let logval := Real.log (v - shift.getD 0)
        .fin (-0.5) * (Prior1.lnLogivar mean sigma * .fin ((logval - Prior1.lnLogmean mean sigma) ^ 2)) -
          .fin logval - Prior1.lnProbMax mean sigma)) := by
  have hsh : Prior1.shifted shift vals = vals.map fun v => v - shift.getD 0 := by
    cases shift <;> simp [Prior1.shifted]
  unfold Prior1.lognormalLnprobArray
  simp only [hsh]
  constructor
  · rintro ⟨v, hm, hv⟩
    rw [if_pos]
    rw [filter_pos_iff]
    exact ⟨_, List.mem_map.mpr ⟨v, hm, rfl⟩, hv⟩
  · intro h
    rw [if_neg]
    · simp only [List.map_map, List.zipWith_map_left, List.zipWith_map_right]
      congr 1
      clear h hsh
      induction vals with
      | nil => rfl
      | cons v vs ih => simp only [List.zipWith_cons_cons, List.map_cons, Function.comp] at *; rw [ih]
    · rw [filter_pos_iff]
      rintro ⟨w, hw, h2⟩
      obtain ⟨v, hm, rfl⟩ := List.mem_map.mp hw
      exact h v hm h2

theorem lognormal_scalar (mean sigma : ℝ) (shift : Option ℝ) (v : ℝ) :
    Prior1.lognormalLnprob mean sigma shift v =
      (open Classical in if v - shift.getD 0 ≤ 0 then .error .gmixRange else .ok (
        let logval := Real.log (v - shift.getD 0)
        .fin (-0.5) * (Prior1.lnLogivar mean sigma * .fin ((logval - Prior1.lnLogmean mean sigma) ^ 2)) -
          .fin logval - Prior1.lnProbMax mean sigma)) := by
  cases shift <;> simp [Prior1.lognormalLnprob]

/-- C83: the probability is the exponential of the log probability, with the same errors, for every prior whose two
methods are both there: flat, normal, log normal, and the two sided error function wherever its value is not
negative. -/
theorem C83_prob_exp (p : Prior1) (h : Agreeing p) (x : ℝ)
    (hpos : ∀ a wa b wb, p = .erf2 a wa b wb → ∀ y, p.prob x = .ok (.fin y) → 0 ≤ y) :
    p.prob x = (p.lnprob x).map expFl := by
  cases p with
  | flat a b =>
    simp only [Prior1.prob, Prior1.lnprob]
    split_ifs <;> simp [Except.map, expFl]
  | erf2 a wa b wb =>
    have hP := erfProb_fin a wa b wb x h.1 h.2
    have h0 := hpos a wa b wb rfl _ (by simp only [Prior1.prob]; rw [hP])
    simp only [Prior1.prob, Prior1.lnprob, Prior1.erfLnprob, Except.map]
    by_cases hz : 1 / 2 * erf ((b - x) / wb) + 1 / 2 * erf ((x - a) / wa) = 0
    · rw [if_pos (Or.inr (by rw [hP]; exact hz))]; simp only [expFl]; rw [hP, hz]
    · have hlt := lt_of_le_of_ne h0 (Ne.symm hz)
      rw [if_neg (by rw [hP]; simp only [Fl.lt, Fl.isZero]; push Not; exact ⟨h0, hz⟩), hP]
      simp only [logFl]
      rw [if_neg (not_lt.mpr h0), if_neg hz]
      simp only [expFl, Real.exp_log hlt]
  | normal m s b => simp [Prior1.prob, Prior1.lnprob, Except.map, expFl]
  | lognormal m s sh => rfl
  | lmBounds _ _ => exact absurd h (by simp [Agreeing])
  | bounded _ _ => exact absurd h (by simp [Agreeing])
  | sinh _ _ => exact absurd h (by simp [Agreeing])
  | trunc _ _ _ _ => exact absurd h (by simp [Agreeing])

/-- C83: no probability exceeds one. -/
theorem C83_at_most_one (p : Prior1) (h : Agreeing p) (x y : ℝ) (hx : p.prob x = .ok (.fin y)) : y ≤ 1 := by
  cases p with
  | flat a b =>
    simp only [Prior1.prob] at hx
    split_ifs at hx
    injection hx with hx; injection hx with hx; exact hx.symm.le
  | erf2 a wa b wb =>
    simp only [Prior1.prob] at hx
    rw [erfProb_fin a wa b wb x h.1 h.2] at hx
    injection hx with hx; injection hx with hx; subst hx
    obtain ⟨P, hP, hlt, -⟩ := C44_erf a wa b wb x h.1 h.2
    rw [← hP]; exact hlt.le
  | normal m s b =>
    simp only [Prior1.prob] at hx
    injection hx with hx; injection hx with hx; subst hx
    rw [Real.exp_le_one_iff]
    have h1 : 0 ≤ (m - x) ^ 2 * (1 / s ^ 2) := by positivity
    nlinarith
  | lognormal m s sh =>
    obtain ⟨⟨h1, h2⟩, -⟩ := C44_lognormal m s h.2 sh (.lognormal m s sh) (by
      simp [Prior1.mkLogNormal, not_le.mpr h.1])
    simp only [Prior1.prob] at hx
    by_cases hS : sh.getD 0 < x
    · obtain ⟨L, e, hL, -⟩ := h1 x hS
      simp only [Prior1.lnprob] at e
      rw [e] at hx
      simp only [Except.map, expFl] at hx
      injection hx with hx; injection hx with hx; subst hx
      exact Real.exp_le_one_iff.mpr hL
    · have := h2 x hS
      simp only [Prior1.lnprob] at this
      rw [this] at hx; cases hx
  | lmBounds _ _ => exact absurd h (by simp [Agreeing])
  | bounded _ _ => exact absurd h (by simp [Agreeing])
  | sinh _ _ => exact absurd h (by simp [Agreeing])
  | trunc _ _ _ _ => exact absurd h (by simp [Agreeing])

/-- C83: the array method for probabilities is the scalar one at every element. -/
theorem C83_prob_array (p : Prior1) (h : Agreeing p) : Pointwise p.prob p.probArray := by
  cases p with
  | flat a b =>
    refine pointwise_filter _ (fun v => v < a ∨ v > b) (fun _ => .fin 1) _ .gmixRange ?_ ?_ ?_ ?_
    · intro v hv; simp only [Prior1.prob]; rw [if_pos hv]
    · intro v hv; simp only [Prior1.prob]; rw [if_neg hv]
    · intro vals hv; simp only [Prior1.probArray]; rw [if_pos ((filter_pos_iff _ _).mpr hv)]
    · intro vals hv; simp only [Prior1.probArray]
      rw [if_neg (fun hc => by obtain ⟨v, hm, h⟩ := (filter_pos_iff _ _).mp hc; exact hv v hm h)]
      simp
  | erf2 a wa b wb => exact pointwise_map _ _ _ (fun v => rfl) (fun vals => rfl)
  | normal m s b => exact pointwise_map _ _ _ (fun v => rfl) (fun vals => rfl)
  | lognormal m s sh =>
    refine pointwise_filter _ (fun v => v - sh.getD 0 ≤ 0) (fun v => expFl (
        let logval := Real.log (v - sh.getD 0)
        .fin (-0.5) * (Prior1.lnLogivar m s * .fin ((logval - Prior1.lnLogmean m s) ^ 2)) -
          .fin logval - Prior1.lnProbMax m s)) _ .gmixRange ?_ ?_ ?_ ?_
    · intro v hv; simp only [Prior1.prob]; rw [lognormal_scalar, if_pos hv]; rfl
    · intro v hv; simp only [Prior1.prob]; rw [lognormal_scalar, if_neg hv]; rfl
    · intro vals hv; simp only [Prior1.probArray]; rw [(lognormal_array m s sh vals).1 hv]; rfl
    · intro vals hv; simp only [Prior1.probArray]; rw [(lognormal_array m s sh vals).2 hv]
      simp [Except.map, Function.comp_def]
  | lmBounds _ _ => exact absurd h (by simp [Agreeing])
  | bounded _ _ => exact absurd h (by simp [Agreeing])
  | sinh _ _ => exact absurd h (by simp [Agreeing])
  | trunc _ _ _ _ => exact absurd h (by simp [Agreeing])

/-- C83: so is the one for log probabilities, except for the flat prior. -/
theorem C83_lnprob_array (p : Prior1) (h : Agreeing p) (hf : ∀ a b, p ≠ .flat a b) :
    Pointwise p.lnprob p.lnprobArray := by
  cases p with
  | flat a b => exact absurd rfl (hf a b)
  | erf2 a wa b wb =>
    refine pointwise_map _ (fun v => Prior1.erfLnprob a wa b wb v) _ (fun v => rfl) (fun vals => ?_)
    simp only [Prior1.lnprobArray, List.map_map]
    congr 2
    apply List.map_congr_left
    intro v _
    simp only [Function.comp, Prior1.erfLnprob]
    rw [logFl_pos_erf _ (by rw [erfProb_fin a wa b wb v h.1 h.2]; simp [Fl.isFinite])]
  | normal m s b => exact pointwise_map _ _ _ (fun v => rfl) (fun vals => rfl)
  | lognormal m s sh =>
    refine pointwise_filter _ (fun v => v - sh.getD 0 ≤ 0) (fun v =>
        let logval := Real.log (v - sh.getD 0)
        .fin (-0.5) * (Prior1.lnLogivar m s * .fin ((logval - Prior1.lnLogmean m s) ^ 2)) -
          .fin logval - Prior1.lnProbMax m s) _ .gmixRange ?_ ?_ ?_ ?_
    · intro v hv; simp only [Prior1.lnprob]; rw [lognormal_scalar, if_pos hv]
    · intro v hv; simp only [Prior1.lnprob]; rw [lognormal_scalar, if_neg hv]
    · intro vals hv; simp only [Prior1.lnprobArray]; rw [(lognormal_array m s sh vals).1 hv]; rfl
    · intro vals hv; simp only [Prior1.lnprobArray]; rw [(lognormal_array m s sh vals).2 hv]; rfl
  | lmBounds _ _ => exact absurd h (by simp [Agreeing])
  | bounded _ _ => exact absurd h (by simp [Agreeing])
  | sinh _ _ => exact absurd h (by simp [Agreeing])
  | trunc _ _ _ _ => exact absurd h (by simp [Agreeing])

/-- C83 (defect of the unchanged code): the flat prior's array method for log probabilities raises for the right
arrays, but returns one plain number whatever the number of values. -/
theorem C83_flat_lnprob_array (a b : ℝ) (vals : List ℝ) :
    ((∀ v ∈ vals, a ≤ v ∧ v ≤ b) → (Prior1.flat a b).lnprobArray vals = .ok (.num (.fin 0))) ∧
    ((∃ v ∈ vals, v < a ∨ b < v) → (Prior1.flat a b).lnprobArray vals = .error .gmixRange) := by
  simp only [Prior1.lnprobArray]
  constructor
  · intro h
    rw [if_neg]
    intro hc
    obtain ⟨v, hm, hv⟩ := (filter_pos_iff _ _).mp hc
    have := h v hm
    rcases hv with hv | hv <;> linarith
  · intro h
    rw [if_pos ((filter_pos_iff _ _).mpr h)]

/-- C83 (limitation of the unchanged code): with a zero width, at its edge, the log probability of one value is NaN
where the array method gives minus infinity. -/
theorem C83_erf_zero_width (a wa b : ℝ) :
    (Prior1.erf2 a wa b 0).lnprob b = .ok .nan ∧ (Prior1.erf2 a wa b 0).lnprobArray [b] = .ok (.arr [.ninf]) := by
  have h : Prior1.erfProb a wa b 0 b = .nan := by
    simp only [Prior1.erfProb, sub_self]
    rw [Fl.fin_div_zero]
    simp [Fl.infOf, erfFl]
  constructor
  · simp only [Prior1.lnprob, Prior1.erfLnprob, h]
    rw [if_neg (by rw [h]; simp [Fl.lt, Fl.isZero])]
    rfl
  · simp [Prior1.lnprobArray, h, Fl.pos, Fl.lt]

/-- C83: arrays given to `get_fdiff` of the classes that take them. -/
theorem C83_fdiff_array (p : Prior1) (vals : List ℝ) (r : Except PyErr (List Fl)) (h : p.fdiffArray vals = some r) :
    ∃ ys, r = .ok ys ∧ List.Forall₂ (fun v y => p.fdiff v = .ok y) vals ys := by
  cases p <;> simp only [Prior1.fdiffArray] at h <;> first | (cases h; done) | skip
  all_goals
    injection h with h; subst h
    refine ⟨_, rfl, (forall2_map_iff _ _ _ (fun v _ => ?_) _).mpr rfl⟩
    rfl

theorem erf_strictMono : StrictMono erf := by
  intro x y hxy
  unfold erf
  have hc : Continuous fun t : ℝ => Real.exp (-t ^ 2) := by fun_prop
  have hadd := intervalIntegral.integral_add_adjacent_intervals (hc.intervalIntegrable (μ := MeasureTheory.volume) 0 x)
    (hc.intervalIntegrable (μ := MeasureTheory.volume) x y)
  have hpos : 0 < ∫ t in x..y, Real.exp (-t ^ 2) :=
    intervalIntegral.intervalIntegral_pos_of_pos (hc.intervalIntegrable x y) (fun t => Real.exp_pos _) hxy
  have hsp : 0 < Real.sqrt Real.pi := Real.sqrt_pos.mpr Real.pi_pos
  apply mul_lt_mul_of_pos_left _ (by positivity)
  rw [← hadd]; linarith

theorem erf_odd (x : ℝ) : erf (-x) = -erf x := by
  unfold erf
  have : (∫ t in (0)..(-x), Real.exp (-t ^ 2)) = -∫ t in (0)..x, Real.exp (-t ^ 2) := by
    have h := intervalIntegral.integral_comp_neg (a := 0) (b := x) (fun t : ℝ => Real.exp (-t ^ 2))
    simp only [neg_sq, neg_zero] at h
    rw [h, intervalIntegral.integral_symm]
  rw [this]; ring

/-- C83, `TwoSidedErf`: where the value is negative, zero and positive. -/
theorem C83_erf_sign (a wa b wb x : ℝ) (hwa : wa ≠ 0) (hwb : wb ≠ 0) :
    ∃ P, (Prior1.erf2 a wa b wb).prob x = .ok (.fin P) ∧
      (P < 0 ↔ (x - a) / wa < (x - b) / wb) ∧ (P = 0 ↔ (x - a) / wa = (x - b) / wb) := by
  refine ⟨_, by simp only [Prior1.prob]; rw [erfProb_fin a wa b wb x hwa hwb], ?_⟩
  have : erf ((b - x) / wb) = -erf ((x - b) / wb) := by
    rw [← erf_odd]; congr 1; ring
  rw [this]
  constructor
  · rw [← erf_strictMono.lt_iff_lt (a := (x - a) / wa)]; constructor <;> intro h <;> linarith
  · rw [← erf_strictMono.injective.eq_iff (a := (x - a) / wa)]; constructor <;> intro h <;> linarith

/-- C83: with one width and the limits in order it is a probability: strictly positive. -/
theorem C83_erf_positive (a b w x : ℝ) (hw : 0 < w) (hab : a < b) :
    ∃ P, (Prior1.erf2 a w b w).prob x = .ok (.fin P) ∧ 0 < P ∧ P < 1 := by
  obtain ⟨P, h, h1, h2⟩ := C83_erf_sign a w b w x hw.ne' hw.ne'
  refine ⟨P, h, ?_, ?_⟩
  · by_contra hn
    rcases lt_or_eq_of_le (not_lt.mp hn) with hn | hn
    · have := h1.mp hn
      rw [div_lt_div_iff_of_pos_right hw] at this
      linarith
    · have := h2.mp hn
      rw [div_left_inj' hw.ne'] at this
      linarith
  · obtain ⟨P', hP', hlt, -⟩ := C44_erf a w b w x hw.ne' hw.ne'
    simp only [Prior1.prob] at h
    rw [erfProb_fin a w b w x hw.ne' hw.ne', ← hP'] at h
    injection h with h; injection h with h
    rwa [← h]

/-- C83 (defect of the unchanged code): with two different widths, whatever the limits, the "probability" is
negative far enough on the side of the smaller width, where the log probability is minus infinity, so that it is
not the exponential of it. -/
theorem C83_erf_negative (a wa b wb : ℝ) (hwb : 0 < wb) (hw : wb < wa) :
    ∀ x, (wa * b - wb * a) / (wa - wb) < x →
      ∃ P, (Prior1.erf2 a wa b wb).prob x = .ok (.fin P) ∧ P < 0 ∧
        (Prior1.erf2 a wa b wb).lnprob x = .ok .ninf := by
  intro x hx
  have hwa : 0 < wa := by linarith
  obtain ⟨P, h, h1, -⟩ := C83_erf_sign a wa b wb x hwa.ne' hwb.ne'
  have hP : P < 0 := by
    rw [h1, div_lt_div_iff₀ hwa hwb]
    rw [div_lt_iff₀ (by linarith)] at hx
    nlinarith
  refine ⟨P, h, hP, ?_⟩
  obtain ⟨P', hP', -, -, h3⟩ := C44_erf a wa b wb x hwa.ne' hwb.ne'
  apply h3
  simp only [Prior1.prob] at h
  rw [erfProb_fin a wa b wb x hwa.ne' hwb.ne', ← hP'] at h
  injection h with h; injection h with h
  rw [h]; exact hP.le

/-- C83: the array method of `TruncatedGaussian`, exactly: it never raises; an element strictly between the limits
has the value of the scalar method; at the two limits, where the scalar method gives a number, and beyond them,
where it raises, the element is minus infinity. -/
theorem C83_trunc_array (mean sigma minval maxval : ℝ) (p : Prior1)
    (h : Prior1.mkTrunc mean sigma minval maxval = .ok p) (vals : List ℝ) :
    ∃ out : List Fl, p.lnprobArray vals = .ok (.arr out) ∧ out.length = vals.length ∧
      ∀ (i : ℕ) (x : ℝ) (L : Fl), vals[i]? = some x → out[i]? = some L →
        (minval < x → x < maxval → p.lnprob x = .ok L) ∧
        (x = minval ∨ x = maxval → L = .ninf ∧ (minval ≤ maxval → ∃ l : ℝ, p.lnprob x = .ok (.fin l))) ∧
        (x < minval ∨ maxval < x → L = .ninf ∧ p.lnprob x = .error .gmixRange) := by
  unfold Prior1.mkTrunc at h
  split_ifs at h with hs
  injection h with h; subst h
  refine ⟨_, rfl, by simp, ?_⟩
  intro i x L hx hL
  rw [List.getElem?_map, hx] at hL
  simp only [Option.map_some, Option.some.injEq] at hL
  subst hL
  refine ⟨fun h1 h2 => ?_, fun h1 => ⟨?_, fun hmm => ?_⟩, fun h1 => ⟨?_, ?_⟩⟩
  · rw [if_pos ⟨h1, h2⟩]
    simp only [Prior1.lnprob]
    rw [if_neg (by push Not; exact ⟨h1.le, h2.le⟩)]
  · rw [if_neg (by rintro ⟨a, b⟩; rcases h1 with h1 | h1 <;> linarith)]
  · simp only [Prior1.lnprob]
    rw [if_neg (by push Not; rcases h1 with h1 | h1 <;> constructor <;> linarith)]
    exact ⟨_, rfl⟩
  · rw [if_neg (by rintro ⟨a, b⟩; rcases h1 with h1 | h1 <;> linarith)]
  · simp only [Prior1.lnprob]
    rw [if_pos (by rcases h1 with h1 | h1; exact Or.inl h1; exact Or.inr h1)]

/-- Priors meeting the hypotheses. -/
example : Agreeing (.lognormal 2 1 (some (-3))) ∧ Agreeing (.erf2 0 1 5 2) ∧ Agreeing (.normal 1 3 none) :=
  ⟨⟨by norm_num, by norm_num⟩, ⟨by norm_num, by norm_num⟩, by simp [Agreeing]⟩

example : Prior1.mkTrunc 1 2 0 3 = .ok (.trunc 1 2 0 3) := by simp [Prior1.mkTrunc]

end Ngmix.Props
