import Verif.Spec.Weights
import Verif.Proof.FlScale
import Verif.Proof.ExceptLemmas

/-! Moment results of the same sums with another covariance. -/

namespace Ngmix.Fl

theorem scale_div_left {s : ℝ} (hs : 0 < s) (a b : Fl) : (fin s * a) / b = fin s * (a / b) := by
  rcases a with _ | _ | _ | x <;> rcases b with _ | _ | _ | y <;>
    simp only [scale_nan, scale_pinf hs, scale_ninf hs, fin_mul] <;> try rfl
  · change (if y < 0 then ninf else pinf) = fin s * (if y < 0 then ninf else pinf)
    split_ifs
    · exact (scale_ninf hs).symm
    · exact (scale_pinf hs).symm
  · change (if y < 0 then pinf else ninf) = fin s * (if y < 0 then pinf else ninf)
    split_ifs
    · exact (scale_pinf hs).symm
    · exact (scale_ninf hs).symm
  · change fin 0 = fin (s * 0); rw [mul_zero]
  · change fin 0 = fin (s * 0); rw [mul_zero]
  · change (if y = 0 then infOf (s * x) else fin (s * x / y)) = fin s * (if y = 0 then infOf x else fin (x / y))
    split_ifs
    · rw [infOf_scale hs, infOf_mul_pos hs]
    · rw [fin_mul, mul_div_assoc]

theorem scale_div_right {c : ℝ} (hc : 0 < c) (a b : Fl) : a / (fin c * b) = fin (1 / c) * (a / b) := by
  have h1 : 0 < 1 / c := one_div_pos.2 hc
  have h2 := scale_div hc (fin (1 / c) * a) b
  have h3 : fin c * (fin (1 / c) * a) = a := by
    have := scale_mul hc h1 (fin 1) a
    rw [one_scale, mul_one_div_cancel hc.ne', one_scale, fin_mul, mul_one] at this
    exact this
  rw [h3, scale_div_left h1] at h2
  exact h2

theorem scale_add {s : ℝ} (hs : 0 < s) (a b : Fl) : fin s * a + fin s * b = fin s * (a + b) := by
  rcases a with _ | _ | _ | x <;> rcases b with _ | _ | _ | y <;>
    simp only [scale_nan, scale_pinf hs, scale_ninf hs, fin_mul] <;>
    first
      | rfl
      | exact (scale_pinf hs).symm
      | exact (scale_ninf hs).symm
      | (simp only [fin_add, fin_mul]; rw [mul_add])

theorem scale_neg {s : ℝ} (hs : 0 < s) (a : Fl) : -(fin s * a) = fin s * (-a) := by
  rcases a with _ | _ | _ | x <;> simp only [scale_nan, scale_pinf hs, scale_ninf hs, fin_mul] <;>
    first
      | rfl
      | exact (scale_pinf hs).symm
      | exact (scale_ninf hs).symm
      | (simp only [fin_neg, fin_mul]; rw [mul_neg])

theorem scale_sub {s : ℝ} (hs : 0 < s) (a b : Fl) : fin s * a - fin s * b = fin s * (a - b) := by
  change fin s * a + -(fin s * b) = fin s * (a + -b)
  rw [scale_neg hs, scale_add hs]

theorem mul_scale {s : ℝ} (hs : 0 < s) (a b : Fl) : a * (fin s * b) = fin s * (a * b) := by
  have := scale_mul one_pos hs a b
  rwa [one_scale, one_mul] at this

theorem scale_clip0 {s : ℝ} (hs : 0 < s) (a : Fl) : (fin s * a).clip0 = fin s * a.clip0 := by
  rcases a with _ | _ | _ | x
  · rfl
  · rw [scale_pinf hs]; exact (scale_pinf hs).symm
  · rw [scale_ninf hs]; change fin 0 = fin (s * 0); rw [mul_zero]
  · change fin (max (s * x) 0) = fin (s * max x 0)
    rw [mul_max_of_nonneg _ _ hs.le, mul_zero]

theorem scale_isFinite {s : ℝ} (hs : 0 < s) (a : Fl) : (fin s * a).isFinite ↔ a.isFinite := by
  rcases a with _ | _ | _ | x <;> simp only [scale_nan, scale_pinf hs, scale_ninf hs, fin_mul]
  exact Iff.rfl

end Ngmix.Fl

namespace Ngmix.Props

open Ngmix Ngmix.Spec Classical

variable {c : ℝ}

/-- The errors of a ratio are `c` times as large when all covariances are `c²` times as large. -/
theorem ratioError_times (hc : 0 < c) (a b va vb cab : Fl) :
    getRatioError a b (.fin (c ^ 2) * va) (.fin (c ^ 2) * vb) (.fin (c ^ 2) * cab) =
      (getRatioError a b va vb cab).map fun x => .fin c * x := by
  have h2 : 0 < c ^ 2 := by positivity
  unfold getRatioError getRatioVar
  by_cases hb : b.isZero
  · rw [if_pos hb, if_pos hb]; rfl
  · rw [if_neg hb, if_neg hb]
    simp only [Except.bind, Except.map, Fl.two_scale h2, Fl.scale_div_left h2, Fl.scale_add h2, Fl.scale_sub h2,
      Fl.mul_scale h2, Fl.scale_clip0 h2, Fl.scale_sqrt hc]

/-- Covariances `c²` times as large. -/
noncomputable def covTimes (c : ℝ) (cov : CovMat) : CovMat := ⟨cov.n, cov.m, fun i j => .fin (c ^ 2) * cov.get i j⟩

theorem namedEntry_times (hc : 0 < c) (sums : List Fl) (cov : CovMat) (name : String) (ind : ℕ) :
    namedEntry sums (covTimes c cov) name ind =
      (namedEntry sums cov name ind).map fun x => (x.1, x.2.1, .fin c * x.2.2) := by
  unfold namedEntry
  simp only [covTimes, Fl.scale_sqrt hc, ratioError_times hc]
  split_ifs
  · rfl
  · rfl
  · rcases getRatioError (sums.getD ind .nan) (sums.getD 5 .nan) (cov.get ind ind) (cov.get 5 5) (cov.get ind 5) <;> rfl
  · rfl

theorem addMoments_times (hc : 0 < c) (sums : List Fl) (cov : CovMat) : ∀ l : List (String × ℕ),
    addMomentsByName sums (covTimes c cov) l =
      (addMomentsByName sums cov l).map (List.map fun x => (x.1, x.2.1, .fin c * x.2.2)) := by
  intro l
  induction l with
  | nil => rfl
  | cons x l ih =>
    obtain ⟨name, ind⟩ := x
    unfold addMomentsByName
    split_ifs
    · exact ih
    · rw [namedEntry_times hc, ih]
      rcases namedEntry sums cov name ind with e | v
      · rfl
      · rcases addMomentsByName sums cov l with e | es <;> rfl

theorem momFlux_times (hc : 0 < c) (sums : List Fl) (cov : CovMat) :
    momFlux sums (covTimes c cov) =
      (.fin c * (momFlux sums cov).1, .fin (1 / c) * (momFlux sums cov).2.1, (momFlux sums cov).2.2) := by
  unfold momFlux
  simp only [covTimes, Fl.scale_pos (pow_pos hc 2), Fl.scale_sqrt hc, Fl.scale_div_right hc]
  by_cases hp : (cov.get 5 5).pos
  · simp only [if_pos hp]
  · simp only [if_neg hp]; rfl

theorem momSize_times (hc : 0 < c) (sums : List Fl) (cov : CovMat) :
    momSize sums (covTimes c cov) = (momSize sums cov).map fun x => (x.1, .fin c * x.2.1, x.2.2) := by
  unfold momSize
  simp only [covTimes, Fl.scale_pos (pow_pos hc 2), ratioError_times hc]
  split_ifs
  · rcases getRatioError (sums.getD 4 .nan) (sums.getD 5 .nan) (cov.get 4 4) (cov.get 5 5) (cov.get 4 5) <;> rfl
  · rfl
  · rfl

theorem momBase_times (hc : 0 < c) (sums : List Fl) (cov : CovMat) (nrm : Option Fl) (tp : Fl × Fl × ℕ) :
    momBase sums (covTimes c cov) nrm (momFlux sums (covTimes c cov)) (tp.1, .fin c * tp.2.1, tp.2.2) =
      errorsTimes c (momBase sums cov nrm (momFlux sums cov) tp) := by
  have hall : (∀ i < (covTimes c cov).n, ((covTimes c cov).get i i).pos) ↔ ∀ i < cov.n, (cov.get i i).pos := by
    simp only [covTimes, Fl.scale_pos (pow_pos hc 2)]
  unfold momBase
  rw [momFlux_times hc]
  by_cases h : ∀ i < cov.n, (cov.get i i).pos
  · rw [if_pos (hall.2 h), if_pos h]
    simp only [errorsTimes, covTimes, List.map_map, Fl.scale_sqrt hc, Function.comp_def, List.map_nil, Fl.scale_nan]
  · rw [if_neg (fun hh => h (hall.1 hh)), if_neg h]
    simp only [errorsTimes, covTimes, List.map_replicate, List.map_nil, Fl.scale_nan]

theorem momShape_times (hc : 0 < c) (sums : List Fl) (cov : CovMat) (b : MomRes) (hb : b.sumsCov = cov) :
    momShape sums (covTimes c cov) (errorsTimes c b) = (momShape sums cov b).map (errorsTimes c) := by
  unfold momShape
  have h1 : (errorsTimes c b).flags = b.flags := rfl
  have h2 : (errorsTimes c b).flux = b.flux := rfl
  have h3 : (errorsTimes c b).T = b.T := rfl
  simp only [h1, h2, h3]
  split_ifs
  · simp only [covTimes, ratioError_times hc]
    rcases getRatioError (sums.getD 2 .nan) (sums.getD 4 .nan) (cov.get 2 2) (cov.get 4 4) (cov.get 2 4) with e | e1
    · rfl
    · rcases getRatioError (sums.getD 3 .nan) (sums.getD 4 .nan) (cov.get 3 3) (cov.get 4 4) (cov.get 3 4) with e | e2
      · rfl
      · simp only [Except.bind, Except.map, Fl.scale_isFinite hc]
        split_ifs
        · simp only [errorsTimes, Fl.scale_sq hc]
        · rfl
  · rfl
  · rfl
  · rfl

/-- A moment result with all covariances `c²` times as large. -/
theorem makeMomResult_times (hc : 0 < c) (sums : List Fl) (cov : CovMat) (nrm : Option Fl) :
    makeMomResult sums (covTimes c cov) nrm = (makeMomResult sums cov nrm).map (errorsTimes c) := by
  unfold makeMomResult
  rw [show (covTimes c cov).n = cov.n from rfl, show (covTimes c cov).m = cov.m from rfl]
  split_ifs
  · rfl
  · rfl
  · rw [momSize_times hc]
    rcases momSize sums cov with e | tp
    · rfl
    · simp only [Except.map, Except.bind]
      rw [momBase_times hc, momShape_times hc _ _ _ (by unfold momBase; dsimp only; split_ifs <;> rfl)]
      rcases momShape sums cov (momBase sums cov nrm (momFlux sums cov) tp) with e | r
      · rfl
      · simp only [Except.map]
        rw [addMoments_times hc]
        rcases addMomentsByName sums cov momentsNameMap with e | l <;> rfl

/-! ### Any other covariance -/

/-- What matters of a covariance for everything that is not an error. -/
structure SameSigns (sums : List Fl) (cov cov' : CovMat) : Prop where
  rows : cov'.n = cov.n
  cols : cov'.m = cov.m
  pos : ∀ i, (cov'.get i i).pos ↔ (cov.get i i).pos
  ratio : ∀ i j,
    match getRatioError (sums.getD i .nan) (sums.getD j .nan) (cov.get i i) (cov.get j j) (cov.get i j),
      getRatioError (sums.getD i .nan) (sums.getD j .nan) (cov'.get i i) (cov'.get j j) (cov'.get i j) with
    | .ok e, .ok e' => e.isFinite ↔ e'.isFinite
    | .error e, .error e' => e = e'
    | _, _ => False

/-- Finite numbers: whether an error of a ratio is finite does not depend on the covariances. -/
theorem ratioError_finite (a b va vb cab : ℝ) (hb : b ≠ 0) :
    ∃ e, getRatioError (.fin a) (.fin b) (.fin va) (.fin vb) (.fin cab) = .ok e ∧ (e.isFinite ↔ a ≠ 0) := by
  unfold getRatioError getRatioVar
  rw [if_neg (by simpa using hb)]
  refine ⟨_, rfl, ?_⟩
  by_cases ha : a = 0
  · subst ha
    have hz : (Fl.fin 0 / Fl.fin b).sq = .fin 0 := by rw [Fl.fin_div _ _ hb]; simp
    have hn : ∀ y, Fl.fin va / (Fl.fin 0).sq + Fl.fin vb / (Fl.fin b).sq - Fl.fin 2 * Fl.fin cab / (Fl.fin 0 * Fl.fin b)
        ≠ .fin y := by
      intro y
      rw [show (Fl.fin 0).sq = .fin 0 by simp, show Fl.fin 0 * Fl.fin b = .fin 0 by simp, Fl.fin_div_zero,
        show (Fl.fin b).sq = .fin (b * b) by simp, Fl.fin_div _ _ (mul_ne_zero hb hb), Fl.fin_mul, Fl.fin_div_zero]
      unfold Fl.infOf
      split_ifs <;> exact fun h => by cases h
    rw [hz, Fl.zero_mul_not_fin _ hn]
    exact ⟨fun h => h.elim, fun h => absurd rfl h⟩
  · rw [Fl.fin_div _ _ hb, Fl.fin_sq, Fl.fin_sq, Fl.fin_sq, Fl.fin_mul, Fl.fin_mul, Fl.fin_div _ _ (mul_ne_zero ha ha),
      Fl.fin_div _ _ (mul_ne_zero hb hb), Fl.fin_div _ _ (mul_ne_zero ha hb), Fl.fin_add, Fl.fin_sub, Fl.fin_mul]
    refine ⟨fun _ => ha, fun _ => ?_⟩
    simp only [Fl.clip0, Fl.sqrt]
    rw [if_neg (not_lt.2 (le_max_right _ _))]
    trivial

theorem sameSigns_fin (f : ℕ → ℝ) (n : ℕ) (k : ℕ) (C C' : ℕ → ℕ → ℝ) (h : ∀ i, 0 < C' i i ↔ 0 < C i i) :
    SameSigns ((List.range n).map fun i => Fl.fin (f i)) ⟨k, k, fun i j => .fin (C i j)⟩ ⟨k, k, fun i j => .fin (C' i j)⟩ := by
  refine ⟨rfl, rfl, fun i => ?_, fun i j => ?_⟩
  · simpa using h i
  · have hs : ∀ i, ((List.range n).map fun i => Fl.fin (f i)).getD i .nan = .nan ∨
        ((List.range n).map fun i => Fl.fin (f i)).getD i .nan = .fin (f i) := by
      intro i
      rw [List.getD_eq_getElem?_getD, List.getElem?_map]
      by_cases hi : i < n
      · right; rw [List.getElem?_range hi]; rfl
      · left; rw [List.getElem?_eq_none (by simpa using hi)]; rfl
    have hnan : ∀ b va vb cab : Fl, getRatioError .nan b va vb cab = if b.isZero then .error .value else .ok .nan := by
      intro b va vb cab
      unfold getRatioError getRatioVar
      by_cases h : b.isZero
      · rw [if_pos h, if_pos h]; rfl
      · rw [if_neg h, if_neg h]; rfl
    rcases hs i with ei | ei
    · rw [ei]
      simp only [hnan]
      split_ifs
      · trivial
      · exact Iff.rfl
    · rw [ei]
      rcases hs j with ej | ej
      · rw [ej]
        have hb : ∀ a va vb cab : Fl, getRatioError a .nan va vb cab = .ok .nan := by
          intro a va vb cab
          unfold getRatioError getRatioVar
          rw [if_neg (show ¬ Fl.nan.isZero from fun h => h)]
          rcases a with _ | _ | _ | x <;> rfl
        simp only [hb]
      · rw [ej]
        by_cases hz : f j = 0
        · have he : ∀ va vb cab : Fl, getRatioError (.fin (f i)) (.fin (f j)) va vb cab = .error .value := by
            intro va vb cab
            unfold getRatioError getRatioVar
            rw [if_pos (by simpa using hz)]; rfl
          simp only [he]
        · obtain ⟨e, h1, h2⟩ := ratioError_finite (f i) (f j) (C i i) (C j j) (C i j) hz
          obtain ⟨e', h1', h2'⟩ := ratioError_finite (f i) (f j) (C' i i) (C' j j) (C' i j) hz
          simp only [h1, h1', h2, h2']

variable {sums : List Fl} {cov cov' : CovMat}

theorem namedEntry_signs (h : SameSigns sums cov cov') (name : String) (ind : ℕ) :
    (namedEntry sums cov' name ind).map (fun x => (x.1, x.2.1)) =
      (namedEntry sums cov name ind).map fun x => (x.1, x.2.1) := by
  unfold namedEntry
  simp only [h.rows]
  have hr := h.ratio ind 5
  split_ifs
  · rfl
  · rfl
  · revert hr
    rcases getRatioError (sums.getD ind .nan) (sums.getD 5 .nan) (cov.get ind ind) (cov.get 5 5) (cov.get ind 5) <;>
      rcases getRatioError (sums.getD ind .nan) (sums.getD 5 .nan) (cov'.get ind ind) (cov'.get 5 5) (cov'.get ind 5) <;>
      intro hr
    · rw [show _ = _ from hr]
    · exact hr.elim
    · exact hr.elim
    · rfl
  · rfl

theorem addMoments_signs (h : SameSigns sums cov cov') : ∀ l : List (String × ℕ),
    (addMomentsByName sums cov' l).map (List.map fun x => (x.1, x.2.1)) =
      (addMomentsByName sums cov l).map (List.map fun x => (x.1, x.2.1)) := by
  intro l
  induction l with
  | nil => rfl
  | cons x l ih =>
    obtain ⟨name, ind⟩ := x
    unfold addMomentsByName
    split_ifs
    · exact ih
    · have hn := namedEntry_signs h name ind
      revert hn ih
      rcases namedEntry sums cov name ind with e | v <;> rcases namedEntry sums cov' name ind with e' | v' <;>
        rcases addMomentsByName sums cov l with f | w <;> rcases addMomentsByName sums cov' l with f' | w' <;>
        simp +contextual [Except.map, Except.bind]

theorem momSize_signs (h : SameSigns sums cov cov') :
    (momSize sums cov').map (fun x => (x.1, x.2.2)) = (momSize sums cov).map fun x => (x.1, x.2.2) := by
  unfold momSize
  simp only [h.pos]
  have hr := h.ratio 4 5
  split_ifs
  · revert hr
    rcases getRatioError (sums.getD 4 .nan) (sums.getD 5 .nan) (cov.get 4 4) (cov.get 5 5) (cov.get 4 5) <;>
      rcases getRatioError (sums.getD 4 .nan) (sums.getD 5 .nan) (cov'.get 4 4) (cov'.get 5 5) (cov'.get 4 5) <;>
      intro hr
    · rw [show _ = _ from hr]
    · exact hr.elim
    · exact hr.elim
    · rfl
  · rfl
  · rfl

theorem momFlux_signs (h : SameSigns sums cov cov') : (momFlux sums cov').2.2 = (momFlux sums cov).2.2 := by
  unfold momFlux
  simp only [h.pos]
  split_ifs <;> rfl

theorem momBase_signs (h : SameSigns sums cov cov') (nrm : Option Fl) (tp tp' : Fl × Fl × ℕ) (h1 : tp'.1 = tp.1)
    (h2 : tp'.2.2 = tp.2.2) :
    SameButErrors (momBase sums cov nrm (momFlux sums cov) tp) (momBase sums cov' nrm (momFlux sums cov') tp') := by
  have hall : (∀ i < cov'.n, (cov'.get i i).pos) ↔ ∀ i < cov.n, (cov.get i i).pos := by
    rw [h.rows]
    exact forall_congr' fun i => forall_congr' fun _ => h.pos i
  unfold momBase
  simp only [hall]
  split_ifs <;> exact ⟨rfl, momFlux_signs h, h2, rfl, h1, rfl, rfl, rfl, rfl, rfl, rfl⟩

/-- Relation of outcomes. -/
def SameRes : Except PyErr MomRes → Except PyErr MomRes → Prop
  | .ok r, .ok r' => SameButErrors r r'
  | .error e, .error e' => e = e'
  | _, _ => False

theorem momShape_signs (h : SameSigns sums cov cov') {b b' : MomRes} (hb : SameButErrors b b') :
    SameRes (momShape sums cov b) (momShape sums cov' b') := by
  obtain ⟨q1, q2, q3, q4, q5, q6, q7, q8, q9, q10, q11⟩ := hb
  unfold momShape
  simp only [q1, q4, q5]
  have r1 := h.ratio 2 4
  have r2 := h.ratio 3 4
  split_ifs
  · revert r1 r2
    rcases getRatioError (sums.getD 2 .nan) (sums.getD 4 .nan) (cov.get 2 2) (cov.get 4 4) (cov.get 2 4) with e1 | e1 <;>
      rcases getRatioError (sums.getD 2 .nan) (sums.getD 4 .nan) (cov'.get 2 2) (cov'.get 4 4) (cov'.get 2 4) with e1' | e1' <;>
      intro r1 r2
    · exact r1
    · exact r1.elim
    · exact r1.elim
    · revert r2
      rcases getRatioError (sums.getD 3 .nan) (sums.getD 4 .nan) (cov.get 3 3) (cov.get 4 4) (cov.get 3 4) with e2 | e2 <;>
        rcases getRatioError (sums.getD 3 .nan) (sums.getD 4 .nan) (cov'.get 3 3) (cov'.get 4 4) (cov'.get 3 4) with e2' | e2' <;>
        intro r2
      · exact r2
      · exact r2.elim
      · exact r2.elim
      · simp only [Except.bind]
        have hiff : (e1'.isFinite ∧ e2'.isFinite) ↔ (e1.isFinite ∧ e2.isFinite) := and_congr (Iff.symm r1) (Iff.symm r2)
        by_cases hf : e1.isFinite ∧ e2.isFinite
        · rw [if_pos hf, if_pos (hiff.2 hf)]
          exact ⟨rfl, q2, q3, rfl, rfl, rfl, rfl, rfl, q9, q10, q11⟩
        · rw [if_neg hf, if_neg (fun hh => hf (hiff.1 hh))]
          exact ⟨rfl, q2, q3, rfl, rfl, rfl, rfl, rfl, q9, q10, q11⟩
  · exact ⟨rfl, q2, q3, rfl, rfl, q6, q7, q8, q9, q10, q11⟩
  · exact ⟨rfl, q2, q3, rfl, rfl, q6, q7, q8, q9, q10, q11⟩
  · exact ⟨q1, q2, q3, q4, q5, q6, q7, q8, q9, q10, q11⟩

/-- Moment results of the same sums. -/
theorem makeMomResult_signs (h : SameSigns sums cov cov') (nrm : Option Fl) :
    SameRes (makeMomResult sums cov nrm) (makeMomResult sums cov' nrm) := by
  unfold makeMomResult
  rw [h.rows, h.cols]
  split_ifs
  · rfl
  · rfl
  · have hs := momSize_signs h
    revert hs
    rcases momSize sums cov with e | tp <;> rcases momSize sums cov' with e' | tp' <;> intro hs <;>
      simp only [Except.map, Except.ok.injEq, Except.error.injEq, Prod.mk.injEq, reduceCtorEq] at hs
    · exact hs.symm
    · simp only [Except.bind]
      have hb := momShape_signs h (momBase_signs h nrm tp tp' hs.1 hs.2)
      revert hb
      rcases momShape sums cov (momBase sums cov nrm (momFlux sums cov) tp) with e | r <;>
        rcases momShape sums cov' (momBase sums cov' nrm (momFlux sums cov') tp') with e' | r' <;> intro hb
      · exact hb
      · exact hb.elim
      · exact hb.elim
      · have hn := addMoments_signs h momentsNameMap
        revert hn
        rcases addMomentsByName sums cov momentsNameMap with e | l <;>
          rcases addMomentsByName sums cov' momentsNameMap with e' | l' <;> intro hn <;>
          simp only [Except.map, Except.ok.injEq, Except.error.injEq, reduceCtorEq] at hn
        · exact hn.symm
        · obtain ⟨q1, q2, q3, q4, q5, q6, q7, q8, q9, q10, q11⟩ := hb
          exact ⟨q1, q2, q3, q4, q5, q6, q7, q8, q9, q10, hn⟩

end Ngmix.Props
