import Verif.Model.MomResult
import Mathlib.Tactic.FieldSimp
import Mathlib.Tactic.Ring
import Mathlib.Tactic.Linarith

/-! Helper lemmas about ratio errors and moment results. -/

namespace Ngmix

open Classical

/-- First-order variance of `a/b`. -/
noncomputable def ratioQuad (a b va vb cab : ℝ) : ℝ :=
  (1 / b) ^ 2 * va + (-a / b ^ 2) ^ 2 * vb + 2 * (1 / b) * (-a / b ^ 2) * cab

theorem getRatioVar_fin {a b : ℝ} (va vb cab : ℝ) (ha : a ≠ 0) (hb : b ≠ 0) :
    getRatioVar (.fin a) (.fin b) (.fin va) (.fin vb) (.fin cab)
      = .ok (.fin (ratioQuad a b va vb cab)) := by
  have hab : a * b ≠ 0 := mul_ne_zero ha hb
  have haa : a * a ≠ 0 := mul_ne_zero ha ha
  have hbb : b * b ≠ 0 := mul_ne_zero hb hb
  unfold getRatioVar
  rw [if_neg (by simpa using hb)]
  simp only [Fl.fin_div _ _ hb, Fl.fin_sq, Fl.fin_mul, Fl.fin_div _ _ haa, Fl.fin_div _ _ hbb,
    Fl.fin_div _ _ hab, Fl.fin_add, Fl.fin_sub]
  congr 2
  unfold ratioQuad
  field_simp
  ring

theorem infOf_not_fin (x y : ℝ) : Fl.infOf x ≠ Fl.fin y := by
  unfold Fl.infOf; split_ifs <;> simp

theorem add_fin_not_fin {x : Fl} (h : ∀ y, x ≠ Fl.fin y) (z : Fl) : ∀ y, x + z ≠ Fl.fin y := by
  intro y
  change Fl.add x z ≠ _
  cases x with
  | fin w => exact absurd rfl (h w)
  | nan => cases z <;> simp [Fl.add]
  | pinf => cases z <;> simp [Fl.add]
  | ninf => cases z <;> simp [Fl.add]

theorem getRatioVar_zero {b : ℝ} (va vb cab : ℝ) (hb : b ≠ 0) :
    getRatioVar (.fin 0) (.fin b) (.fin va) (.fin vb) (.fin cab) = .ok .nan := by
  unfold getRatioVar
  rw [if_neg (by simpa using hb)]
  have h1 : (Fl.fin va / (Fl.fin 0).sq) = Fl.infOf va := by
    rw [Fl.fin_sq, mul_zero, Fl.fin_div_zero]
  have h0 : (Fl.fin 0 / Fl.fin b).sq = Fl.fin 0 := by
    rw [Fl.fin_div _ _ hb]; simp
  simp only [h0, h1]
  congr 1
  apply Fl.zero_mul_not_fin
  exact add_fin_not_fin (add_fin_not_fin (infOf_not_fin va) _) _

theorem getRatioError_fin {a b : ℝ} (va vb cab : ℝ) (hb : b ≠ 0) :
    getRatioError (.fin a) (.fin b) (.fin va) (.fin vb) (.fin cab)
      = .ok (if a = 0 then .nan else .fin (Real.sqrt (max (ratioQuad a b va vb cab) 0))) := by
  unfold getRatioError
  by_cases ha : a = 0
  · subst ha
    rw [getRatioVar_zero _ _ _ hb]
    simp [Except.bind, Fl.clip0, Fl.sqrt]
  · rw [getRatioVar_fin _ _ _ ha hb, if_neg ha]
    simp [Except.bind, Fl.clip0, Fl.sqrt]

theorem getRatioError_isOk {a b va vb cab : Fl} (hb : ¬ b.isZero) :
    ∃ x, getRatioError a b va vb cab = .ok x := by
  unfold getRatioError getRatioVar
  rw [if_neg hb]
  exact ⟨_, rfl⟩

/-- What a named entry must be. -/
noncomputable def namedVal (sums : List Fl) (name : String) (ind : ℕ) : Fl :=
  if name = "MF" ∨ name = "M00" then sums.getD 5 .nan
  else if (sums.getD 5 .nan).pos then sums.getD ind .nan / sums.getD 5 .nan else .nan

theorem namedEntry_ok {sums : List Fl} {cov : CovMat} {name : String} {ind : ℕ}
    (h : ind < cov.n) : ∃ err, namedEntry sums cov name ind = .ok (name, namedVal sums name ind, err) := by
  unfold namedEntry namedVal
  by_cases h1 : name = "MF" ∨ name = "M00"
  · simp only [if_pos h1]; exact ⟨_, rfl⟩
  · simp only [if_neg h1]
    by_cases h2 : (sums.getD 5 .nan).pos
    · simp only [if_pos h2, if_neg (not_le.2 h)]
      have hz : ¬ (sums.getD 5 Fl.nan).isZero := by
        generalize sums.getD 5 Fl.nan = x at h2
        cases x <;> simp_all [Fl.pos, Fl.lt, Fl.isZero]
        exact ne_of_gt h2
      obtain ⟨x, hx⟩ := getRatioError_isOk (a := sums.getD ind Fl.nan) (va := cov.get ind ind)
        (vb := cov.get 5 5) (cab := cov.get ind 5) hz
      exact ⟨x, by rw [hx]; rfl⟩
    · simp only [if_neg h2]; exact ⟨_, rfl⟩

theorem addMomentsByName_ok (sums : List Fl) (cov : CovMat) (h : sums.length ≤ cov.n)
    (l : List (String × ℕ)) :
    ∃ named, addMomentsByName sums cov l = .ok named ∧
      named.map (fun x => (x.1, x.2.1))
        = (l.filter (fun p => decide (p.2 < sums.length))).map
            (fun p => (p.1, namedVal sums p.1 p.2)) := by
  induction l with
  | nil => exact ⟨[], rfl, rfl⟩
  | cons p l ih =>
    obtain ⟨name, ind⟩ := p
    obtain ⟨named, hn, he⟩ := ih
    unfold addMomentsByName
    by_cases hi : ind ≥ sums.length
    · rw [if_pos hi]
      refine ⟨named, hn, ?_⟩
      rw [List.filter_cons_of_neg (by simpa using hi)]
      exact he
    · rw [if_neg hi]
      obtain ⟨err, herr⟩ := namedEntry_ok (sums := sums) (cov := cov) (name := name)
        (ind := ind) (by omega)
      refine ⟨(name, namedVal sums name ind, err) :: named, ?_, ?_⟩
      · rw [herr, hn]; rfl
      · rw [List.filter_cons_of_pos (by simpa using hi), List.map_cons, List.map_cons, he]

end Ngmix
