import Mathlib.Tactic.Linarith
import Mathlib.Tactic.NormNum
import Mathlib.Tactic.Ring
import Mathlib.Data.List.Forall2
import Verif.Model.Guessers
import Verif.Spec.Guessers
import Verif.Proof.Shape
import Verif.Proof.ExceptLemmas

/-! # Lemmas about guesses -/

namespace Ngmix

open Spec JointPrior

/-- The draws of the random state lie in `[0, 1)`. -/
def URng.Unit {σ : Type} (r : URng σ) : Prop := ∀ s, 0 ≤ (r.unit s).1 ∧ (r.unit s).1 < 1

theorem uniform_between {σ : Type} {r : URng σ} (h : r.Unit) (a b : ℝ) (s : σ) : Between a b (r.uniform a b s).1 := by
  obtain ⟨h0, h1⟩ := h s
  simp only [URng.uniform, Between]
  rcases le_total a b with hab | hab
  · rw [min_eq_left hab, max_eq_right hab]
    constructor <;> nlinarith
  · rw [min_eq_right hab, max_eq_left hab]
    constructor <;> nlinarith

theorem uniforms_spec {σ : Type} {r : URng σ} (h : r.Unit) (a b : ℝ) (n : ℕ) (s : σ) :
    (r.uniforms a b n s).1.length = n ∧ ∀ x ∈ (r.uniforms a b n s).1, Between a b x := by
  induction n generalizing s with
  | zero => simp [URng.uniforms]
  | succ n ih =>
      simp only [URng.uniforms, List.length_cons, List.mem_cons, (ih _).1, true_and]
      rintro x (rfl | hx)
      · exact uniform_between h _ _ _
      · exact (ih _).2 x hx

/-- A function that multiplies and shifts. -/
def AffineFn (f : ℝ → ℝ) : Prop := ∃ a b, ∀ x, f x = a + b * x

theorem between_affine {f : ℝ → ℝ} (hf : AffineFn f) {a b x : ℝ} (h : Between a b x) : Between (f a) (f b) (f x) := by
  obtain ⟨p, q, hf⟩ := hf
  obtain ⟨h1, h2⟩ := h
  simp only [Between, hf]
  rcases le_total a b with hab | hab <;> rcases le_total 0 q with hq | hq
  · rw [min_eq_left hab] at h1; rw [max_eq_right hab] at h2
    exact ⟨min_le_of_left_le (by nlinarith), le_max_of_le_right (by nlinarith)⟩
  · rw [min_eq_left hab] at h1; rw [max_eq_right hab] at h2
    exact ⟨min_le_of_right_le (by nlinarith), le_max_of_le_left (by nlinarith)⟩
  · rw [min_eq_right hab] at h1; rw [max_eq_left hab] at h2
    exact ⟨min_le_of_right_le (by nlinarith), le_max_of_le_left (by nlinarith)⟩
  · rw [min_eq_right hab] at h1; rw [max_eq_left hab] at h2
    exact ⟨min_le_of_left_le (by nlinarith), le_max_of_le_right (by nlinarith)⟩

/-! ### Columns -/

theorem putCol_ok (i : ℕ) (rows : List (List ℝ)) (vs : List ℝ) (hl : vs.length = rows.length)
    (hi : ∀ row ∈ rows, i < row.length) :
    putCol i rows vs = .ok (List.zipWith (fun row v => row.set i v) rows vs) := by
  induction rows generalizing vs with
  | nil => cases vs <;> rfl
  | cons row rows ih =>
      cases vs with
      | nil => simp at hl
      | cons v vs =>
          have h1 : i < row.length := hi row (by simp)
          simp only [putCol, colSet, h1, if_true, Except.bind,
            ih vs (by simpa using hl) (fun x hx => hi x (by simp [hx])), Except.map, List.zipWith_cons_cons]

theorem putCol_index (i : ℕ) (row : List ℝ) (rows : List (List ℝ)) (v : ℝ) (vs : List ℝ) (hi : row.length ≤ i) :
    putCol i (row :: rows) (v :: vs) = .error .index := by
  simp [putCol, colSet, Nat.not_lt.2 hi, Except.bind]

theorem zip_forall₂ (g : ℝ → ℝ) (i : ℕ) (P : ℝ → Prop) (rows : List (List ℝ)) (vs : List ℝ) (hl : vs.length = rows.length)
    (hP : ∀ v ∈ vs, P v) :
    List.Forall₂ (fun row row' => ∃ v, P v ∧ row' = row.set i (g v)) rows
      (List.zipWith (fun row v => row.set i v) rows (vs.map g)) := by
  induction rows generalizing vs with
  | nil => simp
  | cons row rows ih =>
      cases vs with
      | nil => simp at hl
      | cons v vs =>
          simp only [List.map_cons, List.zipWith_cons_cons, List.forall₂_cons]
          exact ⟨⟨v, hP v (by simp), rfl⟩, ih vs (by simpa using hl) (fun x hx => hP x (by simp [hx]))⟩

theorem fillCol_ok {σ : Type} {r : URng σ} (h : r.Unit) (c : GCol) (rows : List (List ℝ)) (s : σ)
    (hi : ∀ row ∈ rows, c.idx < row.length) :
    ∃ rows' s', fillCol r c rows s = .ok (rows', s') ∧
      List.Forall₂ (fun row row' => ∃ v, Between c.low c.high v ∧ row' = row.set c.idx (c.f v)) rows rows' := by
  obtain ⟨hl, hb⟩ := uniforms_spec h c.low c.high rows.length s
  refine ⟨_, (r.uniforms c.low c.high rows.length s).2, ?_, zip_forall₂ c.f c.idx (Between c.low c.high) rows _ hl hb⟩
  simp only [fillCol]
  rw [putCol_ok _ _ _ (by simpa using hl) hi]
  rfl

/-- A row after successive column assignments. -/
def WrittenBy : List GCol → List ℝ → List ℝ → Prop
  | [], base, row => row = base
  | c :: cs, base, row => ∃ v, Between c.low c.high v ∧ WrittenBy cs (base.set c.idx (c.f v)) row

theorem writtenBy_length {cols : List GCol} {base row : List ℝ} (h : WrittenBy cols base row) : row.length = base.length := by
  induction cols generalizing base with
  | nil => rw [h]
  | cons c cs ih =>
      obtain ⟨v, _, h⟩ := h
      simpa using ih h

theorem forall₂_comp {R S T : List ℝ → List ℝ → Prop} (hT : ∀ a b c, R a b → S b c → T a c) {xs ys zs : List (List ℝ)}
    (h1 : List.Forall₂ R xs ys) (h2 : List.Forall₂ S ys zs) : List.Forall₂ T xs zs := by
  induction h1 generalizing zs with
  | nil => cases h2; exact .nil
  | cons h _ ih =>
      cases h2 with
      | cons h' t' => exact .cons (hT _ _ _ h h') (ih t')

theorem forall₂_right {R : List ℝ → List ℝ → Prop} {P Q : List ℝ → Prop} (hPQ : ∀ a b, R a b → P a → Q b)
    {xs ys : List (List ℝ)} (h : List.Forall₂ R xs ys) (hP : ∀ x ∈ xs, P x) : ∀ y ∈ ys, Q y := by
  induction h with
  | nil => simp
  | cons h _ ih =>
      intro y hy
      rcases List.mem_cons.1 hy with rfl | hy
      · exact hPQ _ _ h (hP _ (by simp))
      · exact ih (fun x hx => hP x (by simp [hx])) y hy

theorem fillCols_ok {σ : Type} {r : URng σ} (h : r.Unit) (cols : List GCol) (rows : List (List ℝ)) (s : σ)
    (hi : ∀ c ∈ cols, ∀ row ∈ rows, c.idx < row.length) :
    ∃ rows' s', fillCols r cols rows s = .ok (rows', s') ∧ List.Forall₂ (WrittenBy cols) rows rows' := by
  induction cols generalizing rows s with
  | nil =>
      refine ⟨rows, s, rfl, ?_⟩
      exact List.forall₂_same.2 fun _ _ => rfl
  | cons c cs ih =>
      obtain ⟨rows1, s1, h1, hw1⟩ := fillCol_ok h c rows s (hi c (by simp))
      have hlen : ∀ d ∈ cs, ∀ row ∈ rows1, d.idx < row.length := by
        intro d hd
        refine forall₂_right (P := fun row => d.idx < row.length) ?_ hw1 (hi d (by simp [hd]))
        rintro a b ⟨v, _, rfl⟩ hab
        simpa using hab
      obtain ⟨rows2, s2, h2, hw2⟩ := ih rows1 s1 hlen
      refine ⟨rows2, s2, ?_, ?_⟩
      · simp only [fillCols, GM.andThen, h1, Except.bind]
        exact h2
      · refine forall₂_comp ?_ hw1 hw2
        rintro a b c' ⟨v, hv, rfl⟩ hbc
        exact ⟨v, hv, hbc⟩

/-- The column a `GCol` writes and the range of the numbers written. -/
def GCol.range (c : GCol) : ℕ × ℝ × ℝ := (c.idx, c.f c.low, c.f c.high)

theorem writtenBy_replaced {cols : List GCol} (hf : ∀ c ∈ cols, AffineFn c.f) (hn : (cols.map GCol.idx).Nodup)
    {base row : List ℝ} (h : WrittenBy cols base row) : Replaced (cols.map GCol.range) base row := by
  induction cols generalizing base with
  | nil =>
      rw [show row = base from h]
      exact ⟨rfl, fun j x hx => Or.inr ⟨by simp, hx⟩⟩
  | cons c cs ih =>
      obtain ⟨v, hv, h⟩ := h
      simp only [List.map_cons, List.nodup_cons] at hn
      obtain ⟨hl, hr⟩ := ih (fun d hd => hf d (by simp [hd])) hn.2 h
      refine ⟨by simpa using hl, fun j x hx => ?_⟩
      rcases hr j x hx with ⟨d, hd, hdj, hdb⟩ | ⟨hno, hb⟩
      · exact Or.inl ⟨d, by simp only [List.map_cons, List.mem_cons]; exact Or.inr hd, hdj, hdb⟩
      · by_cases hj : c.idx = j
        · refine Or.inl ⟨c.range, by simp, hj, ?_⟩
          have hjl : j < base.length := by
            have := (List.getElem?_eq_some_iff.1 hx).1
            rw [hl] at this
            simpa using this
          rw [hj, List.getElem?_set_self hjl] at hb
          cases hb
          exact between_affine (hf c (by simp)) hv
        · refine Or.inr ⟨?_, ?_⟩
          · intro d hd
            simp only [List.map_cons, List.mem_cons] at hd
            rcases hd with rfl | hd
            · exact hj
            · exact hno d hd
          · rwa [List.getElem?_set_ne hj] at hb

theorem bandCols_range (low high : ℝ) (f : ℝ → ℝ → ℝ) (k : ℕ) (fluxes : List ℝ) :
    (bandCols low high f k fluxes).map GCol.range = columnsFrom k (fluxes.map fun x => (f x low, f x high)) := by
  induction fluxes generalizing k with
  | nil => rfl
  | cons x xs ih => simp [bandCols, columnsFrom, ih, GCol.range]

theorem columnsFrom_idx (k : ℕ) (bs : List (ℝ × ℝ)) : (columnsFrom k bs).map Prod.fst = List.range' k bs.length := by
  induction bs generalizing k with
  | nil => rfl
  | cons b bs ih => simp [columnsFrom, ih, List.range'_succ]

theorem range_idx (cols : List GCol) : cols.map GCol.idx = (cols.map GCol.range).map Prod.fst := by
  simp [List.map_map, Function.comp_def, GCol.range]

theorem bandCols_affine (low high : ℝ) (f : ℝ → ℝ → ℝ) (hf : ∀ x, AffineFn (f x)) (k : ℕ) (fluxes : List ℝ) :
    ∀ c ∈ bandCols low high f k fluxes, AffineFn c.f := by
  induction fluxes generalizing k with
  | nil => simp [bandCols]
  | cons x xs ih =>
      intro c hc
      simp only [bandCols, List.mem_cons] at hc
      rcases hc with rfl | hc
      · exact hf x
      · exact ih _ c hc

theorem columnsFrom_get (k : ℕ) (bs : List (ℝ × ℝ)) (c : ℕ × ℝ × ℝ) :
    c ∈ columnsFrom k bs ↔ ∃ i, c.1 = k + i ∧ bs[i]? = some c.2 := by
  induction bs generalizing k with
  | nil => simp [columnsFrom]
  | cons b bs ih =>
      simp only [columnsFrom, List.mem_cons, ih]
      constructor
      · rintro (rfl | ⟨i, h1, h2⟩)
        · exact ⟨0, by simp, by simp⟩
        · exact ⟨i + 1, by omega, by simpa using h2⟩
      · rintro ⟨i, h1, h2⟩
        cases i with
        | zero =>
            left
            simp at h2
            exact Prod.ext (by simpa using h1) h2.symm
        | succ i => exact Or.inr ⟨i, by omega, by simpa using h2⟩

/-- A row all of whose columns are replaced is in the ranges. -/
theorem replaced_all {bounds : List (ℝ × ℝ)} {base row : List ℝ} (hl : base.length = bounds.length)
    (h : Replaced (columnsFrom 0 bounds) base row) : RowIn bounds row := by
  unfold RowIn
  rw [List.forall₂_iff_get]
  refine ⟨by rw [h.1, hl], fun i h1 h2 => ?_⟩
  rcases h.2 i row[i] (List.getElem?_eq_getElem h2) with ⟨c, hc, hci, hb⟩ | ⟨hno, _⟩
  · obtain ⟨j, hj, hjb⟩ := (columnsFrom_get _ _ _).1 hc
    have hji : j = i := by omega
    subst hji
    rw [List.getElem?_eq_getElem h1] at hjb
    have hjb' : bounds[j] = c.2 := by simpa using hjb
    simp only [List.get_eq_getElem]
    rw [hjb']
    exact hb
  · exact absurd rfl (hno (i, bounds[i]) ((columnsFrom_get _ _ _).2 ⟨i, by simp, by simp⟩))

/-! ### Fixing -/

theorem badGuess_true {σ : Type} {p : GuessPrior σ} {row : List ℝ} (h : badGuess p row = .ok true) :
    Excluded p.lnprob row := by
  unfold badGuess at h
  unfold Excluded
  split at h <;> simp_all

theorem badGuess_false {σ : Type} {p : GuessPrior σ} {row : List ℝ} (h : badGuess p row = .ok false) :
    Allowed p.lnprob row := by
  unfold badGuess at h
  unfold Allowed
  split at h <;> simp_all

theorem badGuess_error {σ : Type} {p : GuessPrior σ} {row : List ℝ} {e : PyErr} (h : badGuess p row = .error e) :
    p.lnprob row = .error e ∧ e ≠ .gmixRange := by
  unfold badGuess at h
  split at h <;> simp_all

theorem stateAfter_succ' {σ : Type} (sample : σ → List ℝ × σ) (s : σ) (k : ℕ) :
    stateAfter sample (sample s).2 k = stateAfter sample s (k + 1) := by
  induction k with
  | zero => rfl
  | succ k ih => simp only [stateAfter] at ih ⊢; rw [ih]

/-- How a replacement behaves on rows and samples of the right length. -/
def PutKeeps (keep : ℕ) (put : List ℝ → List ℝ → Except PyErr (List ℝ)) : Prop :=
  ∀ row new, new.length = row.length → put row new = .ok (row.take keep ++ new.drop keep)

theorem putAll_keeps : PutKeeps 0 putAll := by
  intro row new h
  simp [putAll, h]

theorem putTail_keeps : PutKeeps 4 putTail := by
  intro row new h
  simp [putTail, h]

theorem take_put (keep : ℕ) (row new : List ℝ) (h : new.length = row.length) :
    (row.take keep ++ new.drop keep).length = row.length ∧
      (row.take keep ++ new.drop keep).take keep = row.take keep := by
  refine ⟨by simp [h]; omega, ?_⟩
  rw [List.take_append, List.length_take, List.take_take, min_self]
  rcases le_total keep row.length with hk | hk
  · simp [min_eq_left hk]
  · rw [List.drop_eq_nil_of_le (by omega)]
    simp

/-- The outcome of the tries on one row. -/
theorem fixRow_spec {σ : Type} (p : GuessPrior σ) {keep : ℕ} {put : List ℝ → List ℝ → Except PyErr (List ℝ)}
    (hput : PutKeeps keep put) (n : ℕ) (row : List ℝ) (s : σ) (hs : ∀ s, (p.sample s).1.length = row.length) :
    (∃ k ≤ n, fixRow p put n row s = .ok (candidate keep p.sample row s k, stateAfter p.sample s k) ∧
      (∀ i < k, Excluded p.lnprob (candidate keep p.sample row s i)) ∧
      (k < n → Allowed p.lnprob (candidate keep p.sample row s k))) ∨
    (∃ k < n, ∃ e, fixRow p put n row s = .error e ∧ e ≠ .gmixRange ∧
      p.lnprob (candidate keep p.sample row s k) = .error e ∧
      ∀ i < k, Excluded p.lnprob (candidate keep p.sample row s i)) := by
  induction n generalizing row s with
  | zero => exact Or.inl ⟨0, le_refl _, rfl, by simp, by simp⟩
  | succ n ih =>
      rcases hb : badGuess p row with e | b
      · obtain ⟨he, hne⟩ := badGuess_error hb
        exact Or.inr ⟨0, by omega, e, by simp [fixRow, hb], hne, he, by simp⟩
      · cases b with
        | false => exact Or.inl ⟨0, by omega, by simp [fixRow, hb, candidate, stateAfter], by simp, fun _ => badGuess_false hb⟩
        | true =>
            have hex := badGuess_true hb
            obtain ⟨hl, ht⟩ := take_put keep row (p.sample s).1 (hs s)
            have hstep : fixRow p put (n + 1) row s =
                fixRow p put n (row.take keep ++ (p.sample s).1.drop keep) (p.sample s).2 := by
              simp only [fixRow, hb, hput _ _ (hs s), Except.bind]
            have hc : ∀ k, candidate keep p.sample (row.take keep ++ (p.sample s).1.drop keep) (p.sample s).2 k =
                candidate keep p.sample row s (k + 1) := by
              intro k
              cases k with
              | zero => rfl
              | succ k => simp only [candidate]; rw [ht, stateAfter_succ']
            have hex' : ∀ k, (∀ i < k, Excluded p.lnprob
                (candidate keep p.sample (row.take keep ++ (p.sample s).1.drop keep) (p.sample s).2 i)) →
                ∀ i < k + 1, Excluded p.lnprob (candidate keep p.sample row s i) := by
              intro k h i hi
              cases i with
              | zero => exact hex
              | succ i => rw [← hc]; exact h i (by omega)
            rcases ih (row.take keep ++ (p.sample s).1.drop keep) (p.sample s).2 (fun s' => by rw [hl, hs]) with
              ⟨k, hk, h1, h2, h3⟩ | ⟨k, hk, e, h1, h2, h3, h4⟩
            · refine Or.inl ⟨k + 1, by omega, ?_, hex' k h2, fun hlt => ?_⟩
              · rw [hstep, h1, hc, stateAfter_succ']
              · rw [← hc]; exact h3 (by omega)
            · exact Or.inr ⟨k + 1, by omega, e, by rw [hstep, h1], h2, by rw [← hc]; exact h3, hex' k h4⟩

theorem fixRows_spec {σ : Type} (p : GuessPrior σ) {keep L : ℕ} {put : List ℝ → List ℝ → Except PyErr (List ℝ)}
    (hput : PutKeeps keep put) (rows : List (List ℝ)) (s : σ) (hs : ∀ s, (p.sample s).1.length = L)
    (hr : ∀ row ∈ rows, row.length = L) :
    (∃ out s', fixRows p put rows s = .ok (out, s') ∧
      List.Forall₂ (fun row row' => ∃ s, FixedRow keep p.lnprob p.sample row s row') rows out) ∨
    (∃ e, fixRows p put rows s = .error e ∧ e ≠ .gmixRange ∧ ∃ row, p.lnprob row = .error e) := by
  induction rows generalizing s with
  | nil => exact Or.inl ⟨[], s, rfl, .nil⟩
  | cons row rows ih =>
      have hrow := hr row (by simp)
      rcases fixRow_spec p hput 4 row s (fun s => by rw [hs, hrow]) with ⟨k, hk, h1, h2, h3⟩ | ⟨k, hk, e, h1, h2, h3, h4⟩
      · rcases ih (stateAfter p.sample s k) (fun x hx => hr x (by simp [hx])) with ⟨out, s', h5, h6⟩ | ⟨e, h5, h6, h7⟩
        · refine Or.inl ⟨candidate keep p.sample row s k :: out, s', ?_, .cons ⟨s, k, hk, rfl, h2, h3⟩ h6⟩
          simp only [fixRows, h1, Except.bind, h5, Except.map]
        · exact Or.inr ⟨e, by simp only [fixRows, h1, Except.bind, h5, Except.map], h6, h7⟩
      · exact Or.inr ⟨e, by simp only [fixRows, h1, Except.bind], h2, _, h3⟩

theorem squeeze_rows (n : ℕ) (rows : List (List ℝ)) : (squeeze n rows).rows = rows := by
  unfold squeeze
  split <;> rfl

/-- The samples of a prior have `L` numbers, and `n` of them are drawn when `n` are asked for. -/
def GuessPrior.Sized {σ : Type} (p : GuessPrior σ) (L : ℕ) : Prop :=
  (∀ s, (p.sample s).1.length = L) ∧ ∀ n s, (p.sampleN n s).1.length = n ∧ ∀ row ∈ (p.sampleN n s).1, row.length = L

/-- The row is kept without a prior, and settled with one. -/
def FixedBy {σ : Type} (keep : ℕ) (prior : Option (GuessPrior σ)) (w row : List ℝ) : Prop :=
  match prior with
  | none => row = w
  | some p => ∃ s, FixedRow keep p.lnprob p.sample w s row

/-- What a guesser returns for rows `bases` of which columns `cols` are replaced and which the prior, if any, then fixes. -/
def GuessOutcome {σ : Type} (n : ℕ) (bases : List (List ℝ)) (cols : List (ℕ × ℝ × ℝ)) (keep : ℕ)
    (prior : Option (GuessPrior σ)) (res : Except PyErr (GuessOut × σ)) : Prop :=
  (∃ out s', res = .ok (out, s') ∧ out.rows.length = n ∧ ((∃ row, out = .one row) ↔ n = 1) ∧
    List.Forall₂ (fun base row => ∃ w, Replaced cols base w ∧ FixedBy keep prior w row) bases out.rows) ∨
  (∃ p e, prior = some p ∧ res = .error e ∧ e ≠ .gmixRange ∧ ∃ row, p.lnprob row = .error e)

theorem squeeze_one (n : ℕ) (rows : List (List ℝ)) (h : rows.length = n) : (∃ row, squeeze n rows = .one row) ↔ n = 1 := by
  constructor
  · rintro ⟨row, hr⟩
    unfold squeeze at hr
    split at hr
    · rfl
    · cases hr
  · rintro rfl
    obtain ⟨row, rfl⟩ := List.length_eq_one_iff.1 h
    exact ⟨row, rfl⟩

theorem guessRows_spec {σ : Type} {r : URng σ} (h : r.Unit) (n L : ℕ) (start : GM σ (List (List ℝ))) (cols : List GCol)
    (prior : Option (GuessPrior σ)) {keep : ℕ} {put : List ℝ → List ℝ → Except PyErr (List ℝ)} (hput : PutKeeps keep put)
    (s s1 : σ) (bases : List (List ℝ)) (hstart : start s = .ok (bases, s1)) (hn : bases.length = n)
    (hL : ∀ row ∈ bases, row.length = L) (hc : ∀ c ∈ cols, c.idx < L) (hf : ∀ c ∈ cols, AffineFn c.f)
    (hd : (cols.map GCol.idx).Nodup) (hp : ∀ p, prior = some p → ∀ s, (p.sample s).1.length = L) :
    GuessOutcome n bases (cols.map GCol.range) keep prior (guessRows r n start cols (fixOpt prior put) s) := by
  obtain ⟨rows, s2, h2, hw⟩ := fillCols_ok h cols bases s1 (fun c hc' row hrow => by rw [hL row hrow]; exact hc c hc')
  have hlen : rows.length = n := by rw [← hw.length_eq, hn]
  have hL2 : ∀ row ∈ rows, row.length = L :=
    forall₂_right (P := fun row => row.length = L) (fun a b hab ha => by rw [writtenBy_length hab, ha]) hw hL
  have hwr : List.Forall₂ (Replaced (cols.map GCol.range)) bases rows := hw.imp fun a b hab => writtenBy_replaced hf hd hab
  cases prior with
  | none =>
      refine Or.inl ⟨squeeze n rows, s2, ?_, ?_, squeeze_one n rows hlen, ?_⟩
      · simp only [guessRows, GM.andThen, hstart, Except.bind, h2, fixOpt]
      · rw [squeeze_rows, hlen]
      · rw [squeeze_rows]
        exact hwr.imp fun a b hab => ⟨b, hab, rfl⟩
  | some p =>
      rcases fixRows_spec p hput rows s2 (hp p rfl) hL2 with ⟨out, s', h5, h6⟩ | ⟨e, h5, h6, h7⟩
      · have hlo : out.length = n := by rw [← h6.length_eq, hlen]
        refine Or.inl ⟨squeeze n out, s', ?_, ?_, squeeze_one n out hlo, ?_⟩
        · simp only [guessRows, GM.andThen, hstart, Except.bind, h2, fixOpt, h5]
        · rw [squeeze_rows, hlo]
        · rw [squeeze_rows]
          refine forall₂_comp ?_ hwr h6
          rintro a b c hab ⟨s, hs⟩
          exact ⟨b, hab, s, hs⟩
      · exact Or.inr ⟨p, e, rfl, by simp only [guessRows, GM.andThen, hstart, Except.bind, h2, fixOpt, h5], h6, h7⟩

end Ngmix
