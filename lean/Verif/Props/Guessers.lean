import Verif.Proof.Guessers

/-! # C62: guesses stay in their ranges, and what the prior does to them -/

namespace Ngmix.Props

open Spec JointPrior

/-- What a guesser returns whose columns all have a range: the number of rows asked for (one row alone when one was asked
for), each in the ranges, or, with a prior, settled from a row in the ranges.  The only errors are those of the prior, other
than range errors. -/
def RangesOutcome {σ : Type} (n : ℕ) (bounds : List (ℝ × ℝ)) (prior : Option (GuessPrior σ))
    (res : Except PyErr (GuessOut × σ)) : Prop :=
  (∃ out s', res = .ok (out, s') ∧ out.rows.length = n ∧ ((∃ row, out = .one row) ↔ n = 1) ∧
    ∀ row ∈ out.rows, ∃ w, RowIn bounds w ∧ FixedBy 0 prior w row) ∨
  (∃ p e, prior = some p ∧ res = .error e ∧ e ≠ .gmixRange ∧ ∃ row, p.lnprob row = .error e)

theorem ranges_of_outcome {σ : Type} {n : ℕ} {bounds : List (ℝ × ℝ)} {prior : Option (GuessPrior σ)}
    {res : Except PyErr (GuessOut × σ)}
    (h : GuessOutcome n (zeroRows n bounds.length) (columnsFrom 0 bounds) 0 prior res) : RangesOutcome n bounds prior res := by
  rcases h with ⟨out, s', h1, h2, h3, h4⟩ | h
  · refine Or.inl ⟨out, s', h1, h2, h3, ?_⟩
    refine forall₂_right (P := fun base => base.length = bounds.length) ?_ h4 ?_
    · rintro a b ⟨w, hw, hb⟩ ha
      exact ⟨w, replaced_all ha hw, hb⟩
    · intro x hx
      rw [(List.mem_replicate.1 hx).2, List.length_replicate]
  · exact Or.inr h

theorem zeroRows_length (n L : ℕ) : (zeroRows n L).length = n ∧ ∀ row ∈ zeroRows n L, row.length = L :=
  ⟨by simp [zeroRows], fun row hrow => by rw [(List.mem_replicate.1 hrow).2, List.length_replicate]⟩

theorem columnsFrom_append (k : ℕ) (as bs : List (ℝ × ℝ)) :
    columnsFrom k (as ++ bs) = columnsFrom k as ++ columnsFrom (k + as.length) bs := by
  induction as generalizing k with
  | nil => rfl
  | cons a as ih => simp only [List.cons_append, columnsFrom, ih, List.length_cons]; congr 3; omega

theorem affine_mul (a : ℝ) : AffineFn fun x => a * x := ⟨0, a, fun x => by ring⟩
theorem affine_id : AffineFn id := ⟨0, 1, fun x => by simp⟩
theorem affine_rel (a : ℝ) : AffineFn fun x => a * (1.0 + x) := ⟨a, a, fun x => by norm_num; ring⟩
theorem affine_relw (a w : ℝ) : AffineFn fun x => a * (1.0 + w * x) := ⟨a, a * w, fun x => by norm_num; ring⟩

/-- The ranges for centre, shape, size and fluxes. -/
def tfluxRanges (T : ℝ) (fluxes : List ℝ) : List (ℝ × ℝ) :=
  [(-0.01, 0.01), (-0.01, 0.01), (-0.02, 0.02), (-0.02, 0.02), tenPercent T] ++ fluxes.map tenPercent

theorem mul_range (low high : ℝ) (k : ℕ) (fluxes : List ℝ) (hl : low = 0.9) (hh : high = 1.1) :
    (bandCols low high (fun flux x => flux * x) k fluxes).map GCol.range = columnsFrom k (fluxes.map tenPercent) := by
  subst hl hh
  rw [bandCols_range]
  congr 1
  exact List.map_congr_left fun x _ => Prod.ext (mul_comm _ _) (mul_comm _ _)

theorem rel_range (k : ℕ) (fluxes : List ℝ) :
    (bandCols (-0.1) 0.1 (fun flux x => flux * (1.0 + x)) k fluxes).map GCol.range = columnsFrom k (fluxes.map tenPercent) := by
  rw [bandCols_range]
  congr 1
  refine List.map_congr_left fun x _ => Prod.ext ?_ ?_ <;> simp only [tenPercent] <;> norm_num <;> ring

theorem relw_range (k : ℕ) (fluxes : List ℝ) :
    (r50Bands k fluxes).map GCol.range = columnsFrom k (fluxes.map tenPercent) := by
  rw [r50Bands, bandCols_range]
  congr 1
  refine List.map_congr_left fun x _ => Prod.ext ?_ ?_ <;> simp only [tenPercent] <;> norm_num <;> ring

theorem relT_range (T : ℝ) : GCol.range ⟨4, -0.1, 0.1, fun x => T * (1.0 + x)⟩ = (4, tenPercent T) := by
  refine Prod.ext rfl (Prod.ext ?_ ?_) <;> simp only [GCol.range, tenPercent] <;> norm_num <;> ring

theorem tflux_cols (T : ℝ) (fluxes : List ℝ) : (tfluxCols T fluxes).map GCol.range = columnsFrom 0 (tfluxRanges T fluxes) := by
  rw [tfluxCols, List.map_append, mul_range _ _ _ _ rfl rfl, tfluxRanges, columnsFrom_append]
  congr 1
  simp [columnsFrom, GCol.range, tenPercent, mul_comm]

theorem tflux_affine (T : ℝ) (fluxes : List ℝ) : ∀ c ∈ tfluxCols T fluxes, AffineFn c.f := by
  intro c hc
  simp only [tfluxCols, List.mem_append, List.mem_cons, List.not_mem_nil, or_false] at hc
  rcases hc with (rfl | rfl | rfl | rfl | rfl) | hc
  · exact affine_id
  · exact affine_id
  · exact affine_id
  · exact affine_id
  · exact affine_mul T
  · exact bandCols_affine _ _ _ affine_mul _ _ c hc

/-- Indices of numbered columns. -/
theorem numbered_ok {cols : List GCol} {k : ℕ} {bounds : List (ℝ × ℝ)} (h : cols.map GCol.range = columnsFrom k bounds) :
    (cols.map GCol.idx).Nodup ∧ ∀ c ∈ cols, c.idx < k + bounds.length := by
  have hi : cols.map GCol.idx = List.range' k bounds.length := by rw [range_idx, h, columnsFrom_idx]
  refine ⟨by rw [hi]; exact List.nodup_range', fun c hc => ?_⟩
  have : c.idx ∈ cols.map GCol.idx := List.mem_map_of_mem hc
  rw [hi, List.mem_range'_1] at this
  exact this.2

theorem ranged_guess {σ : Type} {r : URng σ} (h : r.Unit) (n : ℕ) (cols : List GCol) (bounds : List (ℝ × ℝ))
    (prior : Option (GuessPrior σ)) (hr : cols.map GCol.range = columnsFrom 0 bounds) (hf : ∀ c ∈ cols, AffineFn c.f)
    (hp : ∀ p, prior = some p → p.Sized bounds.length) (s : σ) :
    RangesOutcome n bounds prior
      (guessRows r n (fun s => .ok (zeroRows n bounds.length, s)) cols (fixOpt prior putAll) s) := by
  obtain ⟨h1, h2⟩ := numbered_ok hr
  apply ranges_of_outcome
  rw [← hr]
  exact guessRows_spec h n bounds.length _ cols prior putAll_keeps s s _ rfl (zeroRows_length _ _).1 (zeroRows_length _ _).2
    (by simpa using h2) hf h1 (fun p hp' => (hp p hp').1)

/-- **C62 (size and fluxes).** `TFluxGuesser`: centre within 0.01 and shape within 0.02 of zero, size and fluxes within 10% of
those given, in each of the rows asked for. -/
theorem C62_tflux {σ : Type} {r : URng σ} (h : r.Unit) (T : ℝ) (fluxes : List ℝ) (prior : Option (GuessPrior σ)) (n : ℕ)
    (hp : ∀ p, prior = some p → p.Sized (5 + fluxes.length)) (s : σ) :
    RangesOutcome n (tfluxRanges T fluxes) prior (tfluxGuess r T fluxes prior n s) := by
  have hl : (tfluxRanges T fluxes).length = 5 + fluxes.length := by simp [tfluxRanges]; omega
  have := ranged_guess h n (tfluxCols T fluxes) (tfluxRanges T fluxes) prior (tflux_cols T fluxes) (tflux_affine T fluxes)
    (by rw [hl]; exact hp) s
  rw [hl] at this
  exact this

theorem r50_cols (r50 : ℝ) (fluxes : List ℝ) :
    (r50Cols r50 ++ r50Bands 5 fluxes).map GCol.range = columnsFrom 0 (tfluxRanges r50 fluxes) := by
  rw [List.map_append, relw_range, tfluxRanges, columnsFrom_append]
  congr 1
  simp only [r50Cols, List.map_cons, List.map_nil, GCol.range, columnsFrom, tenPercent]
  norm_num
  constructor <;> ring

theorem r50_affine (r50 : ℝ) : ∀ c ∈ r50Cols r50, AffineFn c.f := by
  intro c hc
  simp only [r50Cols, List.mem_cons, List.not_mem_nil, or_false] at hc
  rcases hc with rfl | rfl | rfl | rfl | rfl
  · exact affine_mul _
  · exact affine_mul _
  · exact affine_mul _
  · exact affine_mul _
  · exact affine_relw _ _

/-- **C62 (half light radius and fluxes).** `R50FluxGuesser` refuses exactly negative radii; otherwise as `TFluxGuesser`. -/
theorem C62_r50 {σ : Type} {r : URng σ} (h : r.Unit) (r50 : ℝ) (fluxes : List ℝ) (prior : Option (GuessPrior σ)) (n : ℕ)
    (hp : ∀ p, prior = some p → p.Sized (5 + fluxes.length)) (s : σ) :
    (r50 < 0 → r50FluxGuess r r50 fluxes prior n s = .error .gmixRange) ∧
      (0 ≤ r50 → RangesOutcome n (tfluxRanges r50 fluxes) prior (r50FluxGuess r r50 fluxes prior n s)) := by
  have hz : (0.0 : ℝ) = 0 := by norm_num
  constructor
  · intro h0
    simp [r50FluxGuess, r50Check, hz, h0, Except.bind]
  · intro h0
    have hl : (tfluxRanges r50 fluxes).length = 5 + fluxes.length := by simp [tfluxRanges]; omega
    have hf : ∀ c ∈ r50Cols r50 ++ r50Bands 5 fluxes, AffineFn c.f := by
      intro c hc
      rcases List.mem_append.1 hc with hc | hc
      · exact r50_affine r50 c hc
      · exact bandCols_affine _ _ _ (fun x => affine_relw x _) _ _ c hc
    have := ranged_guess h n _ (tfluxRanges r50 fluxes) prior (r50_cols r50 fluxes) hf (by rw [hl]; exact hp) s
    rw [hl] at this
    simpa [r50FluxGuess, r50Check, hz, not_lt.2 h0, Except.bind] using this

/-! ### Guessers that start from samples of the prior -/

theorem prior_guess {σ : Type} {r : URng σ} (h : r.Unit) (p : GuessPrior σ) {L : ℕ} (hp : p.Sized L) (n : ℕ) (cols : List GCol)
    {keep : ℕ} {put : List ℝ → List ℝ → Except PyErr (List ℝ)} (hput : PutKeeps keep put) (hf : ∀ c ∈ cols, AffineFn c.f)
    (hd : (cols.map GCol.idx).Nodup) (hc : ∀ c ∈ cols, c.idx < L) (s : σ) :
    GuessOutcome n (p.sampleN n s).1 (cols.map GCol.range) keep (some p)
      (guessRows r n (priorRows p n) cols (fixRows p put) s) := by
  have := guessRows_spec h n L (priorRows p n) cols (some p) hput s (p.sampleN n s).2 (p.sampleN n s).1 rfl (hp.2 n s).1
    (hp.2 n s).2 hc hf hd (fun q hq => by cases hq; exact hp.1)
  exact this

/-- **C62 (size, fluxes and prior).** `TFluxAndPriorGuesser`: samples of the prior with size and fluxes replaced by numbers
within 10% of those given; fixing replaces all but the centre and shape. -/
theorem C62_tflux_prior {σ : Type} {r : URng σ} (h : r.Unit) (T : ℝ) (fluxes : List ℝ) (p : GuessPrior σ) {L : ℕ}
    (hp : p.Sized L) (hL : 5 + fluxes.length ≤ L) (n : ℕ) (s : σ) :
    GuessOutcome n (p.sampleN n s).1 (columnsFrom 4 (tenPercent T :: fluxes.map tenPercent)) 4 (some p)
      (tfluxPriorGuess r T fluxes p n s) := by
  have hr : (tfluxPriorCols T fluxes).map GCol.range = columnsFrom 4 (tenPercent T :: fluxes.map tenPercent) := by
    rw [tfluxPriorCols, List.map_cons, relT_range, rel_range]
    rfl
  obtain ⟨h1, h2⟩ := numbered_ok hr
  rw [← hr]
  refine prior_guess h p hp n _ putTail_keeps ?_ h1 ?_ s
  · intro c hc
    rcases List.mem_cons.1 hc with rfl | hc
    · exact affine_rel T
    · exact bandCols_affine _ _ _ affine_rel _ _ c hc
  · intro c hc
    have := h2 c hc
    simp only [List.length_cons, List.length_map] at this
    omega

/-- The columns the bulge-disk guessers replace: size, column 5, and the fluxes from column `first` on. -/
def bdRanges (T : ℝ) (first : ℕ) (fluxes : List ℝ) : List (ℕ × ℝ × ℝ) :=
  (4, tenPercent T) :: (5, 0.4, 0.6) :: columnsFrom first (fluxes.map tenPercent)

theorem bd_cols (T : ℝ) (first : ℕ) (fluxes : List ℝ) : (bdCols T first fluxes).map GCol.range = bdRanges T first fluxes := by
  rw [bdCols, List.map_cons, List.map_cons, relT_range, rel_range]
  rfl

theorem bd_guess {σ : Type} {r : URng σ} (h : r.Unit) (T : ℝ) (first : ℕ) (hfirst : 6 ≤ first) (fluxes : List ℝ)
    (p : GuessPrior σ) {L : ℕ} (hp : p.Sized L) (hL : first + fluxes.length ≤ L) (n : ℕ) (s : σ) :
    GuessOutcome n (p.sampleN n s).1 (bdRanges T first fluxes) 0 (some p)
      (guessRows r n (priorRows p n) (bdCols T first fluxes) (fixRows p putAll) s) := by
  rw [← bd_cols]
  have hi : (bdCols T first fluxes).map GCol.idx = 4 :: 5 :: List.range' first fluxes.length := by
    rw [range_idx, bd_cols, bdRanges, List.map_cons, List.map_cons, columnsFrom_idx, List.length_map]
  refine prior_guess h p hp n _ putAll_keeps ?_ ?_ ?_ s
  · intro c hc
    simp only [bdCols, List.mem_cons] at hc
    rcases hc with rfl | rfl | hc
    · exact affine_rel T
    · exact affine_id
    · exact bandCols_affine _ _ _ affine_rel _ _ c hc
  · rw [hi]
    have hnd : (List.range' first fluxes.length).Nodup := List.nodup_range'
    simp only [List.nodup_cons, List.mem_cons, List.mem_range'_1]
    exact ⟨by omega, by omega, hnd⟩
  · intro c hc
    have : c.idx ∈ (bdCols T first fluxes).map GCol.idx := List.mem_map_of_mem hc
    rw [hi] at this
    simp only [List.mem_cons, List.mem_range'_1] at this
    omega

/-- **C62 (bulge and disk, fixed size ratio).** `BDFGuesser`: samples of the prior with the size within 10%, the bulge
fraction (column 5) between 0.4 and 0.6 and the fluxes (from column 6) within 10%. -/
theorem C62_bdf {σ : Type} {r : URng σ} (h : r.Unit) (T : ℝ) (fluxes : List ℝ) (p : GuessPrior σ) {L : ℕ}
    (hp : p.Sized L) (hL : 6 + fluxes.length ≤ L) (n : ℕ) (s : σ) :
    GuessOutcome n (p.sampleN n s).1 (bdRanges T 6 fluxes) 0 (some p) (bdfGuess r T fluxes p n s) :=
  bd_guess h T 6 (le_refl _) fluxes p hp hL n s

/-- **C62 (bulge and disk).** `BDGuesser` writes the number between 0.4 and 0.6 into column 5, which for this model is the
logarithm of the size ratio; the bulge fraction, column 6, stays as the prior sampled it. -/
theorem C62_bd {σ : Type} {r : URng σ} (h : r.Unit) (T : ℝ) (fluxes : List ℝ) (p : GuessPrior σ) {L : ℕ}
    (hp : p.Sized L) (hL : 7 + fluxes.length ≤ L) (n : ℕ) (s : σ) :
    GuessOutcome n (p.sampleN n s).1 (bdRanges T 7 fluxes) 0 (some p) (bdGuess r T fluxes p n s) ∧
      ∀ base row, Replaced (bdRanges T 7 fluxes) base row → row[6]? = base[6]? := by
  refine ⟨bd_guess h T 7 (by omega) fluxes p hp hL n s, fun base row hrow => ?_⟩
  rcases hx : row[6]? with _ | x
  · rw [List.getElem?_eq_none_iff, hrow.1] at hx
    exact (List.getElem?_eq_none_iff.2 hx).symm
  · rcases hrow.2 6 x hx with ⟨c, hc, hc6, _⟩ | ⟨_, hb⟩
    · exfalso
      simp only [bdRanges, List.mem_cons, columnsFrom_get] at hc
      rcases hc with rfl | rfl | ⟨i, hi, _⟩
      · simp at hc6
      · simp at hc6
      · omega
    · exact hb.symm

theorem fillCols_index {σ : Type} {r : URng σ} (h : r.Unit) (cols : List GCol) (rows : List (List ℝ)) (L : ℕ) (s : σ)
    (hne : rows ≠ []) (hL : ∀ row ∈ rows, row.length = L) (hc : ∃ c ∈ cols, L ≤ c.idx) :
    fillCols r cols rows s = .error .index := by
  induction cols generalizing rows s with
  | nil => simp at hc
  | cons c cs ih =>
      rcases Nat.lt_or_ge c.idx L with hlt | hge
      · obtain ⟨rows1, s1, h1, hw⟩ := fillCol_ok h c rows s (fun row hrow => by rw [hL row hrow]; exact hlt)
        simp only [fillCols, GM.andThen, h1, Except.bind]
        refine ih rows1 s1 ?_ ?_ ?_
        · intro he
          rw [he] at hw
          cases hw
          exact hne rfl
        · refine forall₂_right (P := fun row => row.length = L) ?_ hw hL
          rintro a b ⟨v, _, rfl⟩ hab
          simpa using hab
        · obtain ⟨d, hd, hdL⟩ := hc
          rcases List.mem_cons.1 hd with rfl | hd
          · omega
          · exact ⟨d, hd, hdL⟩
      · obtain ⟨row, rest, rfl⟩ := List.exists_cons_of_ne_nil hne
        have hrow := hL row (by simp)
        obtain ⟨hl, _⟩ := uniforms_spec h c.low c.high (row :: rest).length s
        simp only [fillCols, GM.andThen, fillCol]
        rcases hv : (r.uniforms c.low c.high (row :: rest).length s).1 with _ | ⟨v, vs⟩
        · rw [hv] at hl; simp at hl
        · rw [List.map_cons, putCol_index _ _ _ _ _ (by omega)]
          rfl

/-- **C62 (too many bands).** When the prior has fewer columns than there are fluxes the guessers that start from the prior
raise IndexError (for at least one row). -/
theorem C62_too_many_bands {σ : Type} {r : URng σ} (h : r.Unit) (T : ℝ) (fluxes : List ℝ) (p : GuessPrior σ) {L : ℕ}
    (hp : p.Sized L) (n : ℕ) (hn : 0 < n) (s : σ) :
    (L < 5 + fluxes.length → tfluxPriorGuess r T fluxes p n s = .error .index) ∧
      (L < 6 + fluxes.length → bdfGuess r T fluxes p n s = .error .index) ∧
      (fluxes ≠ [] → L < 7 + fluxes.length → bdGuess r T fluxes p n s = .error .index) := by
  have hne : (p.sampleN n s).1 ≠ [] := by
    intro he
    have := (hp.2 n s).1
    rw [he] at this
    simp at this
    omega
  have key : ∀ (cols : List GCol) (fix : List (List ℝ) → GM σ (List (List ℝ))), (∃ c ∈ cols, L ≤ c.idx) →
      guessRows r n (priorRows p n) cols fix s = .error .index := by
    intro cols fix hc
    simp only [guessRows, GM.andThen, priorRows, Except.bind]
    rw [fillCols_index h cols _ L _ hne (hp.2 n s).2 hc]
  have last : ∀ (cols : List GCol) (k : ℕ), k ∈ cols.map GCol.idx → L ≤ k → ∃ c ∈ cols, L ≤ c.idx := by
    intro cols k hk hle
    obtain ⟨c, hc, rfl⟩ := List.mem_map.1 hk
    exact ⟨c, hc, hle⟩
  refine ⟨fun hlt => key _ _ (last _ (4 + fluxes.length) ?_ (by omega)), fun hlt => key _ _ (last _ (5 + fluxes.length) ?_ (by omega)),
    fun hf hlt => key _ _ (last _ (6 + fluxes.length) ?_ (by omega))⟩
  · rw [range_idx, tfluxPriorCols, List.map_cons, relT_range, rel_range, List.map_cons, columnsFrom_idx]
    simp only [List.length_map, List.mem_cons, List.mem_range'_1]
    omega
  · rw [range_idx, bd_cols, bdRanges]
    simp only [List.map_cons, columnsFrom_idx, List.length_map, List.mem_cons, List.mem_range'_1]
    omega
  · have : fluxes.length ≠ 0 := by simpa using hf
    rw [range_idx, bd_cols, bdRanges]
    simp only [List.map_cons, columnsFrom_idx, List.length_map, List.mem_cons, List.mem_range'_1]
    omega

/-! ### Fixing by the prior -/

/-- **C62 (prior).** Fixing one row (`keep = 0` replaces the whole row, `keep = 4` all but the centre and shape): the result
is the first of the row and four replacements by samples that the prior does not exclude, or the fourth replacement, which is
not checked.  An error of the prior other than a range error escapes. -/
theorem C62_fix {σ : Type} (p : GuessPrior σ) (row : List ℝ) (s : σ) (hs : ∀ s, (p.sample s).1.length = row.length) :
    ((∃ out s', fixRow p putAll 4 row s = .ok (out, s') ∧ FixedRow 0 p.lnprob p.sample row s out) ∨
      ∃ e, fixRow p putAll 4 row s = .error e ∧ e ≠ .gmixRange ∧
        ∃ k < 4, p.lnprob (candidate 0 p.sample row s k) = .error e) ∧
    ((∃ out s', fixRow p putTail 4 row s = .ok (out, s') ∧ FixedRow 4 p.lnprob p.sample row s out) ∨
      ∃ e, fixRow p putTail 4 row s = .error e ∧ e ≠ .gmixRange ∧
        ∃ k < 4, p.lnprob (candidate 4 p.sample row s k) = .error e) := by
  constructor
  · rcases fixRow_spec p putAll_keeps 4 row s hs with ⟨k, hk, h1, h2, h3⟩ | ⟨k, hk, e, h1, h2, h3, h4⟩
    · exact Or.inl ⟨_, _, h1, k, hk, rfl, h2, h3⟩
    · exact Or.inr ⟨e, h1, h2, k, hk, h3⟩
  · rcases fixRow_spec p putTail_keeps 4 row s hs with ⟨k, hk, h1, h2, h3⟩ | ⟨k, hk, e, h1, h2, h3, h4⟩
    · exact Or.inl ⟨_, _, h1, k, hk, rfl, h2, h3⟩
    · exact Or.inr ⟨e, h1, h2, k, hk, h3⟩

/-- **C62 (prior, what is settled).** A row the prior allows is returned as it is; an excluded one is replaced, by its first
sample if that is allowed; with `keep = 4` the first four entries never change. -/
theorem C62_settled {σ : Type} (lnprob : List ℝ → Except PyErr Fl) (sample : σ → List ℝ × σ) (keep : ℕ) (row : List ℝ) (s : σ)
    (hs : ∀ s, (sample s).1.length = row.length) (out : List ℝ) (h : FixedRow keep lnprob sample row s out) :
    (Allowed lnprob row → out = row) ∧
      (Excluded lnprob row → ∃ s', out = row.take keep ++ (sample s').1.drop keep) ∧
      (Excluded lnprob row → Allowed lnprob (candidate keep sample row s 1) → out = candidate keep sample row s 1) ∧
      out.take keep = row.take keep := by
  have hcon : ∀ x, Allowed lnprob x → Excluded lnprob x → False := by
    rintro x ⟨l, h1, h2⟩ (h3 | h3)
    · rw [h1] at h3; cases h3; exact h2 rfl
    · rw [h1] at h3; cases h3
  obtain ⟨k, hk, rfl, hex, hal⟩ := h
  refine ⟨fun ha => ?_, fun he => ?_, fun he ha => ?_, ?_⟩
  · cases k with
    | zero => rfl
    | succ k => exact absurd (hex 0 (by omega)) (hcon _ ha)
  · cases k with
    | zero => exact absurd he (hcon _ (hal (by omega)))
    | succ k => exact ⟨_, rfl⟩
  · rcases k with _ | _ | k
    · exact absurd he (hcon _ (hal (by omega)))
    · rfl
    · exact absurd (hex 1 (by omega)) (hcon _ ha)
  · cases k with
    | zero => rfl
    | succ k => exact (take_put keep row _ (hs _)).2

/-- A prior that excludes negative first entries but samples -1. -/
noncomputable def badPrior : GuessPrior Unit where
  lnprob row := if row.getD 0 0 < 0 then .ok .ninf else .ok (.fin 0)
  sample _ := ([-1], ())
  sampleN n _ := (List.replicate n [-1], ())

/-- **C62 (prior, violation).** After four replacements the row is returned although the prior excludes it. -/
theorem C62_fix_gives_up : fixRow badPrior putAll 4 [-2] () = .ok ([-1], ()) ∧ Excluded badPrior.lnprob [-1] := by
  have h1 : badGuess badPrior [-2] = .ok true := by simp [badGuess, badPrior]
  have h2 : badGuess badPrior [-1] = .ok true := by simp [badGuess, badPrior]
  have h3 : badPrior.sample () = ([-1], ()) := rfl
  refine ⟨?_, badGuess_true h2⟩
  simp [fixRow, h1, h2, h3, putAll, Except.bind]

/-! ### The hypotheses are met -/

/-- A random state that always draws 3/4. -/
noncomputable def constRng : URng Unit := ⟨fun _ => (3 / 4, ())⟩

theorem constRng_unit : constRng.Unit := fun _ => by simp only [constRng]; norm_num

/-- A prior with `L` columns that allows everything. -/
noncomputable def flatPrior (L : ℕ) : GuessPrior Unit where
  lnprob _ := .ok (.fin 0)
  sample _ := (List.replicate L 0, ())
  sampleN n _ := (List.replicate n (List.replicate L 0), ())

theorem flatPrior_sized (L : ℕ) : (flatPrior L).Sized L :=
  ⟨fun _ => by simp [flatPrior], fun n _ => ⟨by simp [flatPrior], fun row hrow => by
    rw [(List.mem_replicate.1 hrow).2, List.length_replicate]⟩⟩

example : ∃ out s', tfluxGuess constRng 4 [100, 50] none 3 () = .ok (out, s') ∧ out.rows.length = 3 := by
  rcases C62_tflux constRng_unit 4 [100, 50] none 3 (by simp) () with ⟨out, s', h, hl, _⟩ | ⟨p, e, hp, _⟩
  · exact ⟨out, s', h, hl⟩
  · cases hp

example : GuessOutcome 2 ((flatPrior 7).sampleN 2 ()).1 (bdRanges 4 6 [100]) 0 (some (flatPrior 7))
    (bdfGuess constRng 4 [100] (flatPrior 7) 2 ()) :=
  C62_bdf constRng_unit 4 [100] (flatPrior 7) (flatPrior_sized 7) (by simp) 2 ()

example : tfluxPriorGuess constRng 4 [1, 2] (flatPrior 6) 1 () = .error .index :=
  (C62_too_many_bands constRng_unit 4 [1, 2] (flatPrior 6) (flatPrior_sized 6) 1 (by omega) ()).1 (by simp)

/-- C62: `PriorGuesser` gives exactly what the prior draws: one sample when no number is given, and `n` samples of the
length of the prior otherwise, also for `n = 1`. -/
theorem C62_prior_guesser {σ : Type} (p : GuessPrior σ) {L : ℕ} (hp : p.Sized L) (s : σ) :
    (∃ row s', priorGuess p none s = .ok (.one row, s') ∧ row.length = L ∧ (row, s') = p.sample s) ∧
    ∀ n, ∃ rows s', priorGuess p (some n) s = .ok (.many rows, s') ∧ rows.length = n ∧ (∀ row ∈ rows, row.length = L) ∧
      (rows, s') = p.sampleN n s := by
  refine ⟨⟨_, _, rfl, hp.1 s, rfl⟩, fun n => ⟨_, _, rfl, (hp.2 n s).1, (hp.2 n s).2, rfl⟩⟩

example : ∃ rows s', priorGuess (flatPrior 6) (some 1) () = .ok (.many rows, s') ∧ rows.length = 1 := by
  obtain ⟨rows, s', h, hl, -⟩ := (C62_prior_guesser (flatPrior 6) (flatPrior_sized 6) ()).2 1
  exact ⟨rows, s', h, hl⟩

/-- C62: an excluded guess whose prior draws samples of another length (and not of length one, which numpy would repeat)
raises ValueError, whether the whole row or its columns from size on are replaced. -/
theorem C62_misfit {σ : Type} (p : GuessPrior σ) (row : List ℝ) (s : σ) (hx : Excluded p.lnprob row) :
    ((p.sample s).1.length ≠ row.length → (p.sample s).1.length ≠ 1 → fixRow p putAll 4 row s = .error .value) ∧
    ((p.sample s).1.length - 4 ≠ row.length - 4 → (p.sample s).1.length - 4 ≠ 1 →
      fixRow p putTail 4 row s = .error .value) := by
  have hb : badGuess p row = .ok true := by
    rcases hx with h | h <;> simp [badGuess, h]
  constructor
  · intro h _
    simp [fixRow, hb, putAll, h, Except.bind]
  · intro h _
    simp [fixRow, hb, putTail, h, Except.bind]

/-- A prior of six parameters excluding everything. -/
noncomputable def noPrior : GuessPrior Unit := ⟨fun _ => .error .gmixRange, fun _ => ([0, 0, 0, 0, 1, 1], ()), fun n _ => (List.replicate n [0, 0, 0, 0, 1, 1], ())⟩

example : fixRow noPrior putAll 4 [0, 0, 0, 0, 1, 1, 1, 1] () = .error .value ∧
    fixRow noPrior putTail 4 [0, 0, 0, 0, 1, 1, 1, 1] () = .error .value := by
  have h := C62_misfit noPrior [0, 0, 0, 0, 1, 1, 1, 1] () (.inr rfl)
  exact ⟨h.1 (by simp [noPrior]) (by simp [noPrior]), h.2 (by simp [noPrior]) (by simp [noPrior])⟩

end Ngmix.Props
