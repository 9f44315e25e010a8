import Verif.Props.GuessShape

/-! # C62, continued: `ParsGuesser` and `R50NuFluxGuesser` -/

namespace Ngmix.Props

open Spec JointPrior

/-! ### `ParsGuesser` -/

/-- A row guessed from parameters with given widths: centre within the widths, a shape inside the disk made by shearing the
parameters' shape (shortened to 0.8), the rest within the relative widths. -/
def ParsRow (pars w row : List ℝ) : Prop :=
  row.length = pars.length ∧
    (∀ i < 2, ∀ x, row[i]? = some x → Between (pars.getD i 0 - w.getD i 0) (pars.getD i 0 + w.getD i 0) x) ∧
    (∃ c g1 g2, Shortened (pars.getD 2 0, pars.getD 3 0) 0.8 c ∧ row[2]? = some g1 ∧ row[3]? = some g2 ∧
      ShearedWithin c (w.getD 2 0) (w.getD 3 0) (g1, g2)) ∧
    ∀ i, 4 ≤ i → ∀ x, row[i]? = some x →
      Between (pars.getD i 0 * (1 - w.getD i 0)) (pars.getD i 0 * (1 + w.getD i 0)) x

theorem putShapes_ok (rows : List (List ℝ)) (shapes : List (ℝ × ℝ)) (hl : shapes.length = rows.length)
    (hi : ∀ row ∈ rows, 3 < row.length) (P : ℝ × ℝ → Prop) (hP : ∀ x ∈ shapes, P x) :
    ∃ rows', putShapes rows shapes = .ok rows' ∧
      List.Forall₂ (fun row row' => ∃ x, P x ∧ row' = (row.set 2 x.1).set 3 x.2) rows rows' := by
  have h1 := putCol_ok 2 rows (shapes.map Prod.fst) (by simpa using hl) (fun row hrow => by have := hi row hrow; omega)
  have hlen2 : ∀ row ∈ List.zipWith (fun row v => row.set 2 v) rows (shapes.map Prod.fst), 3 < row.length := by
    intro row hrow
    rw [List.mem_iff_getElem] at hrow
    obtain ⟨i, hi', rfl⟩ := hrow
    simp only [List.getElem_zipWith, List.length_set]
    exact hi _ (List.getElem_mem _)
  have h2 := putCol_ok 3 _ (shapes.map Prod.snd) (by simp [hl]) hlen2
  refine ⟨_, by simp only [putShapes, h1, Except.bind]; exact h2, ?_⟩
  clear h1 h2 hlen2
  induction rows generalizing shapes with
  | nil => simp
  | cons row rows ih =>
      cases shapes with
      | nil => simp at hl
      | cons x xs =>
          simp only [List.map_cons, List.zipWith_cons_cons, List.forall₂_cons]
          exact ⟨⟨x, hP x (by simp), rfl⟩, ih xs (by simpa using hl) (fun y hy => hi y (by simp [hy]))
            (fun y hy => hP y (by simp [hy]))⟩

theorem parsCen_range (pars w : List ℝ) : (parsCenCols pars w).map GCol.range =
    columnsFrom 0 [around (pars.getD 0 0) (w.getD 0 0), around (pars.getD 1 0) (w.getD 1 0)] := by
  simp only [parsCenCols, List.range, List.range.loop, List.map_cons, List.map_nil, GCol.range, columnsFrom, around]
  norm_num
  constructor <;> ring

theorem parsCen_affine (pars w : List ℝ) : ∀ c ∈ parsCenCols pars w, AffineFn c.f := by
  intro c hc
  obtain ⟨i, _, rfl⟩ := List.mem_map.1 hc
  exact ⟨pars.getD i 0, w.getD i 0, fun x => rfl⟩

theorem parsTail_affine (pars w : List ℝ) : ∀ c ∈ parsTailCols pars w, AffineFn c.f := by
  intro c hc
  obtain ⟨i, _, rfl⟩ := List.mem_map.1 hc
  exact affine_relw _ _

theorem parsTail_idx (pars w : List ℝ) : (parsTailCols pars w).map GCol.idx = (List.range (pars.length - 4)).map (4 + ·) := by
  simp [parsTailCols, List.map_map, Function.comp_def]

theorem pars_row {pars w z a b row : List ℝ} {x c : ℝ × ℝ} (h4 : 4 ≤ pars.length) (hz : z.length = pars.length)
    (ha : WrittenBy (parsCenCols pars w) z a) (hc : Shortened (pars.getD 2 0, pars.getD 3 0) 0.8 c)
    (hx : ShearedWithin c (w.getD 2 0) (w.getD 3 0) x) (hb : b = (a.set 2 x.1).set 3 x.2)
    (hr : WrittenBy (parsTailCols pars w) b row) : ParsRow pars w row := by
  have hal : a.length = pars.length := by rw [writtenBy_length ha, hz]
  have hbl : b.length = pars.length := by rw [hb]; simpa using hal
  have hrl : row.length = pars.length := by rw [writtenBy_length hr, hbl]
  have hA := writtenBy_replaced (parsCen_affine pars w) (numbered_ok (parsCen_range pars w)).1 ha
  rw [parsCen_range] at hA
  have hnd : ((parsTailCols pars w).map GCol.idx).Nodup := by
    rw [parsTail_idx]
    exact List.nodup_range.map (fun _ _ h => by simpa using h)
  have hR := writtenBy_replaced (parsTail_affine pars w) hnd hr
  have hmem : ∀ d ∈ (parsTailCols pars w).map GCol.range, ∃ i, d = (4 + i, pars.getD (4 + i) 0 * (1 - w.getD (4 + i) 0),
      pars.getD (4 + i) 0 * (1 + w.getD (4 + i) 0)) := by
    intro d hd
    simp only [parsTailCols, List.map_map, List.mem_map, Function.comp_def] at hd
    obtain ⟨i, _, rfl⟩ := hd
    have e1 : (1.0 : ℝ) = 1 := by norm_num
    refine ⟨i, Prod.ext rfl (Prod.ext ?_ ?_)⟩ <;> simp only [GCol.range, e1] <;> ring
  have hlow : ∀ i < 4, ∀ y, row[i]? = some y → b[i]? = some y := by
    intro i hi y hy
    rcases hR.2 i y hy with ⟨d, hd, hdi, _⟩ | ⟨_, hb'⟩
    · obtain ⟨k, rfl⟩ := hmem d hd
      simp only at hdi
      omega
    · exact hb'
  refine ⟨hrl, fun i hi y hy => ?_, ?_, fun i hi y hy => ?_⟩
  · have hby := hlow i (by omega) y hy
    rw [hb, List.getElem?_set_ne (by omega), List.getElem?_set_ne (by omega)] at hby
    rcases hA.2 i y hby with ⟨d, hd, hdi, hbt⟩ | ⟨hno, _⟩
    · simp only [columnsFrom, List.mem_cons, List.not_mem_nil, or_false] at hd
      rcases hd with rfl | rfl
      · simp only at hdi; subst hdi; exact hbt
      · simp only at hdi; subst hdi; exact hbt
    · exfalso
      have h01 : i = 0 ∨ i = 1 := by omega
      rcases h01 with rfl | rfl
      · exact hno (0, around (pars.getD 0 0) (w.getD 0 0)) (by simp [columnsFrom]) rfl
      · exact hno (1, around (pars.getD 1 0) (w.getD 1 0)) (by simp [columnsFrom]) rfl
  · have h2 : b[2]? = some x.1 := by
      rw [hb, List.getElem?_set_ne (by omega), List.getElem?_set_self (by omega)]
    have h3 : b[3]? = some x.2 := by
      rw [hb, List.getElem?_set_self (by simp; omega)]
    have g2 : row[2]? = some row[2] := List.getElem?_eq_getElem (by omega)
    have g3 : row[3]? = some row[3] := List.getElem?_eq_getElem (by omega)
    have e2 := hlow 2 (by omega) _ g2
    have e3 := hlow 3 (by omega) _ g3
    rw [h2] at e2
    rw [h3] at e3
    refine ⟨c, x.1, x.2, hc, by rw [g2, ← e2], by rw [g3, ← e3], hx⟩
  · rcases hR.2 i y hy with ⟨d, hd, hdi, hbt⟩ | ⟨hno, _⟩
    · obtain ⟨k, rfl⟩ := hmem d hd
      simp only at hdi
      subst hdi
      exact hbt
    · exfalso
      have hil : i < row.length := (List.getElem?_eq_some_iff.1 hy).1
      have hin : i ∈ (parsTailCols pars w).map GCol.idx := by
        rw [parsTail_idx, List.mem_map]
        exact ⟨i - 4, by rw [List.mem_range]; omega, by omega⟩
      obtain ⟨d, hd, hdi⟩ := List.mem_map.1 hin
      exact hno d.range (List.mem_map_of_mem hd) hdi

/-- **C62 (parameters).** `ParsGuesser` with shape widths inside the unit circle, as the default ones are, returns the number
of rows asked for (one row alone exactly when no number is given), each guessed from the parameters, then fixed by the prior;
the only errors are those of the prior other than range errors. -/
theorem C62_pars {σ : Type} {r : URng σ} (h : r.Unit) (pars : List ℝ) (h4 : 4 ≤ pars.length) (prior : Option (GuessPrior σ))
    (widths : Option (List ℝ)) (nrand : Option ℕ)
    (hw : (parsWidths pars widths).getD 2 0 ^ 2 + (parsWidths pars widths).getD 3 0 ^ 2 < 1)
    (hp : ∀ p, prior = some p → p.Sized pars.length) (s : σ) :
    (∃ out s', parsGuess r pars prior widths nrand 1 s = some (.ok (out, s')) ∧ out.rows.length = nrand.getD 1 ∧
      ((∃ row, out = .one row) ↔ nrand = none) ∧
      ∀ row ∈ out.rows, ∃ w, ParsRow pars (parsWidths pars widths) w ∧ FixedBy 0 prior w row) ∨
    (∃ p e, prior = some p ∧ parsGuess r pars prior widths nrand 1 s = some (.error e) ∧ e ≠ .gmixRange ∧
      ∃ row, p.lnprob row = .error e) := by
  set w := parsWidths pars widths with hwdef
  obtain ⟨zl, zr⟩ := zeroRows_length (nrand.getD 1) pars.length
  have hcen := numbered_ok (parsCen_range pars w)
  obtain ⟨rows1, s1, h1, hw1⟩ := fillCols_ok h (parsCenCols pars w) (zeroRows (nrand.getD 1) pars.length) s
    (fun c hc row hrow => by
      rw [zr row hrow]
      have := hcen.2 c hc
      simp only [List.length_cons, List.length_nil] at this
      omega)
  obtain ⟨xs, s2, hx⟩ := C62_shape_returns h (pars.getD 2 0) (pars.getD 3 0) (nrand.getD 1) (w.getD 2 0) (w.getD 3 0) 0.8
    (by norm_num) (by norm_num) hw s1
  obtain ⟨c, hc, hcase⟩ := C62_shape h _ _ _ _ _ 0.8 (by norm_num) (by norm_num) 1 s1 hx
  rcases hcase with ⟨xs', s2', hxe, hxl, hxs⟩ | ⟨hbad, _⟩
  swap
  · cases hbad
  cases hxe
  have hlen1 : rows1.length = nrand.getD 1 := by rw [← hw1.length_eq, zl]
  have hL1 : ∀ row ∈ rows1, row.length = pars.length :=
    forall₂_right (P := fun row => row.length = pars.length) (fun a b hab ha => by rw [writtenBy_length hab, ha]) hw1 zr
  obtain ⟨rows2, h2, hw2⟩ := putShapes_ok rows1 xs (by rw [hxl, hlen1]) (fun row hrow => by rw [hL1 row hrow]; omega) _ hxs
  have hL2 : ∀ row ∈ rows2, row.length = pars.length := by
    refine forall₂_right (P := fun row => row.length = pars.length) ?_ hw2 hL1
    rintro a b ⟨x, _, rfl⟩ ha
    simpa using ha
  obtain ⟨rows3, s3, h3, hw3⟩ := fillCols_ok h (parsTailCols pars w) rows2 s2 (fun d hd row hrow => by
    rw [hL2 row hrow]
    have : d.idx ∈ (parsTailCols pars w).map GCol.idx := List.mem_map_of_mem hd
    rw [parsTail_idx, List.mem_map] at this
    obtain ⟨i, hi, hid⟩ := this
    rw [List.mem_range] at hi
    omega)
  have hL3 : ∀ row ∈ rows3, row.length = pars.length :=
    forall₂_right (P := fun row => row.length = pars.length) (fun a b hab ha => by rw [writtenBy_length hab, ha]) hw3 hL2
  have hall : ∀ row ∈ rows3, ParsRow pars w row := by
    have c1 := forall₂_comp (T := fun z b => ∃ a x, WrittenBy (parsCenCols pars w) z a ∧
        ShearedWithin c (w.getD 2 0) (w.getD 3 0) x ∧ b = (a.set 2 x.1).set 3 x.2)
      (by rintro a b d hab ⟨x, hx, rfl⟩; exact ⟨b, x, hab, hx, rfl⟩) hw1 hw2
    have c2 := forall₂_comp (T := fun z row => z.length = pars.length → ParsRow pars w row)
      (by rintro z b row ⟨a, x, ha, hx, hb⟩ hrow hz; exact pars_row h4 hz ha hc hx hb hrow) c1 hw3
    exact forall₂_right (P := fun z => z.length = pars.length) (fun a b hab ha => hab ha) c2 zr
  have hlen3 : rows3.length = nrand.getD 1 := by rw [← hw3.length_eq, ← hw2.length_eq, hlen1]
  have hval : ∀ res, fixOpt prior putAll rows3 s3 = res → parsGuess r pars prior widths nrand 1 s =
      some (res.map fun x => (squeezeNone nrand x.1, x.2)) := by
    intro res hres
    simp only [parsGuess, ← hwdef, h1, hx, Option.map_some, Except.bind, h2, GM.andThen, h3, hres]
    cases res <;> rfl
  have hshape : ∀ rows : List (List ℝ), rows.length = nrand.getD 1 →
      (squeezeNone nrand rows).rows = rows ∧ ((∃ row, squeezeNone nrand rows = .one row) ↔ nrand = none) := by
    intro rows hr
    cases nrand with
    | none =>
        obtain ⟨row, rfl⟩ := List.length_eq_one_iff.1 hr
        exact ⟨rfl, by simp [squeezeNone]⟩
    | some n => exact ⟨rfl, by simp [squeezeNone]⟩
  cases hpr : prior with
  | none =>
      refine Or.inl ⟨_, s3, ?_, ?_, (hshape rows3 hlen3).2, ?_⟩
      · have := hval (.ok (rows3, s3)) (by rw [hpr]; rfl)
        rw [hpr] at this
        exact this
      · rw [(hshape rows3 hlen3).1, hlen3]
      · rw [(hshape rows3 hlen3).1]
        exact fun row hrow => ⟨row, hall row hrow, rfl⟩
  | some p =>
      rcases fixRows_spec p putAll_keeps rows3 s3 (hp p hpr).1 hL3 with ⟨out, s', h5, h6⟩ | ⟨e, h5, h6, h7⟩
      · have hlo : out.length = nrand.getD 1 := by rw [← h6.length_eq, hlen3]
        refine Or.inl ⟨_, s', ?_, ?_, (hshape out hlo).2, ?_⟩
        · have := hval (.ok (out, s')) (by rw [hpr]; exact h5)
          rw [hpr] at this
          exact this
        · rw [(hshape out hlo).1, hlo]
        · rw [(hshape out hlo).1]
          exact forall₂_right (P := ParsRow pars w) (fun a b hab ha => ⟨a, ha, hab⟩) h6 hall
      · refine Or.inr ⟨p, e, rfl, ?_, h6, h7⟩
        have := hval (.error e) (by rw [hpr]; exact h5)
        rw [hpr] at this
        exact this

/-- The default widths: 0.02 for the centre, 0.1 for the rest. -/
theorem C62_default_widths (pars : List ℝ) (i : ℕ) (hi : i < pars.length) :
    (parsWidths pars none).getD i 0 = if i < 2 then 0.02 else 0.1 := by
  simp [parsWidths, List.getD_eq_getElem?_getD, hi]

/-! ### The spergel index -/

/-- **C62 (spergel index).** The index guessed is strictly inside the allowed range and within 10% of the index given (moved
into the range); a draw in the lower half is always accepted, and so is any draw when the index is between -0.9 and 3.18. -/
theorem C62_nu {σ : Type} {r : URng σ} (h : r.Unit) (nu : ℝ) (fuel : ℕ) (s : σ) :
    (-0.99 ≤ nuClamp nu ∧ nuClamp nu ≤ 3.5 ∧ (-0.99 ≤ nu → nu ≤ 3.5 → nuClamp nu = nu)) ∧
      (∀ x s', nuDraw r (nuClamp nu) fuel s = some (x, s') →
        -0.99 < x ∧ x < 3.5 ∧ Between (tenPercent (nuClamp nu)).1 (tenPercent (nuClamp nu)).2 x) ∧
      ((r.unit s).1 < 1 / 2 ∨ (-0.9 < nuClamp nu ∧ nuClamp nu < 3.18) →
        ∃ x s', nuDraw r (nuClamp nu) (fuel + 1) s = some (x, s')) := by
  have hclamp : -0.99 ≤ nuClamp nu ∧ nuClamp nu ≤ 3.5 ∧ (-0.99 ≤ nu → nu ≤ 3.5 → nuClamp nu = nu) := by
    have e1 : nuMin = -0.99 := rfl
    have e2 : nuMax = 3.5 := rfl
    rw [← e1, ← e2, nuClamp]
    have e3 : nuMin ≤ nuMax := by rw [e1, e2]; norm_num
    by_cases h1 : nu < nuMin
    · rw [if_pos h1]
      exact ⟨le_refl _, e3, fun h => absurd h1 (not_lt.2 h)⟩
    · rw [if_neg h1]
      by_cases h2 : nu > nuMax
      · rw [if_pos h2]
        exact ⟨e3, le_refl _, fun _ h => absurd h2 (not_lt.2 h)⟩
      · rw [if_neg h2]
        exact ⟨not_lt.1 h1, not_lt.1 h2, fun _ _ => rfl⟩
  refine ⟨hclamp, ?_, ?_⟩
  · generalize nuClamp nu = v
    intro x s' hx
    induction fuel generalizing s with
    | zero => simp [nuDraw] at hx
    | succ n ih =>
        simp only [nuDraw] at hx
        split_ifs at hx with hin
        · simp only [Option.some.injEq, Prod.mk.injEq] at hx
          rw [← hx.1]
          refine ⟨hin.1, hin.2, ?_⟩
          have := between_affine (affine_relw v 0.1) (uniform_between h (-1.0) 1.0 s)
          have e1 : v * (1.0 + 0.1 * (-1.0)) = (tenPercent v).1 := by simp only [tenPercent]; norm_num; ring
          have e2 : v * (1.0 + 0.1 * 1.0) = (tenPercent v).2 := by simp only [tenPercent]; norm_num; ring
          rw [e1, e2] at this
          exact this
        · exact ih _ hx
  · intro hu
    obtain ⟨h0, h1⟩ := h s
    obtain ⟨c1, c2, _⟩ := hclamp
    simp only [nuDraw]
    rw [if_pos]
    · exact ⟨_, _, rfl⟩
    · rw [show nuMin = -0.99 from rfl, show nuMax = 3.5 from rfl]
      simp only [URng.uniform]
      generalize (r.unit s).1 = u at *
      generalize nuClamp nu = v at *
      have e : v * (1.0 + 0.1 * (-1.0 + (1.0 - -1.0) * u)) = v * (0.9 + 0.2 * u) := by congr 1; norm_num; ring
      rw [e]
      norm_num at *
      rcases hu with hu | ⟨hu1, hu2⟩
      · rcases le_total 0 v with hv | hv <;> constructor <;> nlinarith
      · rcases le_total 0 v with hv | hv <;> constructor <;> nlinarith

theorem nuRows_spec {σ : Type} {r : URng σ} (h : r.Unit) (nu : ℝ) (fuel : ℕ) (rows : List (List ℝ)) (s : σ)
    (hl : ∀ row ∈ rows, 5 < row.length) {res : Except PyErr (List (List ℝ) × σ)}
    (hres : nuRows r (nuClamp nu) fuel rows s = some res) :
    ∃ rows' s', res = .ok (rows', s') ∧ List.Forall₂ (fun row row' => ∃ x : ℝ, (-0.99 < x ∧ x < 3.5 ∧
      Between (tenPercent (nuClamp nu)).1 (tenPercent (nuClamp nu)).2 x) ∧ row' = row.set 5 x) rows rows' := by
  induction rows generalizing s res with
  | nil =>
      simp only [nuRows, Option.some.injEq] at hres
      exact ⟨[], s, hres.symm, .nil⟩
  | cons row rows ih =>
      simp only [nuRows] at hres
      rcases hd : nuDraw r (nuClamp nu) fuel s with _ | ⟨x, s1⟩
      · rw [hd] at hres; cases hres
      · rw [hd] at hres
        simp only [colSet, hl row (by simp), if_true, Option.map_eq_some_iff] at hres
        obtain ⟨y, hy, rfl⟩ := hres
        obtain ⟨rows', s', rfl, hf⟩ := ih s1 (fun a ha => hl a (by simp [ha])) hy
        exact ⟨row.set 5 x :: rows', s', rfl, .cons ⟨x, (C62_nu h nu fuel s).2.1 x s1 hd, rfl⟩ hf⟩

/-- The ranges for centre, shape, radius, index and fluxes. -/
def nuRanges (r50 nu : ℝ) (fluxes : List ℝ) : List (ℝ × ℝ) :=
  tfluxRanges r50 [] ++ [tenPercent nu] ++ fluxes.map tenPercent

theorem nu_row {r50 nu : ℝ} {fluxes z a b row : List ℝ} {x : ℝ} (hz : z.length = 6 + fluxes.length)
    (ha : WrittenBy (r50Cols r50) z a) (hx : Between (tenPercent nu).1 (tenPercent nu).2 x) (hb : b = a.set 5 x)
    (hr : WrittenBy (r50Bands 6 fluxes) b row) : RowIn (nuRanges r50 nu fluxes) row ∧ row[5]? = some x := by
  have hal : a.length = 6 + fluxes.length := by rw [writtenBy_length ha, hz]
  have hbl : b.length = 6 + fluxes.length := by rw [hb]; simpa using hal
  have hc0 : (r50Cols r50).map GCol.range = columnsFrom 0 (tfluxRanges r50 []) := by
    have := r50_cols r50 []
    simpa [r50Bands, bandCols] using this
  have hA := writtenBy_replaced (r50_affine r50) (numbered_ok hc0).1 ha
  rw [hc0] at hA
  have hR := writtenBy_replaced (bandCols_affine (-1.0) 1.0 _ (fun y => affine_relw y 0.1) 6 fluxes)
    (numbered_ok (relw_range 6 fluxes)).1 hr
  rw [show (bandCols (-1.0) 1.0 (fun flux x => flux * (1.0 + 0.1 * x)) 6 fluxes) = r50Bands 6 fluxes from rfl,
    relw_range] at hR
  have hrl : row.length = 6 + fluxes.length := by rw [hR.1, hbl]
  have h5 : b[5]? = some x := by rw [hb, List.getElem?_set_self (by omega)]
  have hlow : ∀ i < 6, ∀ y, row[i]? = some y → b[i]? = some y := by
    intro i hi y hy
    rcases hR.2 i y hy with ⟨d, hd, hdi, _⟩ | ⟨_, hb'⟩
    · obtain ⟨k, hk, _⟩ := (columnsFrom_get _ _ _).1 hd
      omega
    · exact hb'
  have hr5 : row[5]? = some x := by
    have g5 : row[5]? = some row[5] := List.getElem?_eq_getElem (by omega)
    have := hlow 5 (by omega) _ g5
    rw [h5] at this
    rw [g5, ← this]
  refine ⟨?_, hr5⟩
  apply replaced_all (base := row) (by rw [hrl]; simp [nuRanges, tfluxRanges]; omega)
  refine ⟨rfl, fun j y hy => Or.inl ?_⟩
  rw [nuRanges, columnsFrom_append, columnsFrom_append]
  have hjl : j < 6 + fluxes.length := by rw [← hrl]; exact (List.getElem?_eq_some_iff.1 hy).1
  have hL5 : (tfluxRanges r50 []).length = 5 := by simp [tfluxRanges]
  rcases lt_trichotomy j 5 with hj | rfl | hj
  · have hby := hlow j (by omega) y hy
    rw [hb, List.getElem?_set_ne (by omega)] at hby
    rcases hA.2 j y hby with ⟨d, hd, hdj, hbt⟩ | ⟨hno, _⟩
    · exact ⟨d, by simp [hd], hdj, hbt⟩
    · exact absurd rfl (hno (j, (tfluxRanges r50 [])[j]) ((columnsFrom_get _ _ _).2 ⟨j, by simp, List.getElem?_eq_getElem (by omega)⟩))
  · rw [hr5] at hy
    cases hy
    exact ⟨(5, tenPercent nu), by simp [columnsFrom, hL5], rfl, hx⟩
  · rcases hR.2 j y hy with ⟨d, hd, hdj, hbt⟩ | ⟨hno, _⟩
    · refine ⟨d, ?_, hdj, hbt⟩
      simp only [List.mem_append, List.length_append, hL5, List.length_cons, List.length_nil]
      exact Or.inr hd
    · have hk : j - 6 < (fluxes.map tenPercent).length := by simp; omega
      exact absurd rfl (hno (j, (fluxes.map tenPercent)[j - 6]) ((columnsFrom_get _ _ _).2 ⟨j - 6, by simp; omega, List.getElem?_eq_getElem hk⟩))

/-- **C62 (half light radius, index and fluxes).** `R50NuFluxGuesser`, when it returns: as `R50FluxGuesser` with the index,
strictly inside its range, in column 5. -/
theorem C62_r50nu {σ : Type} {r : URng σ} (h : r.Unit) (r50 nu : ℝ) (fluxes : List ℝ) (prior : Option (GuessPrior σ)) (n fuel : ℕ)
    (hp : ∀ p, prior = some p → p.Sized (6 + fluxes.length)) (s : σ) :
    (r50 < 0 → r50NuFluxGuess r r50 nu fluxes prior n fuel s = some (.error .gmixRange)) ∧
      (0 ≤ r50 → ∀ res, r50NuFluxGuess r r50 nu fluxes prior n fuel s = some res →
        (∃ out s', res = .ok (out, s') ∧ out.rows.length = n ∧ ((∃ row, out = .one row) ↔ n = 1) ∧
          ∀ row ∈ out.rows, ∃ w, RowIn (nuRanges r50 (nuClamp nu) fluxes) w ∧
            (∃ x : ℝ, w[5]? = some x ∧ -0.99 < x ∧ x < 3.5) ∧ FixedBy 0 prior w row) ∨
        (∃ p e, prior = some p ∧ res = .error e ∧ e ≠ .gmixRange ∧ ∃ row, p.lnprob row = .error e)) := by
  have hz : (0.0 : ℝ) = 0 := by norm_num
  constructor
  · intro h0
    simp [r50NuFluxGuess, r50Check, hz, h0, Except.bind]
  intro h0 res hres
  obtain ⟨zl, zr⟩ := zeroRows_length n (6 + fluxes.length)
  have hc0 : (r50Cols r50).map GCol.range = columnsFrom 0 (tfluxRanges r50 []) := by
    have := r50_cols r50 []
    simpa [r50Bands, bandCols] using this
  obtain ⟨rows1, s1, h1, hw1⟩ := fillCols_ok h (r50Cols r50) (zeroRows n (6 + fluxes.length)) s (fun c hc row hrow => by
    rw [zr row hrow]
    have := (numbered_ok hc0).2 c hc
    simp [tfluxRanges] at this
    omega)
  simp only [r50NuFluxGuess, r50Check, hz, not_lt.2 h0, if_false, Except.bind, h1, Option.map_eq_some_iff] at hres
  obtain ⟨y, hy, hres⟩ := hres
  have hL1 : ∀ row ∈ rows1, row.length = 6 + fluxes.length :=
    forall₂_right (P := fun row => row.length = 6 + fluxes.length) (fun a b hab ha => by rw [writtenBy_length hab, ha]) hw1 zr
  obtain ⟨rows2, s2, rfl, hw2⟩ := nuRows_spec h nu fuel rows1 s1 (fun row hrow => by rw [hL1 row hrow]; omega) hy
  have hL2 : ∀ row ∈ rows2, row.length = 6 + fluxes.length := by
    refine forall₂_right (P := fun row => row.length = 6 + fluxes.length) ?_ hw2 hL1
    rintro a b ⟨x, _, rfl⟩ ha
    simpa using ha
  obtain ⟨rows3, s3, h3, hw3⟩ := fillCols_ok h (r50Bands 6 fluxes) rows2 s2 (fun c hc row hrow => by
    rw [hL2 row hrow]
    have := (numbered_ok (relw_range 6 fluxes)).2 c hc
    simpa using this)
  have hL3 : ∀ row ∈ rows3, row.length = 6 + fluxes.length :=
    forall₂_right (P := fun row => row.length = 6 + fluxes.length) (fun a b hab ha => by rw [writtenBy_length hab, ha]) hw3 hL2
  have hlen3 : rows3.length = n := by rw [← hw3.length_eq, ← hw2.length_eq, ← hw1.length_eq, zl]
  have hall : ∀ row ∈ rows3, RowIn (nuRanges r50 (nuClamp nu) fluxes) row ∧ ∃ x : ℝ, row[5]? = some x ∧ -0.99 < x ∧ x < 3.5 := by
    have c1 := forall₂_comp (T := fun z b => ∃ a, ∃ x : ℝ, WrittenBy (r50Cols r50) z a ∧ (-0.99 < x ∧ x < 3.5 ∧
        Between (tenPercent (nuClamp nu)).1 (tenPercent (nuClamp nu)).2 x) ∧ b = a.set 5 x)
      (by rintro a b d hab ⟨x, hx, rfl⟩; exact ⟨b, x, hab, hx, rfl⟩) hw1 hw2
    have c2 := forall₂_comp (T := fun z row => z.length = 6 + fluxes.length →
        RowIn (nuRanges r50 (nuClamp nu) fluxes) row ∧ ∃ x : ℝ, row[5]? = some x ∧ -0.99 < x ∧ x < 3.5)
      (by
        rintro z b row ⟨a, x, ha, hx, hb⟩ hrow hz
        obtain ⟨q1, q2⟩ := nu_row hz ha hx.2.2 hb hrow
        exact ⟨q1, x, q2, hx.1, hx.2.1⟩) c1 hw3
    exact forall₂_right (P := fun z => z.length = 6 + fluxes.length) (fun a b hab ha => hab ha) c2 zr
  simp only [GM.andThen, h3, Except.bind] at hres
  cases prior with
  | none =>
      refine Or.inl ⟨squeeze n rows3, s3, hres.symm, by rw [squeeze_rows, hlen3], squeeze_one n rows3 hlen3, ?_⟩
      rw [squeeze_rows]
      exact fun row hrow => ⟨row, (hall row hrow).1, (hall row hrow).2, rfl⟩
  | some p =>
      rcases fixRows_spec p putAll_keeps rows3 s3 (hp p rfl).1 hL3 with ⟨out, s', h5, h6⟩ | ⟨e, h5, h6, h7⟩
      · have hlo : out.length = n := by rw [← h6.length_eq, hlen3]
        refine Or.inl ⟨squeeze n out, s', ?_, by rw [squeeze_rows, hlo], squeeze_one n out hlo, ?_⟩
        · simp only [fixOpt, h5] at hres
          exact hres.symm
        · rw [squeeze_rows]
          exact forall₂_right (P := fun row => RowIn (nuRanges r50 (nuClamp nu) fluxes) row ∧
            ∃ x : ℝ, row[5]? = some x ∧ -0.99 < x ∧ x < 3.5) (fun a b hab ha => ⟨a, ha.1, ha.2, hab⟩) h6 hall
      · refine Or.inr ⟨p, e, rfl, ?_, h6, h7⟩
        simp only [fixOpt, h5] at hres
        exact hres.symm

/-! ### The hypotheses are met -/

example : ∃ out s', parsGuess constRng [0, 0, 0.1, 0.2, 4, 100] none none (some 3) 1 () = some (.ok (out, s')) := by
  have hw : (parsWidths [0, 0, 0.1, 0.2, 4, 100] none).getD 2 0 ^ 2 + (parsWidths [0, 0, 0.1, 0.2, 4, 100] none).getD 3 0 ^ 2 < 1 := by
    rw [C62_default_widths _ 2 (by simp), C62_default_widths _ 3 (by simp)]
    norm_num
  rcases C62_pars constRng_unit [0, 0, 0.1, 0.2, 4, 100] (by simp) none none (some 3) hw (by simp) () with
    ⟨out, s', h, _⟩ | ⟨p, e, hp, _⟩
  · exact ⟨out, s', h⟩
  · cases hp

example : ∃ x s', nuDraw constRng (nuClamp 0.5) 1 () = some (x, s') := by
  have hn : nuClamp 0.5 = 0.5 := (C62_nu constRng_unit 0.5 0 ()).1.2.2 (by norm_num) (by norm_num)
  exact (C62_nu constRng_unit 0.5 0 ()).2.2 (Or.inr (by rw [hn]; norm_num))

end Ngmix.Props
