import Verif.Spec.Admom
import Verif.Props.Norms
import Mathlib.Tactic.FieldSimp
import Mathlib.Tactic.Linarith
import Mathlib.Tactic.LinearCombination
import Mathlib.Tactic.NormNum

/-! # Lemmas about adaptive moments -/

namespace Ngmix.Proof.Admom

open Ngmix Ngmix.Spec Ngmix.Props

noncomputable section

set_option linter.unusedSimpArgs false

theorem eval_predicted (l : List Gauss) (px : Pixel) : gmixEvalFast l px.v px.u px.area = predicted l px := by
  unfold gmixEvalFast predicted
  have : ∀ (l : List Gauss) (a : ℝ), l.foldl (fun acc g => acc + gaussEvalFast g px.v px.u px.area) a
      = a + (l.map fun g => gaussEvalFast g px.v px.u px.area).sum := by
    intro l
    induction l with
    | nil => simp
    | cons g l ih => intro a; simp only [List.foldl_cons, List.map_cons, List.sum_cons]; rw [ih]; ring
  rw [this]; ring

theorem censums_eq (w : AMWt) (pixels : List Pixel) : ∀ res : AMRes,
    (amCensums w pixels res).sums 0 = res.sums 0 + wtSum w.list pixels Pixel.v ∧
    (amCensums w pixels res).sums 1 = res.sums 1 + wtSum w.list pixels Pixel.u ∧
    (amCensums w pixels res).sums 5 = res.sums 5 + wtSum w.list pixels (fun _ => 1) ∧
    (amCensums w pixels res).flags = res.flags ∧ (amCensums w pixels res).numiter = res.numiter := by
  unfold amCensums wtSum
  induction pixels with
  | nil => intro res; simp
  | cons px pxs ih =>
    intro res
    obtain ⟨h0, h1, h5, hf, hn⟩ := ih (cenStep w res px)
    simp only [List.foldl_cons, List.map_cons, List.sum_cons]
    refine ⟨?_, ?_, ?_, ?_, ?_⟩
    · rw [h0]; simp [cenStep, eval_predicted]; ring
    · rw [h1]; simp [cenStep, eval_predicted]; ring
    · rw [h5]; simp [cenStep, eval_predicted]; ring
    · rw [hf]; rfl
    · rw [hn]; rfl

/-- The sums of the measurement. -/
structure MomSums (w : AMWt) (pixels : List Pixel) (r : AMRes) : Prop where
  sums : ∀ i, r.sums i = wtSum w.list pixels (fun px => amF w.g px i)
  cov : ∀ i j, r.sumsCov i j =
    (pixels.map fun px => predicted w.list px ^ 2 / px.ierr ^ 2 * amF w.g px i * amF w.g px j).sum
  wsum : r.wsum = (pixels.map fun px => predicted w.list px).sum
  npix : r.npix = pixels.length

theorem momsums_gen (w : AMWt) : ∀ (pixels : List Pixel) (res : AMRes),
    (∀ px ∈ pixels, px.ierr ≠ 0) → ∃ r, amMomsums w pixels res = .ok r ∧
    (∀ i, r.sums i = res.sums i + wtSum w.list pixels (fun px => amF w.g px i)) ∧
    (∀ i j, r.sumsCov i j = res.sumsCov i j +
      (pixels.map fun px => predicted w.list px ^ 2 / px.ierr ^ 2 * amF w.g px i * amF w.g px j).sum) ∧
    r.wsum = res.wsum + (pixels.map fun px => predicted w.list px).sum ∧
    r.npix = res.npix + pixels.length ∧ r.flags = res.flags := by
  intro pixels
  induction pixels with
  | nil => intro res _; exact ⟨res, rfl, by simp [wtSum], by simp, by simp, by simp, rfl⟩
  | cons px pxs ih =>
    intro res h
    have hp : px.ierr ≠ 0 := h px List.mem_cons_self
    obtain ⟨r, hr, h1, h2, h3, h4, h5⟩ := ih (momStep w res px) (fun x hx => h x (List.mem_cons_of_mem _ hx))
    refine ⟨r, ?_, ?_, ?_, ?_, ?_, ?_⟩
    · unfold amMomsums
      rw [if_neg (mul_ne_zero hp hp)]
      exact hr
    · intro i; rw [h1]; simp only [momStep, eval_predicted, wtSum, List.map_cons, List.sum_cons]; ring
    · intro i j
      rw [h2]
      simp only [momStep, eval_predicted, List.map_cons, List.sum_cons]
      have : (1.0 : ℝ) / (px.ierr * px.ierr) = 1 / px.ierr ^ 2 := by norm_num [sq]
      rw [this]; ring
    · rw [h3]; simp only [momStep, eval_predicted, List.map_cons, List.sum_cons]; ring
    · rw [h4]; simp only [momStep, List.length_cons]; ring
    · rw [h5]; rfl

theorem momsums_ok (w : AMWt) (pixels : List Pixel) (res : AMRes) (h : ∀ px ∈ pixels, px.ierr ≠ 0) :
    ∃ r, amMomsums w pixels (amClear res) = .ok r ∧ MomSums w pixels r ∧ r.flags = res.flags := by
  obtain ⟨r, hr, h1, h2, h3, h4, h5⟩ := momsums_gen w pixels (amClear res) h
  exact ⟨r, hr, ⟨fun i => by rw [h1]; simp [amClear], fun i j => by rw [h2]; simp [amClear],
    by rw [h3]; simp [amClear], by rw [h4]; simp [amClear]⟩, h5⟩

theorem momsums_err (w : AMWt) : ∀ (pixels : List Pixel) (res : AMRes) (e : PyErr),
    amMomsums w pixels res = .error e → e = .zeroDiv ∧ ∃ px ∈ pixels, px.ierr = 0 := by
  intro pixels
  induction pixels with
  | nil => intro res e h; simp [amMomsums] at h
  | cons px pxs ih =>
    intro res e h
    unfold amMomsums at h
    by_cases hp : px.ierr * px.ierr = 0
    · rw [if_pos hp] at h
      simp only [Except.error.injEq] at h
      exact ⟨h.symm, px, List.mem_cons_self, by simpa using hp⟩
    · rw [if_neg hp] at h
      obtain ⟨a, q, hq, hq'⟩ := ih _ _ h
      exact ⟨a, q, List.mem_cons_of_mem _ hq, hq'⟩

/-- All determinants are current. -/
def Good (w : AMWt) : Prop := ∀ g ∈ w.list, DetCurrent g

theorem setNorms_ok (w : AMWt) (hw : Good w) (w' : AMWt) (h : amSetNorms w = (w', .ok ())) :
    Ready w w' ∧ Good w' := by
  unfold amSetNorms at h
  have hu : (gmixSetNorms w.list).2 = .ok () := by
    rcases hs : gmixSetNorms w.list with ⟨l, r⟩
    rw [hs] at h
    cases l <;> simp only [Prod.mk.injEq] at h <;> exact h.2
  have hus := setNorms_ok_usable w.list hw hu
  obtain ⟨-, hf⟩ := (C20_set_norms w.list hw).1 hus
  have hl : w'.list = (gmixSetNorms w.list).1 := by
    rcases hs : gmixSetNorms w.list with ⟨l, r⟩
    rw [hs] at h hf
    cases l with
    | nil => unfold AMWt.list at hf; cases hf
    | cons g gs => simp only [Prod.mk.injEq] at h; rw [← h.1]; rfl
  have hf2 : List.Forall₂ (fun g g' => (SameGauss g g' ∧ DetCurrent g' ∧ NormsCurrent g' ∧ g'.normSet = true)
      ∧ Usable g) w.list w'.list := by
    rw [hl]
    rw [List.forall₂_iff_get] at hf ⊢
    exact ⟨hf.1, fun i h1 h2 => ⟨hf.2 i h1 h2, hus _ (List.get_mem _ _)⟩⟩
  constructor
  · unfold Ready
    refine hf2.imp ?_
    rintro g g' ⟨⟨⟨a1, a2, a3, a4, a5, a6⟩, b, c, -⟩, d1, d2⟩
    refine ⟨⟨a1, a2, a3, a4, a5, a6⟩, b, c, ?_, ?_⟩
    · rw [b, ← a4, ← a5, ← a6]; exact d1
    · rw [← a4, ← a6]; exact d2
  · intro g' hg'
    obtain ⟨i, hi, rfl⟩ := List.getElem_of_mem hg'
    rw [List.forall₂_iff_get] at hf2
    exact (hf2.2 i (by rw [hf2.1]; exact hi) hi).1.2.1

theorem setNorms_err (w : AMWt) (hw : Good w) (w' : AMWt) (e : PyErr) (h : amSetNorms w = (w', .error e)) :
    e = .gmixRange ∧ Unusable w := by
  unfold amSetNorms at h
  have hr : (gmixSetNorms w.list).2 = .error e := by
    rcases hs : gmixSetNorms w.list with ⟨l, r⟩
    rw [hs] at h
    cases l <;> simp only [Prod.mk.injEq] at h <;> exact h.2
  by_cases hus : ∀ g ∈ w.list, Usable g
  · have := ((C20_set_norms w.list hw).1 hus).1
    rw [this] at hr; cases hr
  · -- split at the first unusable gaussian
    have key : ∀ l : List Gauss, (¬ ∀ g ∈ l, Usable g) → ∃ good bad rest, l = good ++ bad :: rest ∧
        (∀ g ∈ good, Usable g) ∧ ¬ Usable bad := by
      intro l
      induction l with
      | nil => intro h; exact absurd (by simp) h
      | cons g l ih =>
        intro h
        by_cases hg : Usable g
        · obtain ⟨a, b, c, rfl, h2, h3⟩ := ih (fun h' => h (by
            intro x hx; rcases List.mem_cons.mp hx with rfl | hx
            · exact hg
            · exact h' x hx))
          exact ⟨g :: a, b, c, rfl, by
            intro x hx; rcases List.mem_cons.mp hx with rfl | hx
            · exact hg
            · exact h2 x hx, h3⟩
        · exact ⟨[], g, l, rfl, by simp, hg⟩
    obtain ⟨a, b, c, hl, h2, h3⟩ := key _ hus
    have := ((C20_set_norms w.list hw).2 a b c hl h2 h3).1
    rw [this] at hr
    simp only [Except.error.injEq] at hr
    refine ⟨hr.symm, b, by rw [hl]; simp, ?_⟩
    unfold Usable at h3
    unfold gmixLowDetval at h3
    by_contra hc
    push Not at hc
    exact h3 hc

/-- The moments that a set of sums describes. -/
def momsOf (r : AMRes) : Moms :=
  ⟨r.sums 2 / r.sums 4, r.sums 3 / r.sums 4, r.sums 4 / r.sums 5⟩

theorem sums_spec {w : AMWt} {pixels : List Pixel} {r : AMRes} (h : MomSums w pixels r) :
    r.sums 5 = wtSum w.list pixels (fun _ => 1) ∧
    r.sums 4 = wtSum w.list pixels (fun px => (px.u - w.g.col) ^ 2 + (px.v - w.g.row) ^ 2) ∧
    r.sums 2 = wtSum w.list pixels (fun px => (px.u - w.g.col) ^ 2 - (px.v - w.g.row) ^ 2) ∧
    r.sums 3 = wtSum w.list pixels (fun px => 2 * (px.v - w.g.row) * (px.u - w.g.col)) := by
  refine ⟨?_, ?_, ?_, ?_⟩
  · rw [h.sums 5]; congr 1; funext px; simp only [amF]; change (1.0 : ℝ) = 1; norm_num
  · rw [h.sums 4]; congr 1; funext px; simp only [amF]; change (px.u - w.g.col) * (px.u - w.g.col) + (px.v - w.g.row) * (px.v - w.g.row) = _; ring
  · rw [h.sums 2]; congr 1; funext px; simp only [amF]; change (px.u - w.g.col) * (px.u - w.g.col) - (px.v - w.g.row) * (px.v - w.g.row) = _; ring
  · rw [h.sums 3]; rfl

theorem hasMoms_of {w : AMWt} {pixels : List Pixel} {r : AMRes} (h : MomSums w pixels r) (h5 : 0 < r.sums 5)
    (h4 : 0 < r.sums 4) : HasMoms pixels w (momsOf r) := by
  obtain ⟨e5, e4, e2, e3⟩ := sums_spec h
  unfold HasMoms momsOf
  rw [← e5, ← e4, ← e2, ← e3]
  refine ⟨h5, ?_, ?_, ?_, div_pos h4 h5⟩ <;> field_simp

theorem momsOf_cov (r : AMRes) (h5 : 0 < r.sums 5) (h4 : 0 < r.sums 4) :
    (momsOf r).cov = (0.5 * (r.sums 4 * (1.0 / r.sums 5) - r.sums 2 * (1.0 / r.sums 5)),
      0.5 * (r.sums 3 * (1.0 / r.sums 5)),
      0.5 * (r.sums 4 * (1.0 / r.sums 5) + r.sums 2 * (1.0 / r.sums 5))) := by
  unfold momsOf Moms.cov
  have := h5.ne'
  have := h4.ne'
  simp only [Prod.mk.injEq]
  refine ⟨?_, ?_, ?_⟩ <;> field_simp <;> norm_num <;> ring

theorem one_pt : (1.0 : ℝ) = 1 := by norm_num

theorem sinv_mk (X Y Z : ℝ) : sinv (X, Y, Z) =
    (Z * (1 / (X * Z - Y * Y)), -Y * (1 / (X * Z - Y * Y)), X * (1 / (X * Z - Y * Y))) := by
  simp only [sinv, sdet, sq, mul_one_div]

theorem sdet_sinv (N : ℝ × ℝ × ℝ) : sdet (sinv N) = 1 / sdet N := by
  obtain ⟨X, Y, Z⟩ := N
  by_cases h : X * Z - Y ^ 2 = 0
  · simp [sinv, sdet, h]
  · simp only [sinv, sdet]
    field_simp

theorem sinv_sinv (N : ℝ × ℝ × ℝ) (h : sdet N ≠ 0) : sinv (sinv N) = N := by
  have hd := sdet_sinv N
  unfold sinv at hd ⊢
  rw [hd]
  obtain ⟨X, Y, Z⟩ := N
  simp only [Prod.mk.injEq]
  refine ⟨?_, ?_, ?_⟩ <;> field_simp

/-- The gaussian with the deweighted covariance. -/
def deweighted (g : Gauss) (a b c : ℝ) : Gauss :=
  let Nrr := c * (1.0 / (a * c - b * b)) - g.icc * (1.0 / (g.irr * g.icc - g.irc * g.irc))
  let Ncc := a * (1.0 / (a * c - b * b)) - g.irr * (1.0 / (g.irr * g.icc - g.irc * g.irc))
  let Nrc := -b * (1.0 / (a * c - b * b)) + g.irc * (1.0 / (g.irr * g.icc - g.irc * g.irc))
  let k := 1 / (Nrr * Ncc - Nrc * Nrc)
  { g with irr := Ncc * k, icc := Nrr * k, irc := -Nrc * k,
           det := Ncc * k * (Nrr * k) - (-Nrc * k) * (-Nrc * k) }

theorem deweight_gen (g : Gauss) (a b c : ℝ) :
    (1e-200 < sdet (a, b, c) ∧ 1e-200 < sdet (gcov g) ∧ 1e-200 < sdet (sinv (a, b, c) - sinv (gcov g)) →
      ∃ g', deweightMoments g a b c = (g', 0) ∧
      sinv (gcov g') = sinv (a, b, c) - sinv (gcov g) ∧ sdet (gcov g') ≠ 0 ∧ DetCurrent g' ∧
      g' = { g with irr := g'.irr, irc := g'.irc, icc := g'.icc, det := g'.det }) ∧
    (¬ (1e-200 < sdet (a, b, c) ∧ 1e-200 < sdet (gcov g) ∧ 1e-200 < sdet (sinv (a, b, c) - sinv (gcov g))) →
      deweightMoments g a b c = (g, Flags.LOW_DET)) := by
  have hlow : gmixLowDetval = 1e-200 := rfl
  have hlp : (0 : ℝ) < 1e-200 := lowDet_pos
  have d1 : sdet (a, b, c) = a * c - b * b := by unfold sdet; ring
  have d2 : sdet (gcov g) = g.irr * g.icc - g.irc * g.irc := by unfold sdet gcov; ring
  have hs : sinv (a, b, c) - sinv (gcov g) =
        (c * (1.0 / (a * c - b * b)) - g.icc * (1.0 / (g.irr * g.icc - g.irc * g.irc)),
         -b * (1.0 / (a * c - b * b)) + g.irc * (1.0 / (g.irr * g.icc - g.irc * g.irc)),
         a * (1.0 / (a * c - b * b)) - g.irr * (1.0 / (g.irr * g.icc - g.irc * g.irc))) := by
    unfold gcov
    rw [sinv_mk, sinv_mk, one_pt]
    generalize 1 / (a * c - b * b) = x
    generalize 1 / (g.irr * g.icc - g.irc * g.irc) = y
    simp only [Prod.mk_sub_mk, Prod.mk.injEq]
    exact ⟨trivial, by ring, trivial⟩
  have d3 : sdet (sinv (a, b, c) - sinv (gcov g)) =
      (c * (1.0 / (a * c - b * b)) - g.icc * (1.0 / (g.irr * g.icc - g.irc * g.irc))) *
      (a * (1.0 / (a * c - b * b)) - g.irr * (1.0 / (g.irr * g.icc - g.irc * g.irc))) -
      (-b * (1.0 / (a * c - b * b)) + g.irc * (1.0 / (g.irr * g.icc - g.irc * g.irc))) *
      (-b * (1.0 / (a * c - b * b)) + g.irc * (1.0 / (g.irr * g.icc - g.irc * g.irc))) := by
    rw [hs]; simp only [sdet]; rw [sq]
  have hcov : sinv (sinv (a, b, c) - sinv (gcov g)) = gcov (deweighted g a b c) := by
    rw [hs, sinv_mk]
    rfl
  rw [d1, d2, d3]
  constructor
  · rintro ⟨h1, h2, h3⟩
    unfold deweightMoments
    simp only [hlow]
    rw [if_neg (not_le.mpr h1), if_neg (not_le.mpr h2), if_neg (not_le.mpr h3)]
    have hN : sdet (sinv (a, b, c) - sinv (gcov g)) ≠ 0 := by
      rw [d3]; exact (hlp.trans h3).ne'
    refine ⟨_, rfl, ?_, ?_, rfl, rfl⟩
    · exact (congrArg sinv hcov.symm).trans (sinv_sinv _ hN)
    · have : sdet (gcov (deweighted g a b c)) ≠ 0 := by
        rw [← hcov, sdet_sinv]; exact one_div_ne_zero hN
      exact this
  · intro hn
    unfold deweightMoments
    simp only [hlow]
    by_cases h1 : a * c - b * b ≤ 1e-200
    · rw [if_pos h1]
    · rw [if_neg h1]
      by_cases h2 : g.irr * g.icc - g.irc * g.irc ≤ 1e-200
      · rw [if_pos h2]
      · rw [if_neg h2]
        rw [if_pos (by
          by_contra h3
          exact hn ⟨not_le.mp h1, not_le.mp h2, not_le.mp h3⟩)]

theorem deweight_spec (g : Gauss) (m : Moms) (a b c : ℝ) (hm : m.cov = (a, b, c)) :
    (CanDeweight m g → ∃ g', deweightMoments g a b c = (g', 0) ∧
      sinv (gcov g') = sinv m.cov - sinv (gcov g) ∧ sdet (gcov g') ≠ 0 ∧ DetCurrent g' ∧
      g' = { g with irr := g'.irr, irc := g'.irc, icc := g'.icc, det := g'.det }) ∧
    (¬ CanDeweight m g → deweightMoments g a b c = (g, Flags.LOW_DET)) := by
  unfold CanDeweight
  rw [hm]
  exact deweight_gen g a b c

/-- The last measurement as the loop remembers it. -/
def toOld (ms : List Moms) : Option (ℝ × ℝ × ℝ) := ms.head?.map fun m => (m.e1, m.e2, m.T)

theorem close_iff (conf : AMConf) (ms : List Moms) (m : Moms) :
    amClose conf (toOld ms) m.e1 m.e2 m.T ↔ ∃ m' ∈ ms.head?, Close conf.etol conf.Ttol m m' := by
  unfold toOld amClose Close
  cases h : ms.head? with
  | none => simp
  | some m' => simp

/-- What the record holds when the loop stops with a converged measurement. -/
structure Recorded (w : AMWt) (pixels : List Pixel) (r : AMRes) : Prop where
  sums : MomSums w pixels r
  pos5 : 0 < r.sums 5
  pos4 : 0 < r.sums 4
  pars : r.pars = [.fin w.g.row, .fin w.g.col, .fin (w.g.icc - w.g.irr), .fin (2.0 * w.g.irc),
    .fin (w.g.icc + w.g.irr), .fin 1.0]
  rho4 : r.rho4 = .fin (r.sums 6 / r.sums 5)

theorem decide_spec (conf : AMConf) (pixels : List Pixel) (orig : ℝ × ℝ) (ms : List Moms) (w w' : AMWt)
    (r : AMRes) (hw : ∃ w1, Ready w w1 ∧ Recentred pixels w1 w' ∧ Near conf.shiftmax orig w')
    (hr : MomSums w' pixels r) (hf : r.flags = 0)
    (w'' : AMWt) (r' : AMRes) (n : AMNext) (h : amDecide conf w' r (toOld ms) = (w'', r', n)) :
    (n = .brk ∧ Stops conf pixels orig ms w r'.flags w'' ∧ (r'.flags = 0 → Recorded w'' pixels r')) ∨
    (∃ m, n = .next m.e1 m.e2 m.T ∧ Measured conf.shiftmax orig pixels w w' m ∧
      (∀ m' ∈ ms.head?, ¬ Close conf.etol conf.Ttol m m') ∧ NextWeight conf.cenonly m w' w'' ∧ r'.flags = 0) := by
  obtain ⟨w1, hR, hC, hN⟩ := hw
  obtain ⟨e5, e4, e2, e3⟩ := sums_spec hr
  unfold amDecide at h
  by_cases h5 : r.sums 5 ≤ 0
  · rw [if_pos h5] at h
    simp only [Prod.mk.injEq] at h
    obtain ⟨rfl, rfl, rfl⟩ := h
    exact .inl ⟨rfl, .noFlux' hR hC hN (by rw [← e5]; exact h5), fun hc => absurd hc (by simp [Flags.NONPOS_FLUX, Flags.NONPOS_SIZE, Flags.CEN_SHIFT, Flags.LOW_DET])⟩
  · rw [if_neg h5] at h
    have h5p : 0 < r.sums 5 := not_le.mp h5
    by_cases hT : r.sums 4 * (1.0 / r.sums 5) ≤ 0
    · simp only [] at h
      rw [if_pos hT] at h
      simp only [Prod.mk.injEq] at h
      obtain ⟨rfl, rfl, rfl⟩ := h
      refine .inl ⟨rfl, .noSize hR hC hN (by rw [← e5]; exact h5p) ?_, fun hc => absurd hc (by simp [Flags.NONPOS_FLUX, Flags.NONPOS_SIZE, Flags.CEN_SHIFT, Flags.LOW_DET])⟩
      rw [← e4]
      rw [one_pt] at hT
      by_contra hc
      have := mul_pos (not_le.mp hc) (one_div_pos.mpr h5p)
      linarith
    · simp only [] at h
      rw [if_neg hT] at h
      have h4p : 0 < r.sums 4 := by
        rw [one_pt] at hT
        by_contra hc
        exact hT (mul_nonpos_of_nonpos_of_nonneg (not_lt.mp hc) (one_div_pos.mpr h5p).le)
      set m := momsOf r with hm
      have hTT : r.sums 4 * (1.0 / r.sums 5) = m.T := by
        rw [hm, one_pt]; simp only [momsOf]; ring
      have hcov := momsOf_cov r h5p h4p
      rw [← hm] at hcov
      have he1 : (0.5 * (r.sums 4 * (1.0 / r.sums 5) + r.sums 2 * (1.0 / r.sums 5)) -
          0.5 * (r.sums 4 * (1.0 / r.sums 5) - r.sums 2 * (1.0 / r.sums 5))) / (r.sums 4 * (1.0 / r.sums 5))
          = m.e1 := by
        rw [hm, one_pt]; simp only [momsOf]
        have := h5p.ne'
        have := h4p.ne'
        field_simp
        norm_num
        ring
      have he2 : 2 * (0.5 * (r.sums 3 * (1.0 / r.sums 5))) / (r.sums 4 * (1.0 / r.sums 5)) = m.e2 := by
        rw [hm, one_pt]; simp only [momsOf]
        have := h5p.ne'
        have := h4p.ne'
        field_simp
        norm_num
      rw [he1, he2] at h
      have hMm : HasMoms pixels w' m := hasMoms_of hr h5p h4p
      have hMeas : Measured conf.shiftmax orig pixels w w' m := ⟨w1, hR, hC, hN, hMm⟩
      by_cases hcl : amClose conf (toOld ms) m.e1 m.e2 m.T
      · rw [if_pos (by rw [hTT]; exact hcl)] at h
        simp only [Prod.mk.injEq] at h
        obtain ⟨rfl, rfl, rfl⟩ := h
        obtain ⟨m', hm', hc'⟩ := (close_iff conf ms m).mp hcl
        refine .inl ⟨rfl, ?_, fun _ => ⟨⟨hr.sums, hr.cov, hr.wsum, hr.npix⟩, h5p, h4p, rfl, rfl⟩⟩
        simp only [hf]
        exact .converged hMeas hm' hc'
      · rw [if_neg (by rw [hTT]; exact hcl)] at h
        have hnc : ∀ m' ∈ ms.head?, ¬ Close conf.etol conf.Ttol m m' :=
          fun m' hm' hc => hcl ((close_iff conf ms m).mpr ⟨m', hm', hc⟩)
        cases hco : conf.cenonly with
        | true =>
          rw [hco, if_pos rfl] at h
          simp only [Prod.mk.injEq] at h
          obtain ⟨rfl, rfl, rfl⟩ := h
          exact .inr ⟨m, by rw [hTT], hMeas, hnc, by simp [NextWeight], hf⟩
        | false =>
          rw [hco, if_neg (by simp)] at h
          obtain ⟨d1, d2⟩ := deweight_spec w'.g m _ _ _ hcov
          by_cases hcd : CanDeweight m w'.g
          · obtain ⟨g', hg', k1, k2, k3, k4⟩ := d1 hcd
            rw [hg'] at h
            simp only [Prod.mk.injEq] at h
            obtain ⟨rfl, rfl, rfl⟩ := h
            refine .inr ⟨m, by rw [hTT], hMeas, hnc, ?_, hf⟩
            simp only [NextWeight, Bool.false_eq_true, if_false]
            exact ⟨hcd, k1, k2, k3, by rw [← k4]⟩
          · rw [d2 hcd] at h
            have hld : Flags.LOW_DET = 15 + 1 := rfl
            rw [hld] at h
            simp only [Prod.mk.injEq] at h
            obtain ⟨rfl, rfl, rfl⟩ := h
            exact .inl ⟨rfl, .degenerate hMeas hnc hco hcd, fun hc => absurd hc (by simp)⟩

theorem pass_spec (conf : AMConf) (pixels : List Pixel) (orig : ℝ × ℝ) (ms : List Moms) (w w1 : AMWt)
    (res : AMRes) (hw : Ready w w1) (hf : res.flags = 0) (w'' : AMWt) (r' : AMRes) (out : Except PyErr AMNext)
    (h : amPass conf orig pixels w1 res (toOld ms) = (w'', r', out)) :
    (out = .error .zeroDiv ∧ ∃ px ∈ pixels, px.ierr = 0) ∨
    (out = .ok .brk ∧ Stops conf pixels orig ms w r'.flags w'' ∧ (r'.flags = 0 → Recorded w'' pixels r')) ∨
    (∃ m w', out = .ok (.next m.e1 m.e2 m.T) ∧ Measured conf.shiftmax orig pixels w w' m ∧
      (∀ m' ∈ ms.head?, ¬ Close conf.etol conf.Ttol m m') ∧ NextWeight conf.cenonly m w' w'' ∧ r'.flags = 0) := by
  obtain ⟨c0, c1, c5, cf, -⟩ := censums_eq w1 pixels (amClear res)
  have z0 : (amClear res).sums 0 = 0 := rfl
  have z1 : (amClear res).sums 1 = 0 := rfl
  have z5 : (amClear res).sums 5 = 0 := rfl
  rw [z0, zero_add] at c0
  rw [z1, zero_add] at c1
  rw [z5, zero_add] at c5
  have cf : (amCensums w1 pixels (amClear res)).flags = 0 := by rw [cf]; exact hf
  unfold amPass at h
  set rc := amCensums w1 pixels (amClear res) with hrc
  simp only [] at h
  by_cases h5 : rc.sums 5 ≤ 0
  · rw [if_pos h5] at h
    simp only [Prod.mk.injEq] at h
    obtain ⟨rfl, rfl, rfl⟩ := h
    exact .inr (.inl ⟨rfl, .noFlux hw (by rw [← c5]; exact h5), fun hc => absurd hc (by simp [Flags.NONPOS_FLUX, Flags.NONPOS_SIZE, Flags.CEN_SHIFT, Flags.LOW_DET])⟩)
  · rw [if_neg h5] at h
    have h5p := not_le.mp h5
    generalize hw' : ({ w1 with g := { w1.g with row := rc.sums 0 / rc.sums 5, col := rc.sums 1 / rc.sums 5 } } :
      AMWt) = w' at h
    have hRec : Recentred pixels w1 w' := by
      unfold Recentred
      rw [← c5, ← c0, ← c1, ← hw']
      refine ⟨h5p, ?_, ?_, rfl⟩
      · simp only; field_simp
      · simp only; field_simp
    have r1 : rc.sums 0 / rc.sums 5 = w'.g.row := by rw [← hw']
    have r2 : rc.sums 1 / rc.sums 5 = w'.g.col := by rw [← hw']
    rw [r1, r2] at h
    by_cases hsh : |w'.g.row - orig.1| > conf.shiftmax ∨ |w'.g.col - orig.2| > conf.shiftmax
    · rw [if_pos hsh] at h
      simp only [Prod.mk.injEq] at h
      obtain ⟨rfl, rfl, rfl⟩ := h
      refine .inr (.inl ⟨rfl, .shifted hw hRec ?_, fun hc => absurd hc (by simp [Flags.NONPOS_FLUX, Flags.NONPOS_SIZE, Flags.CEN_SHIFT, Flags.LOW_DET])⟩)
      rintro ⟨a, b⟩
      rcases hsh with hs | hs <;> linarith
    · rw [if_neg hsh] at h
      have hN : Near conf.shiftmax orig w' := by
        push Not at hsh
        exact hsh
      cases hm : amMomsums w' pixels (amClear rc) with
      | error e =>
        rw [hm] at h
        simp only [Prod.mk.injEq] at h
        obtain ⟨rfl, hpx⟩ := momsums_err _ _ _ _ hm
        exact .inl ⟨h.2.2.symm, hpx⟩
      | ok r2 =>
        rw [hm] at h
        by_cases hpx : ∀ px ∈ pixels, px.ierr ≠ 0
        · obtain ⟨r3, hr3, hms, hfl⟩ := momsums_ok w' pixels rc hpx
          rw [hm] at hr3
          simp only [Except.ok.injEq] at hr3
          subst hr3
          simp only [] at h
          rcases hd : amDecide conf w' r2 (toOld ms) with ⟨a, b, n⟩
          rw [hd] at h
          simp only [] at h
          simp only [Prod.mk.injEq] at h
          obtain ⟨rfl, rfl, rfl⟩ := h
          rcases decide_spec conf pixels orig ms w w' r2 ⟨w1, hw, hRec, hN⟩ hms (by rw [hfl]; exact cf)
            _ _ _ hd with ⟨rfl, a, b⟩ | ⟨m, rfl, a, b, c, d⟩
          · exact .inr (.inl ⟨rfl, a, b⟩)
          · exact .inr (.inr ⟨m, w', rfl, a, b, c, d⟩)
        · exfalso
          -- a zero `ierr` makes the sums raise
          have key : ∀ (l : List Pixel) (r : AMRes), (¬ ∀ px ∈ l, px.ierr ≠ 0) →
              amMomsums w' l r = .error .zeroDiv := by
            intro l
            induction l with
            | nil => intro r hh; exact absurd (by simp) hh
            | cons px l ih =>
              intro r hh
              unfold amMomsums
              by_cases hp : px.ierr * px.ierr = 0
              · rw [if_pos hp]
              · rw [if_neg hp]
                refine ih _ (fun hh' => hh ?_)
                intro q hq
                rcases List.mem_cons.mp hq with rfl | hq
                · exact fun h0 => hp (by rw [h0, mul_zero])
                · exact hh' q hq
          rw [key _ _ hpx] at hm
          cases hm

/-- Every gaussian keeps a current determinant. -/
theorem good_next {cenonly : Bool} {m : Moms} {w w' w'' : AMWt} {s : ℝ} {o : ℝ × ℝ} {pixels : List Pixel}
    (h : Measured s o pixels w w' m) (hn : NextWeight cenonly m w' w'') : Good w'' := by
  obtain ⟨w1, hR, ⟨-, -, -, hc⟩, -, -⟩ := h
  have hg1 : Good w1 := by
    intro g' hg'
    unfold Ready at hR
    obtain ⟨i, hi, rfl⟩ := List.getElem_of_mem hg'
    rw [List.forall₂_iff_get] at hR
    exact (hR.2 i (by rw [hR.1]; exact hi) hi).2.1
  have hg' : Good w' := by
    intro g hg
    rw [hc] at hg
    simp only [AMWt.list, List.mem_cons] at hg
    rcases hg with rfl | hg
    · exact hg1 w1.g (by simp [AMWt.list])
    · exact hg1 g (by simp [AMWt.list, hg])
  cases cenonly with
  | true => simp only [NextWeight, if_true] at hn; rw [hn]; exact hg'
  | false =>
    simp only [NextWeight, Bool.false_eq_true, if_false] at hn
    obtain ⟨-, -, -, hd, he⟩ := hn
    intro g hg
    have hr : w''.rest = w'.rest := by rw [he]
    simp only [AMWt.list, List.mem_cons] at hg
    rcases hg with rfl | hg
    · exact hd
    · rw [hr] at hg; exact hg' g (by simp [AMWt.list, hg])

theorem iter_spec (conf : AMConf) (pixels : List Pixel) (orig : ℝ × ℝ) (ms : List Moms) (w : AMWt)
    (res : AMRes) (hw : Good w) (hf : res.flags = 0) (w'' : AMWt) (r' : AMRes) (out : Except PyErr AMNext)
    (h : amIter conf orig pixels w res (toOld ms) = (w'', r', out)) :
    (out = .error .zeroDiv ∧ ∃ px ∈ pixels, px.ierr = 0) ∨
    (out = .error .gmixRange ∧ Unusable w ∧ r' = res) ∨
    (out = .ok .brk ∧ Stops conf pixels orig ms w r'.flags w'' ∧ (r'.flags = 0 → Recorded w'' pixels r')) ∨
    (∃ m w', out = .ok (.next m.e1 m.e2 m.T) ∧ Measured conf.shiftmax orig pixels w w' m ∧
      (∀ m' ∈ ms.head?, ¬ Close conf.etol conf.Ttol m m') ∧ NextWeight conf.cenonly m w' w'' ∧ r'.flags = 0) := by
  unfold amIter at h
  by_cases hd : w.g.det < gmixLowDetval
  · rw [if_pos hd] at h
    simp only [Prod.mk.injEq] at h
    obtain ⟨rfl, rfl, rfl⟩ := h
    exact .inr (.inr (.inl ⟨rfl, .lowDet hd, fun hc => absurd hc (by simp [Flags.NONPOS_FLUX, Flags.NONPOS_SIZE, Flags.CEN_SHIFT, Flags.LOW_DET])⟩))
  · rw [if_neg hd] at h
    rcases hs : amSetNorms w with ⟨w1, o⟩
    rw [hs] at h
    cases o with
    | error e =>
      simp only [Prod.mk.injEq] at h
      obtain ⟨rfl, hu⟩ := setNorms_err w hw w1 e hs
      exact .inr (.inl ⟨h.2.2.symm, hu, h.2.1.symm⟩)
    | ok _ =>
      obtain ⟨hR, -⟩ := setNorms_ok w hw w1 hs
      rcases pass_spec conf pixels orig ms w w1 res hR hf w'' r' out h with a | a | a
      · exact .inl a
      · exact .inr (.inr (.inl a))
      · exact .inr (.inr (.inr a))

theorem loop_spec (conf : AMConf) (pixels : List Pixel) (w0 : AMWt) : ∀ (k i : ℕ) (ms : List Moms) (w : AMWt)
    (res : AMRes), i = ms.length → History conf pixels w0 ms w → Good w → res.flags = 0 →
    ∀ (w'' : AMWt) (r' : AMRes) (out : Except PyErr ℕ),
    amLoop conf (w0.g.row, w0.g.col) pixels k i w res (toOld ms) = (w'', r', out) →
    (out = .error .zeroDiv ∧ ∃ px ∈ pixels, px.ierr = 0) ∨
    (out = .error .gmixRange ∧ ∃ ms' w', History conf pixels w0 ms' w' ∧ Unusable w' ∧ ms'.length < k + i) ∨
    (∃ n ms' w', out = .ok n ∧ History conf pixels w0 ms' w' ∧
      Stops conf pixels (w0.g.row, w0.g.col) ms' w' r'.flags w'' ∧
      (r'.flags = 0 → Recorded w'' pixels r') ∧ n = ms'.length + 1 ∧ n ≤ k + i) ∨
    (∃ ms', out = .ok (k + i) ∧ History conf pixels w0 ms' w'' ∧ ms'.length = k + i) := by
  intro k
  induction k with
  | zero =>
    intro i ms w res hi hH hg hf w'' r' out h
    simp only [amLoop, Prod.mk.injEq] at h
    obtain ⟨rfl, rfl, rfl⟩ := h
    exact .inr (.inr (.inr ⟨ms, by rw [zero_add], hH, by omega⟩))
  | succ k ih =>
    intro i ms w res hi hH hg hf w'' r' out h
    unfold amLoop at h
    rcases hit : amIter conf (w0.g.row, w0.g.col) pixels w res (toOld ms) with ⟨w1, r1, o⟩
    rw [hit] at h
    rcases iter_spec conf pixels _ ms w res hg hf w1 r1 o hit with
      ⟨rfl, hpx⟩ | ⟨rfl, hu, -⟩ | ⟨rfl, hst, hrec⟩ | ⟨m, w', rfl, hM, hnc, hnx, hf1⟩
    · simp only [Prod.mk.injEq] at h
      exact .inl ⟨h.2.2.symm, hpx⟩
    · simp only [Prod.mk.injEq] at h
      exact .inr (.inl ⟨h.2.2.symm, ms, w, hH, hu, by omega⟩)
    · simp only [Prod.mk.injEq] at h
      obtain ⟨rfl, rfl, rfl⟩ := h
      exact .inr (.inr (.inl ⟨i + 1, ms, w, rfl, hH, hst, hrec, by omega, by omega⟩))
    · have hH' : History conf pixels w0 (m :: ms) w1 := .step hH hM hnc hnx
      rcases ih (i + 1) (m :: ms) w1 r1 (by simp [hi]) hH' (good_next hM hnx) hf1 w'' r' out h with
        a | ⟨a, ms', w', b, c, d⟩ | ⟨n, ms', w', a, b, c, d, e, f⟩ | ⟨ms', a, b, c⟩
      · exact .inl a
      · exact .inr (.inl ⟨a, ms', w', b, c, by omega⟩)
      · exact .inr (.inr (.inl ⟨n, ms', w', a, b, c, d, e, by omega⟩))
      · exact .inr (.inr (.inr ⟨ms', by rw [a]; congr 1; omega, b, by omega⟩))

end

end Ngmix.Proof.Admom
