import Verif.Proof.Admom
import Verif.Proof.MomResult
import Verif.Proof.ExceptLemmas
import Verif.Props.Ellip
import Verif.Props.Models
import Verif.Props.FastExp
import Verif.Props.Density

/-!
# C51, C52, C69: adaptive moments
-/

namespace Ngmix.Props

open Ngmix Ngmix.Spec Ngmix.Proof.Admom

noncomputable section

set_option linter.unusedSimpArgs false

/-! ### The result dictionary -/

/-- All the measured values are NaN. -/
def AllNaN (o : AMOut) : Prop :=
  o.flux = .nan ∧ o.fluxMean = .nan ∧ o.fluxErr = .nan ∧ o.s2n = .nan ∧ o.T = .nan ∧ o.Terr = .nan ∧
  o.rho4 = .nan ∧ o.rho4Err = .nan ∧ o.e1 = .nan ∧ o.e2 = .nan ∧ o.e1err = .nan ∧ o.e2err = .nan

theorem getResult_flagged (a : AMRes) (area : ℝ) (nrm : Fl) (h : a.flags ≠ 0) :
    ∃ o, amGetResult a area nrm = .ok o ∧ o.fluxFlags = a.flags ∧ o.TFlags = a.flags ∧ o.rho4Flags = a.flags ∧
      (o.flags = a.flags ∨ o.flags = a.flags ||| Flags.NONPOS_VAR) ∧ o.flags ≠ 0 ∧ AllNaN o ∧
      o.numiter = a.numiter := by
  have hor : ∀ x : ℕ, a.flags ||| x ≠ 0 := fun x hx => h (Nat.or_eq_zero_iff.mp hx).1
  set o1 : AMOut := { (amBase a) with fluxFlags := a.flags, TFlags := a.flags, rho4Flags := a.flags } with ho1
  have hmid : amGetResult a area nrm = amShape (amVarFlag o1) := by
    have h1 : amFlux area nrm (amBase a) = { (amBase a) with fluxFlags := a.flags } := by
      exact if_neg h
    have h2 : amT { (amBase a) with fluxFlags := a.flags } =
        .ok { (amBase a) with fluxFlags := a.flags, TFlags := a.flags } := by
      exact if_neg h
    have h3 : amRho4 { (amBase a) with fluxFlags := a.flags, TFlags := a.flags } = .ok o1 := by
      exact if_neg h
    unfold amGetResult
    rw [h1, h2]
    simp only [Except.bind]
    rw [h3]
  have hnan : AllNaN o1 := by simp [AllNaN, ho1, amBase, h]
  rw [hmid]
  by_cases hv : ∀ i : Fin 7, 2 ≤ i.val → o1.sumsCov i i > 0
  · refine ⟨o1, ?_, rfl, rfl, rfl, .inl rfl, h, hnan, rfl⟩
    rw [show amVarFlag o1 = o1 from if_pos hv]
    exact if_neg h
  · refine ⟨{ o1 with flags := o1.flags ||| Flags.NONPOS_VAR }, ?_, rfl, rfl, rfl, .inr rfl, hor _, hnan, rfl⟩
    rw [show amVarFlag o1 = _ from if_neg hv]
    exact if_neg (hor Flags.NONPOS_VAR)

/-- Sums of nonnegative numbers, one of them positive. -/
theorem sum_pos_of {α : Type*} (l : List α) (f : α → ℝ) (h0 : ∀ x ∈ l, 0 ≤ f x) (x : α) (hx : x ∈ l)
    (hp : 0 < f x) : 0 < (l.map f).sum := by
  induction l with
  | nil => cases hx
  | cons y l ih =>
    simp only [List.map_cons, List.sum_cons]
    have hl : 0 ≤ (l.map f).sum := List.sum_nonneg (by
      intro z hz
      obtain ⟨q, hq, rfl⟩ := List.mem_map.mp hz
      exact h0 q (List.mem_cons_of_mem _ hq))
    rcases List.mem_cons.mp hx with rfl | hx
    · linarith
    · have := ih (fun z hz => h0 z (List.mem_cons_of_mem _ hz)) hx
      have := h0 y List.mem_cons_self
      linarith

/-- A nonzero sum has a nonzero term. -/
theorem exists_ne_of_sum {α : Type*} (l : List α) (f : α → ℝ) (h : (l.map f).sum ≠ 0) : ∃ x ∈ l, f x ≠ 0 := by
  by_contra hc
  push Not at hc
  apply h
  apply List.sum_eq_zero
  intro z hz
  obtain ⟨q, hq, rfl⟩ := List.mem_map.mp hz
  exact hc q hq

/-- The gaussian of the weight is in range and its lazily evaluated numbers are current. -/
def WtOk (w : AMWt) : Prop :=
  DetCurrent w.g ∧ NormsCurrent w.g ∧ 1e-200 ≤ w.g.det ∧ 1e-200 < w.g.irr + w.g.icc

theorem measured_wtOk {s : ℝ} {o : ℝ × ℝ} {pixels : List Pixel} {w w' : AMWt} {m : Moms}
    (h : Measured s o pixels w w' m) : WtOk w' := by
  obtain ⟨w1, hR, ⟨-, -, -, hc⟩, -, -⟩ := h
  unfold Ready AMWt.list at hR
  obtain ⟨hh, -⟩ := List.forall₂_cons.mp hR
  obtain ⟨-, h2, h3, h4, h5⟩ := hh
  rw [hc]
  exact ⟨h2, h3, h4, h5⟩

theorem momsums_pos {w : AMWt} {pixels : List Pixel} {r : AMRes} (hr : Recorded w pixels r) (hw : WtOk w)
    (hpx : ∀ px ∈ pixels, px.ierr ≠ 0) : 0 < r.sumsCov 4 4 ∧ 0 < r.sumsCov 5 5 ∧ 0 < r.sumsCov 6 6 ∧
      0 ≤ r.sumsCov 2 2 ∧ 0 ≤ r.sumsCov 3 3 := by
  have hp4 := hr.pos4
  rw [hr.sums.sums 4] at hp4
  obtain ⟨px, hmem, hne⟩ := exists_ne_of_sum _ _ hp4.ne'
  have hpr : predicted w.list px ≠ 0 := fun h => hne (by rw [h]; ring)
  have hF4 : amF w.g px 4 ≠ 0 := fun h => hne (by simp only [h, mul_zero])
  have hi := hpx px hmem
  have hnn : ∀ i : Fin 7, ∀ x ∈ pixels, 0 ≤ predicted w.list x ^ 2 / x.ierr ^ 2 * amF w.g x i * amF w.g x i := by
    intro i x _
    rw [mul_assoc]
    exact mul_nonneg (by positivity) (mul_self_nonneg _)
  have hpos : ∀ i : Fin 7, amF w.g px i ≠ 0 → 0 < r.sumsCov i i := by
    intro i hne'
    rw [hr.sums.cov]
    refine sum_pos_of _ _ (hnn i) px hmem ?_
    rw [mul_assoc]
    exact mul_pos (by positivity) (mul_self_pos.mpr hne')
  have hF5 : amF w.g px 5 ≠ 0 := by
    have : amF w.g px 5 = 1.0 := rfl
    rw [this]; norm_num
  have hF6 : amF w.g px 6 ≠ 0 := by
    obtain ⟨-, hn, -, hT⟩ := hw
    obtain ⟨d, hd, -⟩ := id hn
    have hlp : (0 : ℝ) < 1e-200 := lowDet_pos
    have hch := C21_chi2 w.g d hd hn (hlp.trans hT) px.v px.u
    have e : amF w.g px 6 = gaussChi2 w.g d px.v px.u * gaussChi2 w.g d px.v px.u := by
      have : amF w.g px 6 = amChi2 w.g (px.v - w.g.row) (px.u - w.g.col) *
        amChi2 w.g (px.v - w.g.row) (px.u - w.g.col) := rfl
      rw [this]
      simp only [amChi2, hd, gaussChi2]
      norm_num
    rw [e]
    have hne6 : gaussChi2 w.g d px.v px.u ≠ 0 := by
      intro h0
      obtain ⟨hv, hu⟩ := hch.2.2.mp h0
      apply hF4
      have : amF w.g px 4 = (px.u - w.g.col) * (px.u - w.g.col) + (px.v - w.g.row) * (px.v - w.g.row) := rfl
      rw [this, hv, hu]; ring
    exact mul_ne_zero hne6 hne6
  refine ⟨hpos 4 hF4, hpos 5 hF5, hpos 6 hF6, ?_, ?_⟩
  · rw [hr.sums.cov]
    exact List.sum_nonneg (by
      intro z hz; obtain ⟨q, hq, rfl⟩ := List.mem_map.mp hz; exact hnn 2 q hq)
  · rw [hr.sums.cov]
    exact List.sum_nonneg (by
      intro z hz; obtain ⟨q, hq, rfl⟩ := List.mem_map.mp hz; exact hnn 3 q hq)

/-- The flags of a converged measurement: variances of the two shape sums, and the shape sums themselves. -/
def shapeFlags (r : AMRes) : ℕ :=
  open Classical in
  if r.sumsCov 2 2 = 0 ∨ r.sumsCov 3 3 = 0 then Flags.NONPOS_VAR
  else if r.sums 2 = 0 ∨ r.sums 3 = 0 then Flags.NONPOS_SHAPE_VAR else 0

/-- What the dictionary has for a converged measurement. -/
structure ConvergedOut (w : AMWt) (r : AMRes) (area norm : ℝ) (o : AMOut) : Prop where
  flags : o.flags = shapeFlags r
  fluxFlags : o.fluxFlags = 0
  TFlags : o.TFlags = 0
  rho4Flags : o.rho4Flags = 0
  numiter : o.numiter = r.numiter
  npix : o.npix = r.npix
  wsum : o.wsum = r.wsum
  sums : o.sums = r.sums
  sumsCov : o.sumsCov = r.sumsCov
  pars : o.pars = [.fin w.g.row, .fin w.g.col, .fin (w.g.icc - w.g.irr), .fin (2 * w.g.irc),
    .fin (w.g.icc + w.g.irr), .fin (r.sums 5) / .fin r.wsum]
  T : o.T = .fin (w.g.icc + w.g.irr)
  Terr : o.Terr = .fin (4 * Real.sqrt (max (ratioQuad (r.sums 4) (r.sums 5) (r.sumsCov 4 4) (r.sumsCov 5 5)
    (r.sumsCov 4 5)) 0))
  flux : o.flux = .fin (r.sums 5) / .fin (area * norm * r.wsum)
  fluxErr : o.fluxErr = .fin (Real.sqrt (r.sumsCov 5 5)) / .fin (area * norm * r.wsum)
  s2n : o.s2n = o.flux / o.fluxErr
  rho4 : o.rho4 = .fin (r.sums 6 / r.sums 5)
  rho4Err : r.sums 6 ≠ 0 → o.rho4Err = .fin (4 * Real.sqrt (max (ratioQuad (r.sums 6) (r.sums 5) (r.sumsCov 6 6)
    (r.sumsCov 5 5) (r.sumsCov 6 5)) 0))
  e : shapeFlags r ≠ Flags.NONPOS_VAR →
    o.e1 = .fin ((w.g.icc - w.g.irr) / (w.g.icc + w.g.irr)) ∧ o.e2 = .fin (2 * w.g.irc / (w.g.icc + w.g.irr))
  err : shapeFlags r = 0 →
    o.e1err = .fin (2 * Real.sqrt (max (ratioQuad (r.sums 2) (r.sums 4) (r.sumsCov 2 2) (r.sumsCov 4 4)
      (r.sumsCov 2 4)) 0)) ∧
    o.e2err = .fin (2 * Real.sqrt (max (ratioQuad (r.sums 3) (r.sums 4) (r.sumsCov 3 3) (r.sumsCov 4 4)
      (r.sumsCov 3 4)) 0))
  noerr : shapeFlags r ≠ 0 → o.e1err = .nan ∧ o.e2err = .nan

theorem amT_ok (o : AMOut) (hf : o.flags = 0) (c4 : 0 < o.sumsCov 4 4) (c5 : 0 < o.sumsCov 5 5)
    (s5 : 0 < o.sums 5) (e : Fl) (he : sumsRatioError o 4 5 = .ok e) :
    amT o = .ok { o with Terr := .fin 4 * e } := by
  unfold amT
  rw [if_pos hf, if_pos ⟨c4, c5⟩, if_pos s5, he]
  rfl

theorem amRho4_ok (o : AMOut) (hf : o.flags = 0) (c6 : 0 < o.sumsCov 6 6) (c5 : 0 < o.sumsCov 5 5)
    (s5 : 0 < o.sums 5) (e : Fl) (he : sumsRatioError o 6 5 = .ok e) :
    amRho4 o = .ok { o with rho4 := .fin (o.sums 6) / .fin (o.sums 5), rho4Err := .fin 4 * e } := by
  unfold amRho4
  rw [if_pos hf, if_pos ⟨c6, c5⟩, if_pos s5, he]
  rfl

theorem getResult_ok {w : AMWt} {pixels : List Pixel} {r : AMRes} (hr : Recorded w pixels r) (hf : r.flags = 0)
    (hw : WtOk w) (hpx : ∀ px ∈ pixels, px.ierr ≠ 0) (area : ℝ) (d : Norms) (hd : w.g.d = some d) :
    ∃ o, amGetResult r area (amNorm w.g) = .ok o ∧ ConvergedOut w r area d.norm o := by
  obtain ⟨c4, c5, c6, c2, c3⟩ := momsums_pos hr hw hpx
  have s5 := hr.pos5
  have s4 := hr.pos4
  have hlp : (0 : ℝ) < 1e-200 := lowDet_pos
  obtain ⟨-, -, -, hTlow⟩ := hw
  have hTl : Fl.lt (.fin gmixLowDetval) (.fin (w.g.icc + w.g.irr)) := by
    change gmixLowDetval < w.g.icc + w.g.irr
    rw [add_comm]; exact hTlow
  have hT0 : (0 : ℝ) < w.g.icc + w.g.irr := by linarith
  have hT1 : Fl.lt (.fin 0) (.fin (w.g.icc + w.g.irr)) := hT0
  have hnorm : amNorm w.g = .fin d.norm := by simp [amNorm, hd]
  have two : (2.0 : ℝ) = 2 := by norm_num
  -- the ratio errors
  have r45 := getRatioError_fin (a := r.sums 4) (b := r.sums 5) (r.sumsCov 4 4) (r.sumsCov 5 5) (r.sumsCov 4 5) s5.ne'
  have r65 := getRatioError_fin (a := r.sums 6) (b := r.sums 5) (r.sumsCov 6 6) (r.sumsCov 5 5) (r.sumsCov 6 5) s5.ne'
  have r24 := getRatioError_fin (a := r.sums 2) (b := r.sums 4) (r.sumsCov 2 2) (r.sumsCov 4 4) (r.sumsCov 2 4) s4.ne'
  have r34 := getRatioError_fin (a := r.sums 3) (b := r.sums 4) (r.sumsCov 3 3) (r.sumsCov 4 4) (r.sumsCov 3 4) s4.ne'
  rw [if_neg s4.ne'] at r45
  -- before the variance test
  set o1 : AMOut := { (amBase r) with
    flux := .fin (r.sums 5) / .fin (area * d.norm * r.wsum)
    fluxErr := .fin (Real.sqrt (r.sumsCov 5 5)) / .fin (area * d.norm * r.wsum)
    s2n := (.fin (r.sums 5) / .fin (area * d.norm * r.wsum)) /
      (.fin (Real.sqrt (r.sumsCov 5 5)) / .fin (area * d.norm * r.wsum))
    Terr := .fin (4 * Real.sqrt (max (ratioQuad (r.sums 4) (r.sums 5) (r.sumsCov 4 4) (r.sumsCov 5 5)
      (r.sumsCov 4 5)) 0))
    rho4 := .fin (r.sums 6 / r.sums 5)
    rho4Err := .fin 4 * (if r.sums 6 = 0 then .nan else .fin (Real.sqrt (max (ratioQuad (r.sums 6) (r.sums 5)
      (r.sumsCov 6 6) (r.sumsCov 5 5) (r.sumsCov 6 5)) 0))) } with ho1
  have hb : (amBase r).flags = 0 := hf
  have hbT : (amBase r).T = .fin (w.g.icc + w.g.irr) := by simp [amBase, hf, hr.pars]
  have hbp : (amBase r).pars = [.fin w.g.row, .fin w.g.col, .fin (w.g.icc - w.g.irr), .fin (2 * w.g.irc),
      .fin (w.g.icc + w.g.irr), .fin (r.sums 5) / .fin r.wsum] := by
    simp [amBase, hf, hr.pars, two]
  have hflux : amFlux area (amNorm w.g) (amBase r) = { (amBase r) with
      flux := .fin (r.sums 5) / .fin (area * d.norm * r.wsum)
      fluxErr := .fin (Real.sqrt (r.sumsCov 5 5)) / .fin (area * d.norm * r.wsum)
      s2n := (.fin (r.sums 5) / .fin (area * d.norm * r.wsum)) /
        (.fin (Real.sqrt (r.sumsCov 5 5)) / .fin (area * d.norm * r.wsum)) } := by
    unfold amFlux
    have hs5 : (amBase r).sumsCov 5 5 > 0 := c5
    rw [if_pos hb, if_pos (by rw [hbT]; exact hTl)]
    simp only []
    rw [if_pos hs5, hnorm]
    have : Fl.sqrt (.fin (r.sumsCov 5 5)) = .fin (Real.sqrt (r.sumsCov 5 5)) := by
      simp [Fl.sqrt, not_lt.mpr c5.le]
    simp only [Fl.fin_mul]
    have e1 : (amBase r).sumsCov 5 5 = r.sumsCov 5 5 := rfl
    have e2 : (amBase r).wsum = r.wsum := rfl
    have e3 : (amBase r).sums 5 = r.sums 5 := rfl
    rw [e1, e2, e3, this]
  have hmid : (amT (amFlux area (amNorm w.g) (amBase r))).bind amRho4 = .ok o1 := by
    rw [hflux]
    have e1 := amT_ok { (amBase r) with
      flux := .fin (r.sums 5) / .fin (area * d.norm * r.wsum)
      fluxErr := .fin (Real.sqrt (r.sumsCov 5 5)) / .fin (area * d.norm * r.wsum)
      s2n := (.fin (r.sums 5) / .fin (area * d.norm * r.wsum)) /
        (.fin (Real.sqrt (r.sumsCov 5 5)) / .fin (area * d.norm * r.wsum)) } hf c4 c5 s5 _ r45
    rw [e1]
    simp only [Except.bind]
    rw [amRho4_ok { (amBase r) with
      flux := .fin (r.sums 5) / .fin (area * d.norm * r.wsum)
      fluxErr := .fin (Real.sqrt (r.sumsCov 5 5)) / .fin (area * d.norm * r.wsum)
      s2n := (.fin (r.sums 5) / .fin (area * d.norm * r.wsum)) /
        (.fin (Real.sqrt (r.sumsCov 5 5)) / .fin (area * d.norm * r.wsum))
      Terr := .fin 4 * .fin (Real.sqrt (max (ratioQuad (r.sums 4) (r.sums 5) (r.sumsCov 4 4) (r.sumsCov 5 5)
        (r.sumsCov 4 5)) 0)) } hf c6 c5 s5 _ r65]
    rw [ho1]
    congr 2
    exact Fl.fin_div (r.sums 6) (r.sums 5) s5.ne'
  have hres : amGetResult r area (amNorm w.g) = amShape (amVarFlag o1) := by
    unfold amGetResult
    obtain ⟨o', h1, h2⟩ := exBind_ok hmid
    rw [h1]
    simp only [Except.bind]
    rw [h2]
  rw [hres]
  have hof : o1.flags = 0 := hf
  have h6 : r.sums 6 ≠ 0 → o1.rho4Err = .fin (4 * Real.sqrt (max (ratioQuad (r.sums 6) (r.sums 5) (r.sumsCov 6 6)
      (r.sumsCov 5 5) (r.sumsCov 6 5)) 0)) := by
    intro h
    simp only [ho1]
    rw [if_neg h, Fl.fin_mul]
  by_cases hv : r.sumsCov 2 2 = 0 ∨ r.sumsCov 3 3 = 0
  · have hnv : ¬ ∀ i : Fin 7, 2 ≤ i.val → o1.sumsCov i i > 0 := by
      intro hall
      have h2 : r.sumsCov 2 2 > 0 := hall 2 (by decide)
      have h3 : r.sumsCov 3 3 > 0 := hall 3 (by decide)
      rcases hv with h | h <;> linarith
    have hsf : shapeFlags r = Flags.NONPOS_VAR := by unfold shapeFlags; rw [if_pos hv]
    have hvf : amVarFlag o1 = { o1 with flags := Flags.NONPOS_VAR } := by
      unfold amVarFlag; rw [if_neg hnv, hof, Nat.zero_or]
    refine ⟨{ o1 with flags := Flags.NONPOS_VAR }, by
      rw [hvf]; unfold amShape; rw [if_neg (by change ¬ Flags.NONPOS_VAR = 0; decide)], ?_⟩
    refine ⟨hsf.symm, rfl, rfl, rfl, rfl, rfl, rfl, rfl, rfl, hbp, hbT, rfl, rfl, rfl, rfl, rfl, h6, ?_, ?_, ?_⟩
    · intro h; exact absurd hsf h
    · intro h; rw [hsf] at h; exact absurd h (by decide)
    · intro _; exact ⟨rfl, rfl⟩
  · have hall : ∀ i : Fin 7, 2 ≤ i.val → o1.sumsCov i i > 0 := by
      push Not at hv
      intro i hi
      have : i = 2 ∨ i = 3 ∨ i = 4 ∨ i = 5 ∨ i = 6 := by omega
      rcases this with rfl | rfl | rfl | rfl | rfl
      · exact lt_of_le_of_ne c2 (Ne.symm hv.1)
      · exact lt_of_le_of_ne c3 (Ne.symm hv.2)
      · exact c4
      · exact c5
      · exact c6
    have hvf : amVarFlag o1 = o1 := by unfold amVarFlag; rw [if_pos hall]
    have he1 : o1.pars.getD 2 .nan / o1.T = .fin ((w.g.icc - w.g.irr) / (w.g.icc + w.g.irr)) := by
      rw [show o1.pars = _ from hbp, show o1.T = _ from hbT]
      simp only [List.getD_cons_succ, List.getD_cons_zero]
      rw [Fl.fin_div _ _ hT0.ne']
    have he2 : o1.pars.getD 3 .nan / o1.T = .fin (2 * w.g.irc / (w.g.icc + w.g.irr)) := by
      rw [show o1.pars = _ from hbp, show o1.T = _ from hbT]
      simp only [List.getD_cons_succ, List.getD_cons_zero]
      rw [Fl.fin_div _ _ hT0.ne']
    have hr2 : sumsRatioError o1 2 4 = _ := r24
    have hr3 : sumsRatioError o1 3 4 = _ := r34
    have hsh : amShape o1 = .ok (amShapeErr o1 (.fin ((w.g.icc - w.g.irr) / (w.g.icc + w.g.irr)))
        (.fin (2 * w.g.irc / (w.g.icc + w.g.irr)))
        (.fin 2 * (if r.sums 2 = 0 then .nan else .fin (Real.sqrt (max (ratioQuad (r.sums 2) (r.sums 4)
          (r.sumsCov 2 2) (r.sumsCov 4 4) (r.sumsCov 2 4)) 0))))
        (.fin 2 * (if r.sums 3 = 0 then .nan else .fin (Real.sqrt (max (ratioQuad (r.sums 3) (r.sums 4)
          (r.sumsCov 3 3) (r.sumsCov 4 4) (r.sumsCov 3 4)) 0))))) := by
      unfold amShape
      rw [if_pos hof, if_pos (show o1.sums 5 > 0 from s5), if_pos (by rw [show o1.T = _ from hbT]; exact hT1)]
      simp only []
      rw [hr2, hr3, he1, he2]
      rfl
    rw [hvf, hsh]
    refine ⟨_, rfl, ?_⟩
    by_cases hz : r.sums 2 = 0 ∨ r.sums 3 = 0
    · have hsf : shapeFlags r = Flags.NONPOS_SHAPE_VAR := by
        unfold shapeFlags; rw [if_neg hv, if_pos hz]
      have hse : ∀ a b : ℝ, amShapeErr o1 (.fin a) (.fin b)
          (.fin 2 * (if r.sums 2 = 0 then .nan else .fin (Real.sqrt (max (ratioQuad (r.sums 2) (r.sums 4)
            (r.sumsCov 2 2) (r.sumsCov 4 4) (r.sumsCov 2 4)) 0))))
          (.fin 2 * (if r.sums 3 = 0 then .nan else .fin (Real.sqrt (max (ratioQuad (r.sums 3) (r.sums 4)
            (r.sumsCov 3 3) (r.sumsCov 4 4) (r.sumsCov 3 4)) 0)))) =
          { o1 with e1 := .fin a, e2 := .fin b, e1err := .nan, e2err := .nan,
                    flags := Flags.NONPOS_SHAPE_VAR } := by
        intro a b
        unfold amShapeErr
        rw [if_pos, hof, Nat.zero_or]
        rcases hz with h | h
        · left; rw [if_pos h]; simp [Fl.isFinite]
        · right; rw [if_pos h]; simp [Fl.isFinite]
      rw [hse]
      refine ⟨hsf.symm, rfl, rfl, rfl, rfl, rfl, rfl, rfl, rfl, hbp, hbT, rfl, rfl, rfl, rfl, rfl, h6, ?_, ?_, ?_⟩
      · intro _; exact ⟨rfl, rfl⟩
      · intro h; rw [hsf] at h; exact absurd h (by decide)
      · intro _; exact ⟨rfl, rfl⟩
    · have hsf : shapeFlags r = 0 := by
        unfold shapeFlags; rw [if_neg hv, if_neg hz]
      push Not at hz
      rw [if_neg hz.1, if_neg hz.2, Fl.fin_mul, Fl.fin_mul]
      have hse : ∀ a b c d : ℝ, amShapeErr o1 (.fin a) (.fin b) (.fin c) (.fin d) =
          { o1 with e1 := .fin a, e2 := .fin b, e1err := .fin c, e2err := .fin d } := by
        intro a b c d
        unfold amShapeErr
        rw [if_neg (by simp [Fl.isFinite])]
      rw [hse]
      refine ⟨hof.trans hsf.symm, rfl, rfl, rfl, rfl, rfl, rfl, rfl, rfl, hbp, hbT, rfl, rfl, rfl, rfl, rfl, h6, ?_, ?_, ?_⟩
      · intro _; exact ⟨rfl, rfl⟩
      · intro _; exact ⟨rfl, rfl⟩
      · intro h; exact absurd hsf h

/-! ### C51: the procedure and how it ends -/

/-- How a run ended: `ms` are the measurements made before the last one, `w'` the weight of the last one. -/
inductive Ended (conf : AMConf) (pixels : List Pixel) (guess : AMWt) (w : AMWt) : ℕ → ℕ → Prop
  /-- the weight went out of range: `(numiter, flag) = (0, GMIX_RANGE_ERROR)` -/
  | range {ms w'} : History conf pixels guess ms w' → Unusable w' → (ms.length : ℤ) < conf.maxiter →
      Ended conf pixels guess w 0 Flags.GMIX_RANGE_ERROR
  /-- it stopped, for the reason that the flag says -/
  | stopped {ms w' fl} : History conf pixels guess ms w' →
      Stops conf pixels (guess.g.row, guess.g.col) ms w' fl w → (ms.length : ℤ) + 1 < conf.maxiter →
      Ended conf pixels guess w (ms.length + 1) fl
  /-- it stopped, for whatever reason, in the last iteration allowed -/
  | last {ms w' fl} : History conf pixels guess ms w' →
      Stops conf pixels (guess.g.row, guess.g.col) ms w' fl w → (ms.length : ℤ) + 1 = conf.maxiter →
      Ended conf pixels guess w (ms.length + 1) Flags.MAXITER
  /-- it did not stop by itself -/
  | exhausted {ms} : History conf pixels guess ms w → (ms.length : ℤ) = conf.maxiter →
      Ended conf pixels guess w ms.length Flags.MAXITER

theorem stops_flag {conf : AMConf} {pixels : List Pixel} {o : ℝ × ℝ} {ms : List Moms} {w w' : AMWt} {fl : ℕ}
    (h : Stops conf pixels o ms w fl w') : fl ≠ Flags.MAXITER ∧ fl ≠ Flags.GMIX_RANGE_ERROR := by
  cases h <;> decide

theorem stops_zero {conf : AMConf} {pixels : List Pixel} {o : ℝ × ℝ} {ms : List Moms} {w w' : AMWt}
    (h : Stops conf pixels o ms w 0 w') : ∃ m m', Measured conf.shiftmax o pixels w w' m ∧ m' ∈ ms.head? ∧
      Close conf.etol conf.Ttol m m' := by
  generalize hz : (0 : ℕ) = z at h
  cases h with
  | converged a b c => exact ⟨_, _, a, b, c⟩
  | _ => exact absurd hz (by decide)

theorem momsums_numiter (w : AMWt) : ∀ (l : List Pixel) (r r' : AMRes), amMomsums w l r = .ok r' →
    r'.numiter = r.numiter := by
  intro l
  induction l with
  | nil => intro r r' h; simp only [amMomsums, Except.ok.injEq] at h; rw [h]
  | cons px l ih =>
    intro r r' h
    unfold amMomsums at h
    by_cases hp : px.ierr * px.ierr = 0
    · rw [if_pos hp] at h; cases h
    · rw [if_neg hp] at h
      rw [ih _ _ h]; rfl

theorem decide_numiter (conf : AMConf) (w : AMWt) (r : AMRes) (old : Option (ℝ × ℝ × ℝ)) :
    (amDecide conf w r old).2.1.numiter = r.numiter := by
  unfold amDecide
  simp only []
  split_ifs
  · rfl
  · rfl
  · rfl
  · rfl
  · split <;> rfl

theorem iter_numiter (conf : AMConf) (o : ℝ × ℝ) (pixels : List Pixel) (w : AMWt) (r : AMRes)
    (old : Option (ℝ × ℝ × ℝ)) : (amIter conf o pixels w r old).2.1.numiter = r.numiter := by
  unfold amIter
  by_cases hd : w.g.det < gmixLowDetval
  · rw [if_pos hd]
  · rw [if_neg hd]
    rcases hs : amSetNorms w with ⟨w1, q⟩
    cases q with
    | error e => rfl
    | ok _ =>
      simp only []
      have hc : (amCensums w1 pixels (amClear r)).numiter = r.numiter := (censums_eq w1 pixels (amClear r)).2.2.2.2
      unfold amPass
      simp only []
      split_ifs with h5 hsh
      · exact hc
      · exact hc
      · split
        · exact hc
        · rename_i r' hm
          have := momsums_numiter _ _ _ _ hm
          rw [show (amClear (amCensums w1 pixels (amClear r))).numiter = _ from hc] at this
          rw [← this]
          exact decide_numiter _ _ _ _

theorem loop_numiter (conf : AMConf) (o : ℝ × ℝ) (pixels : List Pixel) : ∀ (k i : ℕ) (w : AMWt) (r : AMRes)
    (old : Option (ℝ × ℝ × ℝ)), (amLoop conf o pixels k i w r old).2.1.numiter = r.numiter := by
  intro k
  induction k with
  | zero => intro i w r old; rfl
  | succ k ih =>
    intro i w r old
    unfold amLoop
    have hi := iter_numiter conf o pixels w r old
    rcases hit : amIter conf o pixels w r old with ⟨w1, r1, q⟩
    rw [hit] at hi
    match q with
    | .error e => exact hi
    | .ok .brk => exact hi
    | .ok (.next a b c) => simp only []; rw [ih]; exact hi

/-- The run, raw. -/
theorem run_spec (conf : AMConf) (pixels : List Pixel) (guess : AMWt) (hg : ∀ g ∈ guess.list, DetCurrent g)
    (hmax : 0 < conf.maxiter) :
    ∃ w res out, admomNb conf guess pixels AMRes.zero = (w, res, out) ∧
      ((out = .error .zeroDiv ∧ ∃ px ∈ pixels, px.ierr = 0) ∨
       (out = .error .gmixRange ∧ res.numiter = 0 ∧ Ended conf pixels guess w 0 Flags.GMIX_RANGE_ERROR) ∨
       (out = .ok () ∧ Ended conf pixels guess w res.numiter res.flags ∧ (res.flags = 0 → Recorded w pixels res))) := by
  unfold admomNb
  rw [if_neg (not_le.mpr hmax)]
  have hk : ((conf.maxiter.toNat : ℕ) : ℤ) = conf.maxiter := Int.toNat_of_nonneg hmax.le
  have hn := loop_numiter conf (guess.g.row, guess.g.col) pixels conf.maxiter.toNat 0 guess AMRes.zero none
  rcases hl : amLoop conf (guess.g.row, guess.g.col) pixels conf.maxiter.toNat 0 guess AMRes.zero none
    with ⟨w, r, q⟩
  rw [hl] at hn
  rcases loop_spec conf pixels guess conf.maxiter.toNat 0 [] guess AMRes.zero rfl .start hg rfl w r q hl with
    ⟨rfl, hpx⟩ | ⟨rfl, ms, w', a, b, c⟩ | ⟨n, ms, w', rfl, a, b, c, d, e⟩ | ⟨ms, rfl, a, b⟩
  · exact ⟨w, r, _, rfl, .inl ⟨rfl, hpx⟩⟩
  · exact ⟨w, r, _, rfl, .inr (.inl ⟨rfl, hn, .range a b (by omega)⟩)⟩
  · refine ⟨w, amFinish conf r n, _, rfl, .inr (.inr ⟨rfl, ?_, ?_⟩)⟩
    · unfold amFinish
      simp only []
      by_cases hm : (n : ℤ) = conf.maxiter
      · rw [if_pos hm]
        subst d
        exact .last a b (by exact_mod_cast hm)
      · rw [if_neg hm]
        subst d
        exact .stopped a b (by push_cast at hm; omega)
    · intro hz
      unfold amFinish at hz ⊢
      simp only [] at hz ⊢
      by_cases hm : (n : ℤ) = conf.maxiter
      · rw [if_pos hm] at hz; exact absurd hz (by simp [Flags.MAXITER])
      · rw [if_neg hm] at hz ⊢
        obtain ⟨q1, q2, q3, q4, q5⟩ := c hz
        exact ⟨⟨q1.sums, q1.cov, q1.wsum, q1.npix⟩, q2, q3, q4, q5⟩
  · refine ⟨w, amFinish conf r (conf.maxiter.toNat + 0), _, rfl, .inr (.inr ⟨rfl, ?_, ?_⟩)⟩
    · unfold amFinish
      simp only []
      rw [if_pos (by rw [add_zero]; exact hk)]
      simp only []
      rw [← b]
      exact .exhausted a (by rw [b, add_zero]; exact hk)
    · intro hz
      unfold amFinish at hz
      simp only [] at hz
      rw [if_pos (by rw [add_zero]; exact hk)] at hz
      exact absurd hz (by simp [Flags.MAXITER])

/-- What `go` returns, raw. -/
theorem go_spec (conf : AMConf) (pixels : List Pixel) (area : ℝ) (guess : AMWt)
    (hg : ∀ g ∈ guess.list, DetCurrent g) (hmax : 0 < conf.maxiter) (hpx : ∀ px ∈ pixels, px.ierr ≠ 0) :
    ∃ w o, admomGo conf pixels area guess = (w, .ok o) ∧ Ended conf pixels guess w o.numiter o.fluxFlags ∧
      ((o.fluxFlags ≠ 0 ∧ o.TFlags = o.fluxFlags ∧ o.rho4Flags = o.fluxFlags ∧
          (o.flags = o.fluxFlags ∨ o.flags = o.fluxFlags ||| Flags.NONPOS_VAR) ∧ AllNaN o) ∨
       (o.fluxFlags = 0 ∧ ∃ r d, Recorded w pixels r ∧ WtOk w ∧ w.g.d = some d ∧ r.flags = 0 ∧
          ConvergedOut w r area d.norm o)) := by
  obtain ⟨w, res, out, hrun, hout⟩ := run_spec conf pixels guess hg hmax
  unfold admomGo
  rw [hrun]
  rcases hout with ⟨rfl, px, hm, h0⟩ | ⟨rfl, hn, hE⟩ | ⟨rfl, hE, hrec⟩
  · exact absurd h0 (hpx px hm)
  · obtain ⟨o, ho, f1, f2, f3, f4, -, hnan, hni⟩ := getResult_flagged { res with flags := Flags.GMIX_RANGE_ERROR }
      area (amNorm w.g) (by simp [Flags.GMIX_RANGE_ERROR])
    refine ⟨w, o, by simp only [ho], ?_, .inl ⟨?_, by rw [f2, f1], by rw [f3, f1], by rw [f1]; exact f4, hnan⟩⟩
    · rw [hni, f1]
      simp only []
      rw [hn]; exact hE
    · rw [f1]; simp [Flags.GMIX_RANGE_ERROR]
  · by_cases hz : res.flags = 0
    · have hR := hrec hz
      have hE0 := hE
      rw [hz] at hE
      have hW : WtOk w := by
        generalize hq : (0 : ℕ) = z at hE
        generalize res.numiter = n at hE
        cases hE with
        | stopped a b c =>
          rw [← hq] at b
          obtain ⟨m, m', hM, -, -⟩ := stops_zero b
          exact measured_wtOk hM
        | range => exact absurd hq (by decide)
        | last => exact absurd hq (by decide)
        | exhausted => exact absurd hq (by decide)
      obtain ⟨d, hd, -⟩ := id hW.2.1
      obtain ⟨o, ho, hC⟩ := getResult_ok hR hz hW hpx area d hd
      refine ⟨w, o, by simp only [ho], ?_, .inr ⟨hC.fluxFlags, res, d, hR, hW, hd, hz, hC⟩⟩
      rw [hC.numiter, hC.fluxFlags, ← hz]; exact hE0
    · obtain ⟨o, ho, f1, f2, f3, f4, -, hnan, hni⟩ := getResult_flagged res area (amNorm w.g) hz
      refine ⟨w, o, by simp only [ho], ?_, .inl ⟨?_, by rw [f2, f1], by rw [f3, f1], by rw [f1]; exact f4, hnan⟩⟩
      · rw [hni, f1]; exact hE
      · rw [f1]; exact hz

theorem ended_le {conf : AMConf} {pixels : List Pixel} {guess w : AMWt} {n fl : ℕ}
    (h : Ended conf pixels guess w n fl) (hmax : 0 < conf.maxiter) :
    (n : ℤ) ≤ conf.maxiter ∧ ((n : ℤ) = conf.maxiter ↔ fl = Flags.MAXITER) := by
  cases h with
  | range a b c =>
    exact ⟨by omega, ⟨fun h => by push_cast at h; omega, fun h => absurd h (by decide)⟩⟩
  | stopped a b c =>
    have := (stops_flag b).1
    exact ⟨by push_cast; omega, ⟨fun h => by push_cast at h; omega, fun h => absurd h this⟩⟩
  | last a b c => exact ⟨by push_cast; omega, ⟨fun _ => rfl, fun _ => by push_cast; omega⟩⟩
  | exhausted a c => exact ⟨c.le, ⟨fun _ => rfl, fun _ => c⟩⟩

/-- C51: with a positive `maxiter`, pixels of nonzero inverse error and a guess whose determinants are current
(every mixture the package makes), `go` always returns a result, and its `flux_flags` and `numiter` say how the
run ended: `numiter` is at most `maxiter`, and equals it exactly when the flag is `MAXITER`; `flags` is zero only
if `flux_flags` is.  (`Ended` lists the ways of ending, each with its flag.)  The weight `w` that the run leaves is
left in the guess of the caller. -/
theorem C51_outcome (conf : AMConf) (pixels : List Pixel) (area : ℝ) (guess : AMWt)
    (hg : ∀ g ∈ guess.list, DetCurrent g) (hmax : 0 < conf.maxiter) (hpx : ∀ px ∈ pixels, px.ierr ≠ 0) :
    ∃ w o, admomGo conf pixels area guess = (w, .ok o) ∧ Ended conf pixels guess w o.numiter o.fluxFlags ∧
      (o.numiter : ℤ) ≤ conf.maxiter ∧ ((o.numiter : ℤ) = conf.maxiter ↔ o.fluxFlags = Flags.MAXITER) ∧
      (o.flags = 0 → o.fluxFlags = 0) := by
  obtain ⟨w, o, h, hE, hd⟩ := go_spec conf pixels area guess hg hmax hpx
  refine ⟨w, o, h, hE, (ended_le hE hmax).1, (ended_le hE hmax).2, fun hz => ?_⟩
  rcases hd with ⟨h1, -, -, h4, -⟩ | ⟨h1, -⟩
  · rcases h4 with h4 | h4
    · rw [h4] at hz; exact hz
    · rw [h4] at hz; exact (Nat.or_eq_zero_iff.mp hz).1
  · exact h1

/-- C51: a result with zero `flux_flags` (in particular one with zero flags) is converged: it comes from a
sequence of measurements in range, no two consecutive ones close except the last two, which are within the
tolerances; the centre is within `shiftmax` of that of the guess; fewer than `maxiter` iterations were made; and
the parameters reported are those of the last weight, which is the guess mixture as it is left. -/
theorem C51_converged (conf : AMConf) (pixels : List Pixel) (area : ℝ) (guess w : AMWt) (o : AMOut)
    (hg : ∀ g ∈ guess.list, DetCurrent g) (hmax : 0 < conf.maxiter) (hpx : ∀ px ∈ pixels, px.ierr ≠ 0)
    (h : admomGo conf pixels area guess = (w, .ok o)) (hf : o.fluxFlags = 0) :
    (∃ ms w' m m', History conf pixels guess ms w' ∧
      Measured conf.shiftmax (guess.g.row, guess.g.col) pixels w' w m ∧ m' ∈ ms.head? ∧
      Close conf.etol conf.Ttol m m' ∧ o.numiter = ms.length + 1 ∧ (o.numiter : ℤ) < conf.maxiter) ∧
    Near conf.shiftmax (guess.g.row, guess.g.col) w ∧
    o.pars.take 5 = [.fin w.g.row, .fin w.g.col, .fin (w.g.icc - w.g.irr), .fin (2 * w.g.irc),
      .fin (w.g.icc + w.g.irr)] := by
  obtain ⟨w2, o2, h2, hE, hd⟩ := go_spec conf pixels area guess hg hmax hpx
  rw [h] at h2
  simp only [Prod.mk.injEq, Except.ok.injEq] at h2
  obtain ⟨rfl, rfl⟩ := h2
  rcases hd with ⟨h1, -⟩ | ⟨-, r, d, hR, hW, hdd, hrf, hC⟩
  · exact absurd hf h1
  · rw [hf] at hE
    have key : ∃ ms w' m m', History conf pixels guess ms w' ∧
        Measured conf.shiftmax (guess.g.row, guess.g.col) pixels w' w m ∧ m' ∈ ms.head? ∧
        Close conf.etol conf.Ttol m m' ∧ o.numiter = ms.length + 1 ∧ (o.numiter : ℤ) < conf.maxiter := by
      generalize hn : o.numiter = n at hE
      generalize hq : (0 : ℕ) = z at hE
      cases hE with
      | @stopped ms w' fl a b c =>
        rw [← hq] at b
        obtain ⟨m, m', hM, hm', hcl⟩ := stops_zero b
        exact ⟨ms, w', m, m', a, hM, hm', hcl, rfl, by push_cast; omega⟩
      | range => exact absurd hq (by decide)
      | last => exact absurd hq (by decide)
      | exhausted => exact absurd hq (by decide)
    refine ⟨key, ?_, by rw [hC.pars]; rfl⟩
    obtain ⟨ms, w', m, m', -, ⟨_, -, -, hN, -⟩, -⟩ := key
    exact hN

/-- C51: `maxiter` of zero or less does not give a result. -/
theorem C51_maxiter_nonpos (conf : AMConf) (pixels : List Pixel) (area : ℝ) (guess : AMWt)
    (h : conf.maxiter ≤ 0) : admomGo conf pixels area guess = (guess, .error .unbound) := by
  unfold admomGo admomNb
  rw [if_pos h]

theorem momsums_zero_ierr (w : AMWt) : ∀ (l : List Pixel) (r : AMRes), (∃ px ∈ l, px.ierr = 0) →
    amMomsums w l r = .error .zeroDiv := by
  intro l
  induction l with
  | nil => rintro r ⟨px, hm, -⟩; cases hm
  | cons p l ih =>
    rintro r ⟨px, hm, h0⟩
    unfold amMomsums
    by_cases hp : p.ierr * p.ierr = 0
    · rw [if_pos hp]
    · rw [if_neg hp]
      apply ih
      rcases List.mem_cons.mp hm with rfl | hm
      · exact absurd (by rw [h0, zero_mul]) hp
      · exact ⟨px, hm, h0⟩

/-- C51, the failure that is not reported through the flags: if one pixel has zero inverse error (zero weight),
the guess is in range and its centroid is found, `go` raises `ZeroDivisionError`, whatever the image. -/
theorem C51_zero_weight_raises (conf : AMConf) (pixels : List Pixel) (area : ℝ) (guess w1 w' : AMWt)
    (hg : ∀ g ∈ guess.list, DetCurrent g) (hmax : 0 < conf.maxiter) (h0 : ∃ px ∈ pixels, px.ierr = 0)
    (hs : amSetNorms guess = (w1, .ok ())) (hR : Recentred pixels w1 w')
    (hN : Near conf.shiftmax (guess.g.row, guess.g.col) w') :
    (admomGo conf pixels area guess).2 = .error .zeroDiv := by
  have hready := (setNorms_ok guess hg w1 hs).1
  have hdet : ¬ guess.g.det < gmixLowDetval := by
    unfold Ready AMWt.list at hready
    obtain ⟨⟨hsame, hdc, -, hlow, -⟩, -⟩ := List.forall₂_cons.mp hready
    have hd0 : guess.g.det = guess.g.irr * guess.g.icc - guess.g.irc * guess.g.irc := hg _ List.mem_cons_self
    have hd1 : w1.g.det = w1.g.irr * w1.g.icc - w1.g.irc * w1.g.irc := hdc
    obtain ⟨-, -, -, s1, s2, s3⟩ := hsame
    rw [hd0, s1, s2, s3, ← hd1]
    exact not_lt.mpr hlow
  have hpass : ∀ res : AMRes, ∃ w'' r'', amPass conf (guess.g.row, guess.g.col) pixels w1 res none =
      (w'', r'', .error .zeroDiv) := by
    intro res
    obtain ⟨c0, c1, c5, -, -⟩ := censums_eq w1 pixels (amClear res)
    have z0 : (amClear res).sums 0 = 0 := rfl
    have z1 : (amClear res).sums 1 = 0 := rfl
    have z5 : (amClear res).sums 5 = 0 := rfl
    rw [z0, zero_add] at c0
    rw [z1, zero_add] at c1
    rw [z5, zero_add] at c5
    obtain ⟨hp, hr, hc, hw⟩ := hR
    unfold amPass
    simp only []
    rw [c5, if_neg (not_le.mpr hp), c0, c1]
    have er : wtSum w1.list pixels Pixel.v / wtSum w1.list pixels (fun _ => 1) = w'.g.row := by
      rw [← hr]; field_simp
    have ec : wtSum w1.list pixels Pixel.u / wtSum w1.list pixels (fun _ => 1) = w'.g.col := by
      rw [← hc]; field_simp
    rw [er, ec, if_neg (by
      push Not
      exact hN), momsums_zero_ierr _ _ _ h0]
    exact ⟨_, _, rfl⟩
  unfold admomGo admomNb
  rw [if_neg (not_le.mpr hmax)]
  obtain ⟨k, hk⟩ : ∃ k, conf.maxiter.toNat = k + 1 := ⟨conf.maxiter.toNat - 1, by omega⟩
  obtain ⟨w'', r'', he⟩ := hpass AMRes.zero
  rw [hk]
  unfold amLoop amIter
  rw [if_neg hdet, hs]
  simp only [he]

/-- C51: `get_gmix` raises `RuntimeError` for flagged results, and for results with zero flags gives exactly the
gaussian that the run ended with: its centre and covariance, with flux one. -/
theorem C51_get_gmix (conf : AMConf) (pixels : List Pixel) (area : ℝ) (guess w : AMWt) (o : AMOut)
    (hg : ∀ g ∈ guess.list, DetCurrent g) (hmax : 0 < conf.maxiter) (hpx : ∀ px ∈ pixels, px.ierr ≠ 0)
    (h : admomGo conf pixels area guess = (w, .ok o)) :
    (o.flags ≠ 0 → amGetGmix o = some (.error .runtime)) ∧
    (o.flags = 0 → ∃ gm g, amGetGmix o = some (.ok gm) ∧ gm.data = [g] ∧ g.p = 1 ∧ g.row = w.g.row ∧
      g.col = w.g.col ∧ g.irr = w.g.irr ∧ g.irc = w.g.irc ∧ g.icc = w.g.icc ∧ DetCurrent g ∧ g.normSet = false ∧
      Usable g) := by
  refine ⟨fun hf => by unfold amGetGmix; rw [if_pos hf], fun hf => ?_⟩
  obtain ⟨w2, o2, h2, hE, hd⟩ := go_spec conf pixels area guess hg hmax hpx
  rw [h] at h2
  simp only [Prod.mk.injEq, Except.ok.injEq] at h2
  obtain ⟨rfl, rfl⟩ := h2
  rcases hd with ⟨h1, -, -, h4, -⟩ | ⟨-, r, d, hR, hW, hdd, hrf, hC⟩
  · rcases h4 with h4 | h4
    · rw [h4] at hf; exact absurd hf h1
    · rw [h4] at hf; exact absurd (Nat.or_eq_zero_iff.mp hf).1 h1
  have hlp : (0 : ℝ) < 1e-200 := lowDet_pos
  obtain ⟨hdc, -, hlow, hTl⟩ := hW
  have hdet : 0 < w.g.irr * w.g.icc - w.g.irc * w.g.irc := by
    have : w.g.det = w.g.irr * w.g.icc - w.g.irc * w.g.irc := hdc
    rw [← this]; linarith
  have hlow' : (1e-200 : ℝ) ≤ w.g.irr * w.g.icc - w.g.irc * w.g.irc := by
    have : w.g.det = w.g.irr * w.g.icc - w.g.irc * w.g.irc := hdc
    rw [← this]; exact hlow
  have hpars := hC.pars
  clear hC hR
  generalize w.g.irr = a at *
  generalize w.g.irc = b at *
  generalize w.g.icc = c at *
  have hT : 0 < c + a := by linarith
  have hdisk : InDisk ((c - a) / (c + a)) (2 * b / (c + a)) := by
    unfold InDisk
    rw [div_pow, div_pow, ← add_div, div_lt_one (by positivity)]
    nlinarith
  obtain ⟨g1, g2, he, e1, e2, hgd, -⟩ := C05_e_to_g _ _ hdisk
  obtain ⟨gm, hgm, hall⟩ := (C22_fill_simple fvalsGauss pvalsGauss w.g.row w.g.col g1 g2 (c + a) 1.0).2 hgd
  have hnew : ∃ ob, newGMixModel [w.g.row, w.g.col, g1, g2, c + a, 1.0] (.str "gauss") = .ok ob ∧ ob.data = gm := by
    simp [newGMixModel, num_facts, name_facts, ngauss_facts, npars_facts, Except.bind,
        fillNames, built, fillChecked, resetObj, fillObj, fillFunc, hgm]
  obtain ⟨ob, hob, hdat⟩ := hnew
  have hzip : fvalsGauss.zip pvalsGauss = [(1, 1)] := by simp [fvalsGauss, pvalsGauss]
  rw [hzip] at hall
  obtain ⟨g, gs, hx, hxs, hgmeq⟩ := List.forall₂_cons_left_iff.mp hall
  rw [List.forall₂_nil_left_iff] at hxs
  obtain ⟨hp, ⟨s1, s2, s3, s4, s5⟩, hx1, hx2⟩ := hx
  refine ⟨ob, g, ?_, by rw [hdat, hgmeq, hxs], by rw [hp]; norm_num, s1, s2, ?_⟩
  · unfold amGetGmix
    rw [if_neg (not_not.mpr hf), hpars]
    simp only [parAt, List.getElem?_cons_zero, List.getElem?_cons_succ]
    rw [if_neg hT.ne', he]
    simp only [Except.bind, hob]
  · simp only [mul_one] at s3 s4 s5
    -- 2 g / (1 + |g|^2) is the ellipticity
    have hInv := C05_e_g_e _ _ hdisk
    rw [he] at hInv
    have hInv : g1g2ToE1E2 g1 g2 = .ok ((c - a) / (c + a), 2 * b / (c + a)) := hInv
    rw [g1g2ToE1E2_closed hgd] at hInv
    simp only [Except.ok.injEq, Prod.mk.injEq] at hInv
    rw [hInv.1] at s4
    rw [hInv.2] at s5
    rw [mul_div_cancel₀ _ hT.ne'] at s4 s5
    have r1 : g.irr = a := by linarith
    have r2 : g.irc = b := by linarith
    have r3 : g.icc = c := by linarith
    refine ⟨r1, r2, r3, hx1, hx2, ?_⟩
    unfold Usable gmixLowDetval
    rw [r1, r2, r3]
    exact ⟨hlow', hTl⟩

/-! ### C69: the dictionary in terms of the image -/

theorem wtCov_sub (w : List Gauss) (f h : Pixel → ℝ) (R : ℝ) : ∀ pixels : List Pixel,
    wtCov w pixels (fun px => f px - R * h px) (fun px => f px - R * h px) =
      wtCov w pixels f f - 2 * R * wtCov w pixels f h + R ^ 2 * wtCov w pixels h h := by
  intro pixels
  unfold wtCov
  induction pixels with
  | nil => simp
  | cons px l ih =>
    simp only [List.map_cons, List.sum_cons]
    rw [ih]; ring

theorem wtCov_nonneg (w : List Gauss) (f : Pixel → ℝ) (pixels : List Pixel) : 0 ≤ wtCov w pixels f f := by
  unfold wtCov
  apply List.sum_nonneg
  intro z hz
  obtain ⟨px, -, rfl⟩ := List.mem_map.mp hz
  rw [mul_assoc]
  exact mul_nonneg (by positivity) (mul_self_nonneg _)

theorem ratioErr_eq (w : List Gauss) (pixels : List Pixel) (f h : Pixel → ℝ) (hb : wtSum w pixels h ≠ 0) :
    Real.sqrt (max (ratioQuad (wtSum w pixels f) (wtSum w pixels h) (wtCov w pixels f f) (wtCov w pixels h h)
      (wtCov w pixels f h)) 0) = ratioErr w pixels f h := by
  unfold ratioErr
  simp only []
  have key : ratioQuad (wtSum w pixels f) (wtSum w pixels h) (wtCov w pixels f f) (wtCov w pixels h h)
      (wtCov w pixels f h) = wtCov w pixels
        (fun px => f px - wtSum w pixels f / wtSum w pixels h * h px)
        (fun px => f px - wtSum w pixels f / wtSum w pixels h * h px) / wtSum w pixels h ^ 2 := by
    rw [wtCov_sub]
    unfold ratioQuad
    field_simp
    ring
  rw [key, max_eq_left]
  exact div_nonneg (wtCov_nonneg _ _ _) (by positivity)

/-- The sums and covariances of the record are those of the specification. -/
theorem recorded_spec {w : AMWt} {pixels : List Pixel} {r : AMRes} (hr : MomSums w pixels r) (hw : WtOk w) :
    (r.sums 2 = wtSum w.list pixels (f1 w.g) ∧ r.sums 3 = wtSum w.list pixels (f2 w.g) ∧
     r.sums 4 = wtSum w.list pixels (fT w.g) ∧ r.sums 5 = wtSum w.list pixels fone ∧
     r.sums 6 = wtSum w.list pixels (f4 w.g)) ∧
    (r.sumsCov 2 2 = wtCov w.list pixels (f1 w.g) (f1 w.g) ∧ r.sumsCov 3 3 = wtCov w.list pixels (f2 w.g) (f2 w.g) ∧
     r.sumsCov 4 4 = wtCov w.list pixels (fT w.g) (fT w.g) ∧ r.sumsCov 5 5 = wtCov w.list pixels fone fone ∧
     r.sumsCov 6 6 = wtCov w.list pixels (f4 w.g) (f4 w.g)) ∧
    (r.sumsCov 4 5 = wtCov w.list pixels (fT w.g) fone ∧ r.sumsCov 6 5 = wtCov w.list pixels (f4 w.g) fone ∧
     r.sumsCov 2 4 = wtCov w.list pixels (f1 w.g) (fT w.g) ∧
     r.sumsCov 3 4 = wtCov w.list pixels (f2 w.g) (fT w.g)) := by
  obtain ⟨-, ⟨d, hd, hdet, n1, n2, n3, -, -⟩, -, -⟩ := hw
  have e2 : (fun px => amF w.g px 2) = f1 w.g := by
    funext px
    change (px.u - w.g.col) * (px.u - w.g.col) - (px.v - w.g.row) * (px.v - w.g.row) = _
    unfold f1; ring
  have e3 : (fun px => amF w.g px 3) = f2 w.g := rfl
  have e4 : (fun px => amF w.g px 4) = fT w.g := by
    funext px
    change (px.u - w.g.col) * (px.u - w.g.col) + (px.v - w.g.row) * (px.v - w.g.row) = _
    unfold fT; ring
  have e5 : (fun px => amF w.g px 5) = fone := by
    funext px
    change (1.0 : ℝ) = 1
    norm_num
  have e6 : (fun px => amF w.g px 6) = f4 w.g := by
    funext px
    change amChi2 w.g (px.v - w.g.row) (px.u - w.g.col) * amChi2 w.g (px.v - w.g.row) (px.u - w.g.col) = _
    have : amChi2 w.g (px.v - w.g.row) (px.u - w.g.col) = dist2 w.g px := by
      unfold amChi2 dist2
      rw [hd]
      simp only [n1, n2, n3]
      rw [show w.g.irr * w.g.icc - w.g.irc ^ 2 = w.g.irr * w.g.icc - w.g.irc * w.g.irc by ring]
      have two : (2.0 : ℝ) = 2 := by norm_num
      rw [two]
      field_simp
    rw [this]; unfold f4; ring
  have hc : ∀ i j, r.sumsCov i j = wtCov w.list pixels (fun px => amF w.g px i) (fun px => amF w.g px j) := by
    intro i j
    rw [hr.cov]; unfold wtCov
    simp only [mul_one_div]
  refine ⟨⟨?_, ?_, ?_, ?_, ?_⟩, ⟨?_, ?_, ?_, ?_, ?_⟩, ⟨?_, ?_, ?_, ?_⟩⟩
  · rw [hr.sums, e2]
  · rw [hr.sums, e3]
  · rw [hr.sums, e4]
  · rw [hr.sums, e5]
  · rw [hr.sums, e6]
  · rw [hc, e2]
  · rw [hc, e3]
  · rw [hc, e4]
  · rw [hc, e5]
  · rw [hc, e6]
  · rw [hc, e4, e5]
  · rw [hc, e6, e5]
  · rw [hc, e2, e4]
  · rw [hc, e3, e4]

/-- C69: a result with nonzero `flux_flags` has the same number in `T_flags` and `rho4_flags`, and in `flags` up
to the variance bit, and every value in it is NaN. -/
theorem C69_flagged (conf : AMConf) (pixels : List Pixel) (area : ℝ) (guess w : AMWt) (o : AMOut)
    (hg : ∀ g ∈ guess.list, DetCurrent g) (hmax : 0 < conf.maxiter) (hpx : ∀ px ∈ pixels, px.ierr ≠ 0)
    (h : admomGo conf pixels area guess = (w, .ok o)) :
    o.TFlags = o.fluxFlags ∧ o.rho4Flags = o.fluxFlags ∧
    (o.fluxFlags ≠ 0 → (o.flags = o.fluxFlags ∨ o.flags = o.fluxFlags ||| Flags.NONPOS_VAR) ∧ AllNaN o) := by
  obtain ⟨w2, o2, h2, hE, hd⟩ := go_spec conf pixels area guess hg hmax hpx
  rw [h] at h2
  simp only [Prod.mk.injEq, Except.ok.injEq] at h2
  obtain ⟨rfl, rfl⟩ := h2
  rcases hd with ⟨h1, h2, h3, h4, h5⟩ | ⟨h1, r, d, hR, hW, hdd, hrf, hC⟩
  · exact ⟨h2, h3, fun _ => ⟨h4, h5⟩⟩
  · exact ⟨by rw [hC.TFlags, h1], by rw [hC.rho4Flags, h1], fun hn => absurd h1 hn⟩

/-- C69: a converged result.  With sums of the image under the final weight `w`: flux, size, shape, `rho4` and
their errors are the formulas below (errors by linear propagation of the pixel noise); `flags` is zero unless a
shape variance vanishes, or one of the measured shapes is exactly zero, in which case the shape errors are NaN
(so an exactly round object is flagged). -/
theorem C69_converged (conf : AMConf) (pixels : List Pixel) (area : ℝ) (guess w : AMWt) (o : AMOut)
    (hg : ∀ g ∈ guess.list, DetCurrent g) (hmax : 0 < conf.maxiter) (hpx : ∀ px ∈ pixels, px.ierr ≠ 0)
    (h : admomGo conf pixels area guess = (w, .ok o)) (hf : o.fluxFlags = 0) :
    let S := wtSum w.list pixels
    let C := wtCov w.list pixels
    let W := (pixels.map fun px => predicted w.list px).sum
    let N := area * (1 / (2 * Real.pi * Real.sqrt (sdet (gcov w.g)))) * W
    let bad := C (f1 w.g) (f1 w.g) = 0 ∨ C (f2 w.g) (f2 w.g) = 0
    let round := S (f1 w.g) = 0 ∨ S (f2 w.g) = 0
    0 < S fone ∧ 0 < S (fT w.g) ∧
    o.flux = .fin (S fone) / .fin N ∧ o.fluxErr = .fin (Real.sqrt (C fone fone)) / .fin N ∧
    o.s2n = o.flux / o.fluxErr ∧
    o.T = .fin (w.g.irr + w.g.icc) ∧ o.Terr = .fin (4 * ratioErr w.list pixels (fT w.g) fone) ∧
    o.rho4 = .fin (S (f4 w.g) / S fone) ∧
    (S (f4 w.g) ≠ 0 → o.rho4Err = .fin (4 * ratioErr w.list pixels (f4 w.g) fone)) ∧
    (bad → o.flags = Flags.NONPOS_VAR ∧ o.e1err = .nan ∧ o.e2err = .nan) ∧
    (¬ bad → o.e1 = .fin ((w.g.icc - w.g.irr) / (w.g.irr + w.g.icc)) ∧
      o.e2 = .fin (2 * w.g.irc / (w.g.irr + w.g.icc))) ∧
    (¬ bad → round → o.flags = Flags.NONPOS_SHAPE_VAR ∧ o.e1err = .nan ∧ o.e2err = .nan) ∧
    (¬ bad → ¬ round → o.flags = 0 ∧ o.e1err = .fin (2 * ratioErr w.list pixels (f1 w.g) (fT w.g)) ∧
      o.e2err = .fin (2 * ratioErr w.list pixels (f2 w.g) (fT w.g))) := by
  intro S C W N bad round
  obtain ⟨w2, o2, h2, hE, hd⟩ := go_spec conf pixels area guess hg hmax hpx
  rw [h] at h2
  simp only [Prod.mk.injEq, Except.ok.injEq] at h2
  obtain ⟨rfl, rfl⟩ := h2
  rcases hd with ⟨h1, -⟩ | ⟨-, r, d, hR, hW, hdd, hrf, hC⟩
  · exact absurd hf h1
  have hsp := recorded_spec hR.sums hW
  obtain ⟨⟨s2, s3, s4, s5, s6⟩, ⟨c22, c33, c44, c55, c66⟩, ⟨c45, c65, c24, c34⟩⟩ := hsp
  have p5 := hR.pos5
  have p4 := hR.pos4
  have hN : area * d.norm * r.wsum = N := by
    obtain ⟨-, ⟨d', hd', -, -, -, -, hn, -⟩, -, -⟩ := hW
    rw [hdd] at hd'
    simp only [Option.some.injEq] at hd'
    rw [hd', hn, hR.sums.wsum]
    simp only [N, W, sdet, gcov, sq]
  have hflux := hC.flux
  have hferr := hC.fluxErr
  have hTerr := hC.Terr
  have hr4 := hC.rho4
  have hr4e := hC.rho4Err
  have hfl := hC.flags
  have he := hC.e
  have herr := hC.err
  have hno := hC.noerr
  have hsf : shapeFlags r = open Classical in if bad then Flags.NONPOS_VAR else if round then Flags.NONPOS_SHAPE_VAR
      else 0 := by
    unfold shapeFlags
    rw [c22, c33, s2, s3]
  rw [s5] at p5
  rw [s4] at p4
  have h5 : wtSum w.list pixels fone ≠ 0 := p5.ne'
  have h4 : wtSum w.list pixels (fT w.g) ≠ 0 := p4.ne'
  rw [s4, s5, c44, c55, c45, ratioErr_eq _ _ _ _ h5] at hTerr
  rw [s6, s5, c66, c55, c65, ratioErr_eq _ _ _ _ h5] at hr4e
  rw [s6, s5] at hr4
  rw [s2, s4, c22, c44, c24, ratioErr_eq _ _ _ _ h4, s3, c33, c34, ratioErr_eq _ _ _ _ h4] at herr
  rw [s5, hN] at hflux
  rw [c55, hN] at hferr
  rw [add_comm w.g.icc w.g.irr] at he
  refine ⟨p5, p4, hflux, hferr, hC.s2n, by rw [hC.T, add_comm], hTerr, hr4, hr4e, ?_, ?_, ?_, ?_⟩
  · intro hb
    rw [if_pos hb] at hsf
    have := hno (by rw [hsf]; decide)
    exact ⟨by rw [hfl, hsf], this.1, this.2⟩
  · intro hb
    rw [if_neg hb] at hsf
    refine he ?_
    rw [hsf]
    split_ifs <;> decide
  · intro hb hr
    rw [if_neg hb, if_pos hr] at hsf
    have := hno (by rw [hsf]; decide)
    exact ⟨by rw [hfl, hsf], this.1, this.2⟩
  · intro hb hr
    rw [if_neg hb, if_neg hr] at hsf
    have := herr hsf
    exact ⟨by rw [hfl, hsf], this.1, this.2⟩

/-! ### C52: deweighting -/

/-- C52: if the weighted covariance `M` of an image is the one a gaussian object of covariance `C` has under the
gaussian weight `g`, `M⁻¹ = C⁻¹ + W⁻¹`, then `deweight_moments` makes `C` the covariance of the weight, exactly;
nothing else of the weight changes except its determinant, which is that of `C`. -/
theorem C52_deweight (g : Gauss) (M C : ℝ × ℝ × ℝ) (h : sinv M = sinv C + sinv (gcov g)) (hC : sdet C ≠ 0)
    (hM1 : 1e-200 < sdet M) (hW1 : 1e-200 < sdet (gcov g)) (hC1 : sdet C < 1e200) (hC0 : 0 < sdet C) :
    ∃ g', deweightMoments g M.1 M.2.1 M.2.2 = (g', 0) ∧ gcov g' = C ∧ g'.det = sdet C ∧ g'.p = g.p ∧
      g'.row = g.row ∧ g'.col = g.col ∧ g'.normSet = g.normSet := by
  have hs : sinv M - sinv (gcov g) = sinv C := by rw [h]; abel
  obtain ⟨g', he, hi, hd, hdc, hg'⟩ := (deweight_gen g M.1 M.2.1 M.2.2).1 ⟨hM1, hW1, by
    rw [show ((M.1, M.2.1, M.2.2) : ℝ × ℝ × ℝ) = M from rfl, hs, sdet_sinv, lt_div_iff₀ hC0]
    calc (1e-200 : ℝ) * sdet C < 1e-200 * 1e200 := by
          exact mul_lt_mul_of_pos_left hC1 lowDet_pos
      _ = 1 := by norm_num⟩
  rw [show ((M.1, M.2.1, M.2.2) : ℝ × ℝ × ℝ) = M from rfl, hs] at hi
  have hcov : gcov g' = C := by
    rw [← sinv_sinv _ hd, hi, sinv_sinv _ hC]
  refine ⟨g', he, hcov, ?_, by rw [hg'], by rw [hg'], by rw [hg'], by rw [hg']⟩
  rw [← hcov]
  have : g'.det = _ := hdc
  rw [this]; simp only [sdet, gcov]; ring

/-- C52: `deweight_moments` flags `LOW_DET`, leaving the weight as it is, exactly when one of the three
determinants is at most `1e-200`: of the measured covariance, of the weight, of the difference of the inverses. -/
theorem C52_low_det (g : Gauss) (M : ℝ × ℝ × ℝ) :
    (deweightMoments g M.1 M.2.1 M.2.2 = (g, Flags.LOW_DET) ↔
      (sdet M ≤ 1e-200 ∨ sdet (gcov g) ≤ 1e-200 ∨ sdet (sinv M - sinv (gcov g)) ≤ 1e-200)) ∧
    ((deweightMoments g M.1 M.2.1 M.2.2).2 ≠ 0 → deweightMoments g M.1 M.2.1 M.2.2 = (g, Flags.LOW_DET)) := by
  have hM : ((M.1, M.2.1, M.2.2) : ℝ × ℝ × ℝ) = M := rfl
  obtain ⟨h1, h2⟩ := deweight_gen g M.1 M.2.1 M.2.2
  rw [hM] at h1 h2
  by_cases hc : 1e-200 < sdet M ∧ 1e-200 < sdet (gcov g) ∧ 1e-200 < sdet (sinv M - sinv (gcov g))
  · obtain ⟨g', he, -⟩ := h1 hc
    rw [he]
    refine ⟨⟨fun hx => ?_, fun hx => ?_⟩, fun hx => absurd rfl hx⟩
    · simp only [Prod.mk.injEq] at hx
      exact absurd hx.2 (by decide)
    · obtain ⟨a, b, c⟩ := hc
      rcases hx with hx | hx | hx
      · exact absurd a (not_lt.mpr hx)
      · exact absurd b (not_lt.mpr hx)
      · exact absurd c (not_lt.mpr hx)
  · rw [h2 hc]
    refine ⟨⟨fun _ => ?_, fun _ => rfl⟩, fun _ => rfl⟩
    by_contra hx
    push Not at hx
    exact hc hx

/-- C52 in a run: in every iteration that goes on, the weight gets exactly the covariance that a gaussian object
with the moments measured would have, and it is unchanged exactly when the moments measured are half of it. -/
theorem C52_step (m : Moms) (w w' : AMWt) (h : NextWeight false m w w') :
    (∀ C, sdet C ≠ 0 → (gcov w'.g = C ↔ sinv m.cov = sinv C + sinv (gcov w.g))) ∧
    (gcov w'.g = gcov w.g ↔ m.cov = (1 / 2 : ℝ) • gcov w.g) := by
  unfold NextWeight at h
  simp only [Bool.false_eq_true, if_false] at h
  obtain ⟨⟨hM, hW, hN⟩, hi, hd, -, -⟩ := h
  have hlp : (0 : ℝ) < 1e-200 := lowDet_pos
  have hW0 : sdet (gcov w.g) ≠ 0 := (hlp.trans hW).ne'
  have hM0 : sdet m.cov ≠ 0 := (hlp.trans hM).ne'
  have key : ∀ C, sdet C ≠ 0 → (gcov w'.g = C ↔ sinv m.cov = sinv C + sinv (gcov w.g)) := by
    intro C hC
    constructor
    · rintro rfl; rw [hi]; abel
    · intro hs
      rw [← sinv_sinv _ hd, hi, hs, add_sub_cancel_right, sinv_sinv _ hC]
  refine ⟨key, ?_⟩
  rw [key _ hW0]
  have hhalf : sinv ((1 / 2 : ℝ) • gcov w.g) = sinv (gcov w.g) + sinv (gcov w.g) := by
    generalize gcov w.g = G at hW0
    obtain ⟨a, b, c⟩ := G
    simp only [sdet] at hW0
    simp only [sinv, sdet, Prod.smul_mk, smul_eq_mul, Prod.mk_add_mk, Prod.mk.injEq]
    have hq : 1 / 2 * a * (1 / 2 * c) - (1 / 2 * b) ^ 2 = (a * c - b ^ 2) / 4 := by ring
    rw [hq]
    refine ⟨?_, ?_, ?_⟩ <;> field_simp <;> ring
  constructor
  · intro hs
    have h2 : sdet ((1 / 2 : ℝ) • gcov w.g) ≠ 0 := by
      generalize gcov w.g = G at hW0
      obtain ⟨a, b, c⟩ := G
      simp only [sdet] at hW0
      simp only [sdet, Prod.smul_mk, smul_eq_mul]
      rw [show 1 / 2 * a * (1 / 2 * c) - (1 / 2 * b) ^ 2 = (a * c - b ^ 2) / 4 by ring]
      exact div_ne_zero hW0 (by norm_num)
    rw [← sinv_sinv _ hM0, hs, ← hhalf, sinv_sinv _ h2]
  · intro hs
    rw [hs, hhalf]

/-- C52, what the determinant tests let through: when the moments measured are wider than the weight (the inverse
of the deweighted covariance has a negative trace) the covariance stored is not positive, the weight is out of range,
and the next iteration ends in `GMIX_RANGE_ERROR`. -/
theorem C52_wider_than_weight (m : Moms) (w w' : AMWt) (h : NextWeight false m w w')
    (hneg : (sinv m.cov).1 + (sinv m.cov).2.2 < (sinv (gcov w.g)).1 + (sinv (gcov w.g)).2.2) : Unusable w' := by
  unfold NextWeight at h
  simp only [Bool.false_eq_true, if_false] at h
  obtain ⟨⟨hM, hW, hN⟩, hi, hd, -, -⟩ := h
  have hlp : (0 : ℝ) < 1e-200 := lowDet_pos
  refine ⟨w'.g, List.mem_cons_self, .inr ?_⟩
  rw [← hi, sdet_sinv] at hN
  have hpos : 0 < sdet (gcov w'.g) := by
    have := hlp.trans hN
    exact one_div_pos.mp this
  have h1 : (sinv (gcov w'.g)).1 + (sinv (gcov w'.g)).2.2 < 0 := by
    rw [hi]; simp only [Prod.fst_sub, Prod.snd_sub]; linarith
  have h2 : (sinv (gcov w'.g)).1 + (sinv (gcov w'.g)).2.2 = (w'.g.icc + w'.g.irr) / sdet (gcov w'.g) := by
    simp only [sinv, gcov]; rw [add_div]
  rw [h2] at h1
  have := (div_neg_iff.mp h1).resolve_left (fun hx => absurd hx.2 (not_lt.mpr hpos.le))
  linarith [this.1]

/-! ### `find_cen_admom` -/

theorem measured_cov {s : ℝ} {o : ℝ × ℝ} {pixels : List Pixel} {w w' : AMWt} {m : Moms}
    (h : Measured s o pixels w w' m) : gcov w'.g = gcov w.g := by
  obtain ⟨w1, hR, ⟨-, -, -, hc⟩, -, -⟩ := h
  unfold Ready AMWt.list at hR
  obtain ⟨⟨⟨-, -, -, s1, s2, s3⟩, -⟩, -⟩ := List.forall₂_cons.mp hR
  rw [hc]
  simp only [gcov, s1, s2, s3]

theorem history_cov {conf : AMConf} {pixels : List Pixel} {w0 w : AMWt} {ms : List Moms}
    (hc : conf.cenonly = true) (h : History conf pixels w0 ms w) : gcov w.g = gcov w0.g := by
  induction h with
  | start => rfl
  | step _ hM _ hN ih =>
    rw [hc] at hN
    simp only [NextWeight, if_true] at hN
    rw [hN, measured_cov hM, ih]

/-- What a fixed weight keeps: current determinants and the covariance of its first gaussian. -/
def SameButCentre (w w' : AMWt) : Prop :=
  (∀ g ∈ w'.list, DetCurrent g) ∧ gcov w'.g = gcov w.g

theorem setNorm_same (g : Gauss) : SameGauss g (gauss2dSetNorm g).1 ∧ (gauss2dSetNorm g).1.det = g.det := by
  unfold gauss2dSetNorm
  by_cases h1 : g.det < gmixLowDetval
  · rw [if_pos h1]; exact ⟨⟨rfl, rfl, rfl, rfl, rfl, rfl⟩, rfl⟩
  · rw [if_neg h1]
    simp only []
    by_cases h2 : g.irr + g.icc ≤ gmixLowDetval
    · rw [if_pos h2]; exact ⟨⟨rfl, rfl, rfl, rfl, rfl, rfl⟩, rfl⟩
    · rw [if_neg h2]; exact ⟨⟨rfl, rfl, rfl, rfl, rfl, rfl⟩, rfl⟩

theorem setNorms_same : ∀ l : List Gauss, List.Forall₂ (fun g g' => SameGauss g g' ∧ g'.det = g.det) l
    (gmixSetNorms l).1 := by
  intro l
  induction l with
  | nil => exact .nil
  | cons g l ih =>
    have hg := setNorm_same g
    unfold gmixSetNorms
    rcases h : gauss2dSetNorm g with ⟨g', r⟩
    rw [h] at hg
    cases r with
    | error e =>
      refine .cons hg ?_
      rw [List.forall₂_same]
      intro x _
      exact ⟨⟨rfl, rfl, rfl, rfl, rfl, rfl⟩, rfl⟩
    | ok _ => exact .cons hg ih

theorem amSetNorms_same (w : AMWt) (hw : ∀ g ∈ w.list, DetCurrent g) : SameButCentre w (amSetNorms w).1 := by
  have h := setNorms_same w.list
  unfold amSetNorms
  rcases hs : gmixSetNorms w.list with ⟨l, r⟩
  rw [hs] at h
  cases l with
  | nil => exact ⟨hw, rfl⟩
  | cons g gs =>
    simp only [AMWt.list, List.forall₂_cons] at h
    obtain ⟨⟨⟨-, -, -, h4, h5, h6⟩, hd⟩, hr⟩ := h
    refine ⟨?_, by simp only [gcov, h4, h5, h6]⟩
    intro g' hg'
    simp only [AMWt.list, List.mem_cons] at hg'
    rcases hg' with rfl | hg'
    · have h0 : w.g.det = _ := hw w.g (by simp [AMWt.list])
      unfold DetCurrent
      rw [hd, h0, h4, h5, h6]
    · rw [List.forall₂_iff_get] at hr
      obtain ⟨i, hi, rfl⟩ := List.getElem_of_mem hg'
      obtain ⟨⟨-, -, -, q4, q5, q6⟩, qd⟩ := hr.2 i (by rw [hr.1]; exact hi) hi
      have h0 : (w.rest.get ⟨i, by rw [hr.1]; exact hi⟩).det = _ := hw _ (by simp [AMWt.list])
      unfold DetCurrent
      rw [h0, q4, q5, q6] at qd
      exact qd

theorem iter_fixed (conf : AMConf) (hc : conf.cenonly = true) (o : ℝ × ℝ) (pixels : List Pixel) (w : AMWt)
    (r : AMRes) (old : Option (ℝ × ℝ × ℝ)) (hw : ∀ g ∈ w.list, DetCurrent g) :
    SameButCentre w (amIter conf o pixels w r old).1 := by
  have refl : ∀ w : AMWt, (∀ g ∈ w.list, DetCurrent g) → SameButCentre w w := fun w h => ⟨h, rfl⟩
  unfold amIter
  by_cases hd : w.g.det < gmixLowDetval
  · rw [if_pos hd]; exact refl w hw
  · rw [if_neg hd]
    have hs := amSetNorms_same w hw
    rcases hse : amSetNorms w with ⟨w1, q⟩
    rw [hse] at hs
    cases q with
    | error e => exact hs
    | ok _ =>
      simp only []
      have hcen : ∀ a b : ℝ, SameButCentre w { w1 with g := { w1.g with row := a, col := b } } := by
        intro a b
        refine ⟨?_, hs.2⟩
        intro g hg
        simp only [AMWt.list, List.mem_cons] at hg
        rcases hg with rfl | hg
        · exact hs.1 w1.g (by simp [AMWt.list])
        · exact hs.1 g (by simp [AMWt.list, hg])
      unfold amPass
      simp only []
      split_ifs with h5 hsh
      · exact hs
      · exact hcen _ _
      · split
        · exact hcen _ _
        · rename_i r' hm
          have hdec : ∀ w2 : AMWt, (amDecide conf w2 r' old).1 = w2 := by
            intro w2
            unfold amDecide
            simp only [hc, if_true]
            split_ifs <;> rfl
          simp only []
          rw [hdec]
          exact hcen _ _

theorem loop_fixed (conf : AMConf) (hc : conf.cenonly = true) (o : ℝ × ℝ) (pixels : List Pixel) :
    ∀ (k i : ℕ) (w : AMWt) (r : AMRes) (old : Option (ℝ × ℝ × ℝ)), (∀ g ∈ w.list, DetCurrent g) →
      SameButCentre w (amLoop conf o pixels k i w r old).1 := by
  intro k
  induction k with
  | zero => intro i w r old hw; exact ⟨hw, rfl⟩
  | succ k ih =>
    intro i w r old hw
    have hi := iter_fixed conf hc o pixels w r old hw
    unfold amLoop
    rcases hit : amIter conf o pixels w r old with ⟨w1, r1, q⟩
    rw [hit] at hi
    match q with
    | .error e => exact hi
    | .ok .brk => exact hi
    | .ok (.next a b c) =>
      have := ih (i + 1) w1 r1 (some (a, b, c)) hi.1
      exact ⟨this.1, this.2.trans hi.2⟩

theorem go_fixed (conf : AMConf) (hc : conf.cenonly = true) (pixels : List Pixel) (area : ℝ) (w : AMWt)
    (hw : ∀ g ∈ w.list, DetCurrent g) : SameButCentre w (admomGo conf pixels area w).1 := by
  have key : SameButCentre w (admomNb conf w pixels AMRes.zero).1 := by
    unfold admomNb
    split_ifs
    · exact ⟨hw, rfl⟩
    · have := loop_fixed conf hc (w.g.row, w.g.col) pixels conf.maxiter.toNat 0 w AMRes.zero none hw
      rcases hl : amLoop conf (w.g.row, w.g.col) pixels conf.maxiter.toNat 0 w AMRes.zero none with ⟨w1, r1, q⟩
      rw [hl] at this
      cases q <;> exact this
  unfold admomGo
  rcases hn : admomNb conf w pixels AMRes.zero with ⟨w1, r1, q⟩
  rw [hn] at key
  cases q with
  | error e => cases e <;> exact key
  | ok _ => exact key

theorem findCen_loop (conf : AMConf) (pixels : List Pixel) (area : ℝ)
    (recentre : ℕ → AMWt → Except PyErr AMWt)
    (hrec : ∀ i w w', (∀ g ∈ w.list, DetCurrent g) → recentre i w = .ok w' → SameButCentre w w') (w0 : AMWt) :
    ∀ (k i : ℕ) (w : AMWt) (last o : Option AMOut), SameButCentre w0 w →
      findCenLoop conf pixels area recentre k i w last = .ok o →
      (o = last ∧ k = 0) ∨ ∃ guess wf of, o = some of ∧ SameButCentre w0 guess ∧
        admomGo { conf with cenonly := true } pixels area guess = (wf, .ok of) := by
  intro k
  induction k with
  | zero =>
    intro i w last o _ h
    simp only [findCenLoop, Except.ok.injEq] at h
    exact .inl ⟨h.symm, rfl⟩
  | succ k ih =>
    intro i w last o hw h
    unfold findCenLoop at h
    have hfix := go_fixed { conf with cenonly := true } rfl pixels area w hw.1
    rcases hgo : admomGo { conf with cenonly := true } pixels area w with ⟨wf, q⟩
    rw [hgo] at h hfix
    cases q with
    | error e => cases h
    | ok ot =>
      simp only [] at h
      by_cases hz : ot.flags = 0
      · rw [if_pos hz] at h
        simp only [Except.ok.injEq] at h
        exact .inr ⟨w, wf, ot, h.symm, hw, hgo⟩
      · rw [if_neg hz] at h
        obtain ⟨w2, h1, h2⟩ := exBind_ok h
        have hs := hrec i wf w2 hfix.1 h1
        have hsame : SameButCentre w0 w2 := ⟨hs.1, hs.2.trans (hfix.2.trans hw.2)⟩
        rcases ih _ _ _ _ hsame h2 with ⟨ho, -⟩ | hr
        · exact .inr ⟨w, wf, ot, ho, hw, hgo⟩
        · exact .inr hr

/-- C51, `find_cen_admom`: the result is that of an adaptive moments run with a fixed weight, one with the
covariance of the weight that was sent.  The centre is NaN exactly when the result is flagged; otherwise it is the
weighted centroid of the image, to which the weight has been moved, in a run that converged. -/
theorem C51_find_cen (conf : AMConf) (pixels : List Pixel) (area : ℝ) (recentre : ℕ → AMWt → Except PyErr AMWt)
    (ntry : ℤ) (haveRng : Bool) (wt : AMWt) (o : AMOut) (cen : Option (ℝ × ℝ))
    (hg : ∀ g ∈ wt.list, DetCurrent g) (hmax : 0 < conf.maxiter) (hpx : ∀ px ∈ pixels, px.ierr ≠ 0)
    (hrec : ∀ i w w', (∀ g ∈ w.list, DetCurrent g) → recentre i w = .ok w' → SameButCentre w w')
    (h : findCenAdmom conf pixels area recentre ntry haveRng (some wt) = .ok (o, cen)) :
    (o.flags ≠ 0 → cen = none) ∧
    (o.flags = 0 → ∃ w1 w, cen = some (w.g.row, w.g.col) ∧ Recentred pixels w1 w ∧ gcov w.g = gcov wt.g ∧
      o.T = .fin (wt.g.irr + wt.g.icc)) := by
  unfold findCenAdmom at h
  by_cases hrng : ntry > 1 ∧ haveRng = false
  · rw [if_pos hrng] at h; cases h
  rw [if_neg hrng] at h
  simp only [] at h
  obtain ⟨ol, h1, h2⟩ := exBind_ok h
  have hid : ∀ i w w', (∀ g ∈ w.list, DetCurrent g) →
      (if ntry > 1 then recentre else fun _ w => .ok w) i w = .ok w' → SameButCentre w w' := by
    intro i w w' hw he
    split_ifs at he
    · exact hrec i w w' hw he
    · simp only [Except.ok.injEq] at he
      rw [← he]; exact ⟨hw, rfl⟩
  rcases findCen_loop conf pixels area _ hid wt _ _ _ _ _ ⟨hg, rfl⟩ h1 with ⟨rfl, -⟩ | ⟨guess, wf, ot, rfl, hgs, hgo⟩
  · simp only [] at h2; cases h2
  · simp only [] at h2
    by_cases hz : ot.flags = 0
    · rw [if_pos hz] at h2
      obtain ⟨c, hc1, hc2⟩ := exMap_ok h2
      simp only [Prod.mk.injEq] at hc2
      obtain ⟨rfl, rfl⟩ := hc2
      refine ⟨fun hn => absurd hz hn, fun _ => ?_⟩
      obtain ⟨w2, o2, e2, -, -, -, hff⟩ := C51_outcome { conf with cenonly := true } pixels area guess hgs.1 hmax hpx
      rw [hgo] at e2
      simp only [Prod.mk.injEq, Except.ok.injEq] at e2
      obtain ⟨rfl, rfl⟩ := e2
      obtain ⟨⟨ms, w', m, m', hH, hM, -⟩, -⟩ :=
        C51_converged { conf with cenonly := true } pixels area guess wf ot hgs.1 hmax hpx hgo (hff hz)
      obtain ⟨gm, g, hgm, hd, hp, hr, hcc, -⟩ :=
        (C51_get_gmix { conf with cenonly := true } pixels area guess wf ot hgs.1 hmax hpx hgo).2 hz
      have hT := (C69_converged { conf with cenonly := true } pixels area guess wf ot hgs.1 hmax hpx hgo (hff hz)).2.2.2.2.2.1
      have hcov : gcov wf.g = gcov wt.g := by rw [measured_cov hM, history_cov rfl hH, hgs.2]
      have hM' := hM
      obtain ⟨w1, -, hRc, -⟩ := hM'
      refine ⟨w1, wf, ?_, hRc, hcov, ?_⟩
      · unfold amCen at hc1
        rw [hgm] at hc1
        simp only [Except.ok.injEq] at hc1
        rw [← hc1, hd]
        simp [getCen, psum, hp, hr, hcc]
      · rw [hT]
        simp only [gcov, Prod.mk.injEq] at hcov
        rw [hcov.1, hcov.2.2]
    · rw [if_neg hz] at h2
      simp only [Except.ok.injEq, Prod.mk.injEq] at h2
      obtain ⟨rfl, rfl⟩ := h2
      exact ⟨fun _ => rfl, fun hh => absurd hh hz⟩

/-- C51, `find_cen_admom`, wrong calls: several tries without a generator, no weight, no try. -/
theorem C51_find_cen_errors (conf : AMConf) (pixels : List Pixel) (area : ℝ)
    (recentre : ℕ → AMWt → Except PyErr AMWt) (ntry : ℤ) (haveRng : Bool) (wt : AMWt) :
    (1 < ntry → findCenAdmom conf pixels area recentre ntry false (some wt) = .error .value) ∧
    findCenAdmom conf pixels area recentre ntry haveRng none = .error .value ∧
    (ntry ≤ 0 → findCenAdmom conf pixels area recentre ntry haveRng (some wt) = .error .unbound) := by
  refine ⟨fun h => ?_, ?_, fun h => ?_⟩
  · unfold findCenAdmom; rw [if_pos ⟨h, rfl⟩]
  · unfold findCenAdmom; split_ifs <;> rfl
  · unfold findCenAdmom
    rw [if_neg (by rintro ⟨h1, -⟩; omega), Int.toNat_of_nonpos h]
    rfl

/-! ### A concrete run: an elongated object of two pixels under a fixed round weight -/

/-- The round unit weight. -/
def exG : Gauss := gauss2dSet 1 0 0 1 0 1

/-- The same with its norms set. -/
def exG1 : Gauss := { exG with d := some ⟨1, 0, 1, 1 / (2 * Real.pi), 1 / (2 * Real.pi)⟩, normSet := true }

def exPix : List Pixel := [⟨2, 1, 1, 1, 1⟩, ⟨-2, -1, 1, 1, 1⟩]

def exConf (n : ℤ) (cenonly : Bool) : AMConf := ⟨n, 5, 1e-5, 1e-3, cenonly⟩

theorem ex_setNorms (g : Gauss) (hg : g = exG ∨ g = exG1) : amSetNorms ⟨g, []⟩ = (⟨exG1, []⟩, .ok ()) := by
  have hl : ¬ (1 : ℝ) < 1e-200 := by norm_num
  have hl2 : ¬ (1 + 1 : ℝ) ≤ 1e-200 := by norm_num
  rcases hg with rfl | rfl
  all_goals
    simp [amSetNorms, AMWt.list, gmixSetNorms, gauss2dSetNorm, exG, exG1, gauss2dSet, gmixLowDetval, hl, hl2]

theorem ex_pred : ∃ e, 0 < e ∧ ∀ px ∈ exPix, predicted [exG1] px = e := by
  obtain ⟨y, -, hy, hb⟩ := C26_exp5 (-2.5) (by norm_num) (by norm_num)
  have hex : 0 < Real.exp (-2.5) := Real.exp_pos _
  have hpos : 0 < y := by
    have := (abs_le.mp hb).1
    nlinarith
  refine ⟨1 / (2 * Real.pi) * y, by positivity, ?_⟩
  intro px hpx
  have hch : gaussChi2 exG1 ⟨1, 0, 1, 1 / (2 * Real.pi), 1 / (2 * Real.pi)⟩ px.v px.u = 5 ∧ px.area = 1 := by
    simp only [exPix, List.mem_cons, List.not_mem_nil, or_false] at hpx
    rcases hpx with rfl | rfl <;> simp [gaussChi2, exG1, exG, gauss2dSet] <;> norm_num
  have hd : exG1.d = some ⟨1, 0, 1, 1 / (2 * Real.pi), 1 / (2 * Real.pi)⟩ := rfl
  simp only [predicted, List.map_cons, List.map_nil, List.sum_cons, List.sum_nil, add_zero, gaussEvalFast, hd]
  rw [hch.1, hch.2, if_pos (by constructor <;> norm_num [fastexpMaxChi2]),
    show (-0.5 * 5 : ℝ) = -2.5 by norm_num, hy]
  ring

theorem ex_sum (e : ℝ) (he : ∀ px ∈ exPix, predicted [exG1] px = e) (f : Pixel → ℝ) :
    wtSum [exG1] exPix f = e * f ⟨2, 1, 1, 1, 1⟩ + e * f ⟨-2, -1, 1, 1, 1⟩ := by
  have h1 := he ⟨2, 1, 1, 1, 1⟩ (by simp [exPix])
  have h2 := he ⟨-2, -1, 1, 1, 1⟩ (by simp [exPix])
  simp only [wtSum, exPix, List.map_cons, List.map_nil, List.sum_cons, List.sum_nil, h1, h2]
  ring

/-- Every measurement of the example gives the same moments: `e1 = 0.6, e2 = 0.8, T = 5`. -/
theorem ex_iter (n : ℤ) (g : Gauss) (hg : g = exG ∨ g = exG1) (res : AMRes) (hf : res.flags = 0) :
    (∃ r, amIter (exConf n true) (0, 0) exPix ⟨g, []⟩ res none = (⟨exG1, []⟩, r, .ok (.next 0.6 0.8 5)) ∧
      r.flags = 0) ∧
    (∃ r, amIter (exConf n true) (0, 0) exPix ⟨g, []⟩ res (some (0.6, 0.8, 5)) = (⟨exG1, []⟩, r, .ok .brk) ∧
      r.flags = 0) := by
  obtain ⟨e, hpos, he⟩ := ex_pred
  have hs := ex_setNorms g hg
  have hdet : ¬ (⟨g, []⟩ : AMWt).g.det < gmixLowDetval := by
    have hl : ¬ (1 : ℝ) < 1e-200 := by norm_num
    rcases hg with rfl | rfl <;> simp [exG1, exG, gauss2dSet, gmixLowDetval, hl]
  have hlist : (⟨exG1, []⟩ : AMWt).list = [exG1] := rfl
  obtain ⟨c0, c1, c5, cf, -⟩ := censums_eq ⟨exG1, []⟩ exPix (amClear res)
  have z0 : (amClear res).sums 0 = 0 := rfl
  have z1 : (amClear res).sums 1 = 0 := rfl
  have z5 : (amClear res).sums 5 = 0 := rfl
  rw [z0, hlist, ex_sum e he] at c0
  rw [z1, hlist, ex_sum e he] at c1
  rw [z5, hlist, ex_sum e he] at c5
  have cf : (amCensums ⟨exG1, []⟩ exPix (amClear res)).flags = 0 := by rw [cf]; exact hf
  have hit : ∀ old, amIter (exConf n true) (0, 0) exPix ⟨g, []⟩ res old =
      amPass (exConf n true) (0, 0) exPix ⟨exG1, []⟩ res old := by
    intro old
    unfold amIter
    rw [if_neg hdet, hs]
  rw [hit, hit]
  obtain ⟨r, hr, hS, hfl⟩ := momsums_ok ⟨exG1, []⟩ exPix (amCensums ⟨exG1, []⟩ exPix (amClear res)) (by
    intro px hpx
    simp only [exPix, List.mem_cons, List.not_mem_nil, or_false] at hpx
    rcases hpx with rfl | rfl <;> simp)
  have hpass : ∀ old, amPass (exConf n true) (0, 0) exPix ⟨exG1, []⟩ res old =
      ((amDecide (exConf n true) ⟨exG1, []⟩ r old).1, (amDecide (exConf n true) ⟨exG1, []⟩ r old).2.1,
        .ok (amDecide (exConf n true) ⟨exG1, []⟩ r old).2.2) := by
    intro old
    unfold amPass
    generalize amCensums ⟨exG1, []⟩ exPix (amClear res) = rc at *
    simp only [] at c0 c1 c5 ⊢
    have e5 : rc.sums 5 = 2 * e := by rw [c5]; ring
    have q0 : rc.sums 0 / rc.sums 5 = 0 := by rw [c0]; simp
    have q1 : rc.sums 1 / rc.sums 5 = 0 := by rw [c1]; simp
    rw [if_neg (by rw [e5]; linarith), q0, q1]
    have hsame : ({ exG1 with row := 0, col := 0 } : Gauss) = exG1 := rfl
    rw [hsame, if_neg (by simp [exG1, exG, gauss2dSet, exConf]), hr]
  rw [hpass, hpass]
  obtain ⟨s5, s4, s2, s3⟩ := sums_spec hS
  rw [hlist, ex_sum e he] at s5 s4 s2 s3
  simp only [exG1, exG, gauss2dSet] at s4 s2 s3
  have t5 : r.sums 5 = 2 * e := by rw [s5]; ring
  have t4 : r.sums 4 = 10 * e := by rw [s4]; ring
  have t2 : r.sums 2 = 6 * e := by rw [s2]; ring
  have t3 : r.sums 3 = 8 * e := by rw [s3]; ring
  have hne := hpos.ne'
  have T5 : 10 * e * (1.0 / (2 * e)) = 5 := by field_simp; norm_num
  have M1 : 6 * e * (1.0 / (2 * e)) = 3 := by field_simp; norm_num
  have M2 : 8 * e * (1.0 / (2 * e)) = 4 := by field_simp; norm_num
  have E1 : (0.5 * (5 + 3) - 0.5 * (5 - 3) : ℝ) / 5 = 0.6 := by norm_num
  have E2 : (2 * (0.5 * 4) : ℝ) / 5 = 0.8 := by norm_num
  constructor
  · unfold amDecide
    simp only [t5, t4, t2, t3, T5, M1, M2, E1, E2]
    rw [if_neg (by linarith), if_neg (by norm_num), if_neg (by simp [amClose]),
      if_pos (show (exConf n true).cenonly = true from rfl)]
    exact ⟨r, rfl, by rw [hfl, cf]⟩
  · unfold amDecide
    simp only [t5, t4, t2, t3, T5, M1, M2, E1, E2]
    have hcl : amClose (exConf n true) (some (0.6, 0.8, 5)) 0.6 0.8 5 := by
      change |(0.6 : ℝ) - 0.6| < 1e-5 ∧ |(0.8 : ℝ) - 0.8| < 1e-5 ∧ |(5 : ℝ) / 5 - 1| < 1e-3
      norm_num
    rw [if_neg (show ¬ 2 * e ≤ 0 by linarith), if_neg (show ¬ (5 : ℝ) ≤ 0 by norm_num),
      if_pos (by rw [t5, t4, t2, t3, T5, M1, M2, E1, E2]; exact hcl)]
    refine ⟨_, rfl, ?_⟩
    change r.flags = 0
    rw [hfl, cf]

theorem ex_run (n : ℕ) : ∃ r, admomNb (exConf (n + 2) true) ⟨exG, []⟩ exPix AMRes.zero =
    (⟨exG1, []⟩, r, .ok ()) ∧ r.numiter = 2 ∧ r.flags = if n = 0 then Flags.MAXITER else 0 := by
  obtain ⟨r1, h1, f1⟩ := (ex_iter (n + 2) exG (.inl rfl) AMRes.zero rfl).1
  obtain ⟨r2, h2, f2⟩ := (ex_iter (n + 2) exG1 (.inr rfl) r1 f1).2
  have hk : (exConf (n + 2) true).maxiter.toNat = n + 1 + 1 := by
    change ((n : ℤ) + 2).toNat = _
    omega
  have ho : ((⟨exG, []⟩ : AMWt).g.row, (⟨exG, []⟩ : AMWt).g.col) = ((0, 0) : ℝ × ℝ) := rfl
  refine ⟨amFinish (exConf (n + 2) true) r2 2, ?_, ?_, ?_⟩
  · unfold admomNb
    rw [if_neg (by change ¬ (n : ℤ) + 2 ≤ 0; omega), hk, ho]
    simp only [amLoop, h1, h2]
  · unfold amFinish
    simp only []
    split_ifs <;> rfl
  · unfold amFinish
    simp only []
    by_cases hn : n = 0
    · rw [if_pos (by subst hn; rfl), if_pos hn]
    · rw [if_neg (by change ¬ ((2 : ℕ) : ℤ) = (n : ℤ) + 2; omega), if_neg hn]; exact f2

/-- C51, the case against the reading "a run that converged is not flagged": the same run, converged in its second
iteration, has zero flags with `maxiter` 3 or more and is reported as `MAXITER` with `maxiter` 2. -/
theorem C51_converged_at_maxiter (n : ℕ) : ∃ w o,
    admomGo (exConf (n + 2) true) exPix 1 ⟨exG, []⟩ = (w, .ok o) ∧ o.numiter = 2 ∧
      o.fluxFlags = (if n = 0 then Flags.MAXITER else 0) ∧
      (n ≠ 0 → o.flags = 0 ∧ o.e1 = .fin 0 ∧ o.T = .fin 2) := by
  have hg : ∀ g ∈ (⟨exG, []⟩ : AMWt).list, DetCurrent g := by
    intro g hg
    simp only [AMWt.list, List.mem_cons, List.not_mem_nil, or_false] at hg
    rw [hg]; rfl
  have hpx : ∀ px ∈ exPix, px.ierr ≠ 0 := by
    intro px hpx
    simp only [exPix, List.mem_cons, List.not_mem_nil, or_false] at hpx
    rcases hpx with rfl | rfl <;> simp
  have hmax : 0 < (exConf (n + 2) true).maxiter := by change 0 < (n : ℤ) + 2; omega
  obtain ⟨r, hrun, hni, hfl⟩ := ex_run n
  obtain ⟨w, o, hgo, hE, hd⟩ := go_spec (exConf (n + 2) true) exPix 1 ⟨exG, []⟩ hg hmax hpx
  have hgo' := hgo
  unfold admomGo at hgo
  rw [hrun] at hgo
  simp only [Prod.mk.injEq] at hgo
  obtain ⟨hw, hres⟩ := hgo
  have hff : o.fluxFlags = (if n = 0 then Flags.MAXITER else 0) ∧ o.numiter = 2 := by
    by_cases hz : r.flags = 0
    · obtain ⟨w', res', out', hr', hout'⟩ := run_spec (exConf (n + 2) true) exPix ⟨exG, []⟩ hg hmax
      rw [hrun] at hr'
      simp only [Prod.mk.injEq] at hr'
      obtain ⟨rfl, rfl, rfl⟩ := hr'
      rcases hout' with ⟨hc, -⟩ | ⟨hc, -⟩ | ⟨-, hE', hrec⟩
      · cases hc
      · cases hc
      · have hW : WtOk ⟨exG1, []⟩ := by
          have h1 : (1e-200 : ℝ) ≤ 1 := by norm_num
          have h2 : (1e-200 : ℝ) < 1 + 1 := by norm_num
          refine ⟨rfl, ⟨⟨1, 0, 1, 1 / (2 * Real.pi), 1 / (2 * Real.pi)⟩, rfl, ?_, ?_, ?_, ?_, ?_, ?_⟩, ?_, ?_⟩ <;>
            simp [exG1, exG, gauss2dSet, h1, h2]
        obtain ⟨o', ho', hC⟩ := getResult_ok (hrec hz) hz hW hpx 1 _ rfl
        rw [ho'] at hres
        simp only [Except.ok.injEq] at hres
        rw [← hres, hC.fluxFlags, hC.numiter, ← hfl, hz]
        exact ⟨rfl, hni⟩
    · obtain ⟨o', ho', g1, -, -, -, -, -, g2⟩ := getResult_flagged r 1 (amNorm exG1) hz
      rw [ho'] at hres
      simp only [Except.ok.injEq] at hres
      rw [← hres, g1, g2, hfl]
      exact ⟨rfl, hni⟩
  refine ⟨w, o, hgo', hff.2, hff.1, fun hn => ?_⟩
  rw [if_neg hn] at hff
  have hC := C69_converged (exConf (n + 2) true) exPix 1 ⟨exG, []⟩ w o hg hmax hpx hgo' hff.1
  subst hw
  simp only [] at hC
  obtain ⟨-, -, -, -, -, hT, -, -, -, -, he, -, hz⟩ := hC
  obtain ⟨e, hpos, hpe⟩ := ex_pred
  have hlist : (⟨exG1, []⟩ : AMWt).list = [exG1] := rfl
  rw [hlist] at he hz
  have p1 := hpe ⟨2, 1, 1, 1, 1⟩ (by simp [exPix])
  have p2 := hpe ⟨-2, -1, 1, 1, 1⟩ (by simp [exPix])
  have hbad : ¬ (wtCov [exG1] exPix (f1 exG1) (f1 exG1) = 0 ∨ wtCov [exG1] exPix (f2 exG1) (f2 exG1) = 0) := by
    have a1 : wtCov [exG1] exPix (f1 exG1) (f1 exG1) = 18 * e ^ 2 := by
      simp only [wtCov, exPix, List.map_cons, List.map_nil, List.sum_cons, List.sum_nil, p1, p2]
      simp only [f1, exG1, exG, gauss2dSet]
      ring
    have a2 : wtCov [exG1] exPix (f2 exG1) (f2 exG1) = 32 * e ^ 2 := by
      simp only [wtCov, exPix, List.map_cons, List.map_nil, List.sum_cons, List.sum_nil, p1, p2]
      simp only [f2, exG1, exG, gauss2dSet]
      ring
    rw [a1, a2]
    push Not
    exact ⟨by positivity, by positivity⟩
  have hround : ¬ (wtSum [exG1] exPix (f1 exG1) = 0 ∨ wtSum [exG1] exPix (f2 exG1) = 0) := by
    have a1 : wtSum [exG1] exPix (f1 exG1) = 6 * e := by
      rw [ex_sum e hpe]
      simp only [f1, exG1, exG, gauss2dSet]
      ring
    have a2 : wtSum [exG1] exPix (f2 exG1) = 8 * e := by
      rw [ex_sum e hpe]
      simp only [f2, exG1, exG, gauss2dSet]
      ring
    rw [a1, a2]
    push Not
    exact ⟨by positivity, by positivity⟩
  refine ⟨(hz hbad hround).1, ?_, ?_⟩
  · rw [(he hbad).1]; simp [exG1, exG, gauss2dSet]
  · rw [hT]; simp only [exG1, exG, gauss2dSet]; norm_num

/-- C52 on numbers: an object of covariance 2 under a weight of covariance 2 has weighted covariance 1, and
deweighting gives 2 back; a measured covariance of 2 under a weight of covariance 1 gives -2. -/
example : ∃ g', deweightMoments (gauss2dSet 1 0 0 2 0 2) 1 0 1 = (g', 0) ∧ gcov g' = (2, 0, 2) := by
  obtain ⟨g', h1, h2, -⟩ := C52_deweight (gauss2dSet 1 0 0 2 0 2) (1, 0, 1) (2, 0, 2)
    (by simp [sinv, sdet, gcov, gauss2dSet]; norm_num) (by simp [sdet]) (by simp [sdet]; norm_num)
    (by simp [sdet, gcov, gauss2dSet]; norm_num) (by simp [sdet]; norm_num) (by simp [sdet])
  exact ⟨g', h1, h2⟩

example : ∃ w', NextWeight false ⟨0, 0, 4⟩ ⟨exG, []⟩ w' ∧ Unusable w' := by
  have hc : CanDeweight ⟨0, 0, 4⟩ exG := by
    refine ⟨?_, ?_, ?_⟩ <;> simp [Moms.cov, sdet, sinv, gcov, exG, gauss2dSet] <;> norm_num
  obtain ⟨g', -, h1, h2, h3, h4⟩ := (deweight_spec exG ⟨0, 0, 4⟩ _ _ _ rfl).1 hc
  have hN : NextWeight false ⟨0, 0, 4⟩ ⟨exG, []⟩ ⟨g', []⟩ := by
    simp only [NextWeight, Bool.false_eq_true, if_false]
    exact ⟨hc, h1, h2, h3, by rw [← h4]⟩
  refine ⟨_, hN, C52_wider_than_weight _ _ _ hN ?_⟩
  simp [Moms.cov, sdet, sinv, gcov, exG, gauss2dSet]; norm_num

/-- A pixel of zero weight makes the example raise. -/
example : (admomGo (exConf 10 true) (exPix ++ [⟨0, 0, 1, 0, 0⟩]) 1 ⟨exG, []⟩).2 = .error .zeroDiv := by
  obtain ⟨e, hpos, hpe⟩ := ex_pred
  have hsum : ∀ f : Pixel → ℝ, wtSum [exG1] (exPix ++ [⟨0, 0, 1, 0, 0⟩]) f = wtSum [exG1] exPix f := by
    intro f
    simp [wtSum]
  refine C51_zero_weight_raises _ _ _ ⟨exG, []⟩ ⟨exG1, []⟩ ⟨exG1, []⟩ ?_ (by norm_num [exConf])
    ⟨⟨0, 0, 1, 0, 0⟩, by simp, rfl⟩ (ex_setNorms exG (.inl rfl)) ?_ ?_
  · intro g hg
    simp only [AMWt.list, List.mem_cons, List.not_mem_nil, or_false] at hg
    rw [hg]; rfl
  · have hl : (⟨exG1, []⟩ : AMWt).list = [exG1] := rfl
    unfold Recentred
    rw [hl, hsum, hsum, hsum, ex_sum e hpe, ex_sum e hpe, ex_sum e hpe]
    refine ⟨by linarith, ?_, ?_, rfl⟩ <;> simp [exG1, exG, gauss2dSet]
  · simp [Near, exConf, exG1, exG, gauss2dSet]

end

end Ngmix.Props
