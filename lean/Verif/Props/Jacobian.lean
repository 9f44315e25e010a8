import Verif.Model.Jacobian
import Mathlib.Tactic.FieldSimp
import Mathlib.Tactic.Ring
import Mathlib.Tactic.Linarith
import Mathlib.LinearAlgebra.Matrix.Notation
import Mathlib.LinearAlgebra.Matrix.Determinant.Basic

/-!
# Properties C14-C16: Jacobians
-/

namespace Ngmix.Props

open Ngmix

/-- Spec: the stored determinant and scale belong to the stored derivatives.  Every constructed
Jacobian has this (`C15_constructed_wellformed`), `set_cen` keeps it. -/
def JacWF (j : Jacobian) : Prop :=
  j.det = Matrix.det !![j.dvdrow, j.dvdcol; j.dudrow, j.dudcol] ∧ j.scale = Real.sqrt |j.det|

theorem jacWF_det {j : Jacobian} (h : JacWF j) : j.det = j.dvdrow * j.dudcol - j.dvdcol * j.dudrow := by
  rw [h.1, Matrix.det_fin_two_of]

theorem finishInit_wf (a b c d e f : ℝ) : JacWF (Jacobian.finishInit a b c d e f) := by
  constructor
  · rw [Matrix.det_fin_two_of]; rfl
  · rfl

/-! ## C14 -/

/-- C14: with a nonzero determinant `get_rowcol` and `get_vu` are mutually inverse everywhere. -/
theorem C14_round_trip (j : Jacobian) (h : JacWF j) (hd : j.det ≠ 0) (a b : ℝ) :
    j.getRowcol (j.getVU a b).1 (j.getVU a b).2 = .ok (a, b) ∧
    ∃ r c, j.getRowcol a b = .ok (r, c) ∧ j.getVU r c = (a, b) := by
  have hdet := jacWF_det h
  simp only [Jacobian.getRowcol, Jacobian.getVU, if_neg hd]
  refine ⟨congrArg Except.ok ?_, _, _, rfl, ?_⟩
  · ext
    · simp only
      rw [show j.dudcol * (j.dvdrow * (a - j.row0) + j.dvdcol * (b - j.col0))
        - j.dvdcol * (j.dudrow * (a - j.row0) + j.dudcol * (b - j.col0)) = j.det * (a - j.row0) by
          rw [hdet]; ring, mul_div_cancel_left₀ _ hd]
      ring
    · simp only
      rw [show -j.dudrow * (j.dvdrow * (a - j.row0) + j.dvdcol * (b - j.col0))
        + j.dvdrow * (j.dudrow * (a - j.row0) + j.dudcol * (b - j.col0)) = j.det * (b - j.col0) by
          rw [hdet]; ring, mul_div_cancel_left₀ _ hd]
      ring
  · ext
    · simp only
      have : j.dvdrow * (j.row0 + (j.dudcol * a - j.dvdcol * b) / j.det - j.row0)
          + j.dvdcol * (j.col0 + (-j.dudrow * a + j.dvdrow * b) / j.det - j.col0)
          = (j.dvdrow * j.dudcol - j.dvdcol * j.dudrow) * a / j.det := by ring
      rw [this, ← hdet, mul_div_cancel_left₀ _ hd]
    · simp only
      have : j.dudrow * (j.row0 + (j.dudcol * a - j.dvdcol * b) / j.det - j.row0)
          + j.dudcol * (j.col0 + (-j.dudrow * a + j.dvdrow * b) / j.det - j.col0)
          = (j.dvdrow * j.dudcol - j.dvdcol * j.dudrow) * b / j.det := by ring
      rw [this, ← hdet, mul_div_cancel_left₀ _ hd]

/-- C14: the centre maps to the origin and the map is affine with the stored derivatives. -/
theorem C14_affine (j : Jacobian) (row col : ℝ) :
    j.getVU j.row0 j.col0 = (0, 0) ∧
    j.getVU row col = (j.dvdrow * (row - j.row0) + j.dvdcol * (col - j.col0),
      j.dudrow * (row - j.row0) + j.dudcol * (col - j.col0)) := by
  exact ⟨by simp [Jacobian.getVU], rfl⟩

/-- C14: the origin of the tangent plane maps back to the centre. -/
theorem C14_origin (j : Jacobian) (hd : j.det ≠ 0) : j.getRowcol 0 0 = .ok (j.row0, j.col0) := by
  simp [Jacobian.getRowcol, hd]

/-- C14: with a zero determinant `get_rowcol` raises ZeroDivisionError everywhere, and nowhere otherwise. -/
theorem C14_singular (j : Jacobian) (v u : ℝ) :
    (j.det = 0 → j.getRowcol v u = .error .zeroDiv) ∧ (j.det ≠ 0 → ∃ x, j.getRowcol v u = .ok x) := by
  unfold Jacobian.getRowcol
  by_cases h : j.det = 0 <;> simp [h]

example : ∃ j : Jacobian, JacWF j ∧ j.det ≠ 0 ∧ j.dvdcol ≠ 0 :=
  ⟨Jacobian.finishInit 3 4 0.26 0.01 (-0.02) 0.27, finishInit_wf _ _ _ _ _ _,
    by simp [Jacobian.finishInit]; norm_num, by simp [Jacobian.finishInit]; norm_num⟩

/-! ## C15 -/

/-- C15: a dictionary with all six row/col keywords and no `x` gives exactly that Jacobian. -/
theorem C15_rowcol_construction (kw : Kw) (row col dvdrow dvdcol dudrow dudcol : ℝ)
    (hx : kw.num "x" = none) (hw : kw.wcs = none)
    (h1 : kw.num "row" = some row) (h2 : kw.num "col" = some col)
    (h3 : kw.num "dvdrow" = some dvdrow) (h4 : kw.num "dvdcol" = some dvdcol)
    (h5 : kw.num "dudrow" = some dudrow) (h6 : kw.num "dudcol" = some dudcol) :
    ∃ j, Jacobian.new kw = .ok j ∧ JacWF j ∧ j.row0 = row ∧ j.col0 = col ∧ j.dvdrow = dvdrow ∧
      j.dvdcol = dvdcol ∧ j.dudrow = dudrow ∧ j.dudcol = dudcol := by
  refine ⟨Jacobian.finishInit row col dvdrow dvdcol dudrow dudcol, ?_, finishInit_wf _ _ _ _ _ _,
    rfl, rfl, rfl, rfl, rfl, rfl⟩
  simp [Jacobian.new, Kw.has, hx, h1, Jacobian.initRowcol, hw, rowcolReq, h2, h3, h4, h5, h6,
    Kw.get, bind, Except.bind]

/-- C15: a dictionary with all six x/y keywords gives the Jacobian with row=y, col=x and the
derivatives renamed accordingly. -/
theorem C15_xy_construction (kw : Kw) (x y dudx dudy dvdx dvdy : ℝ) (hw : kw.wcs = none)
    (h1 : kw.num "x" = some x) (h2 : kw.num "y" = some y)
    (h3 : kw.num "dudx" = some dudx) (h4 : kw.num "dudy" = some dudy)
    (h5 : kw.num "dvdx" = some dvdx) (h6 : kw.num "dvdy" = some dvdy) :
    ∃ j, Jacobian.new kw = .ok j ∧ JacWF j ∧ j.row0 = y ∧ j.col0 = x ∧ j.dvdrow = dvdy ∧
      j.dvdcol = dvdx ∧ j.dudrow = dudy ∧ j.dudcol = dudx := by
  refine ⟨Jacobian.finishInit y x dvdy dvdx dudy dudx, ?_, finishInit_wf _ _ _ _ _ _,
    rfl, rfl, rfl, rfl, rfl, rfl⟩
  simp [Jacobian.new, Kw.has, h1, Jacobian.initXY, hw, xyReq, h2, h3, h4, h5, h6,
    Kw.get, bind, Except.bind]

theorem jac_ext {a b : Jacobian} (ha : JacWF a) (hb : JacWF b) (h1 : a.row0 = b.row0)
    (h2 : a.col0 = b.col0) (h3 : a.dvdrow = b.dvdrow) (h4 : a.dvdcol = b.dvdcol)
    (h5 : a.dudrow = b.dudrow) (h6 : a.dudcol = b.dudcol) : a = b := by
  have hdet : a.det = b.det := by rw [jacWF_det ha, jacWF_det hb, h3, h4, h5, h6]
  exact Jacobian.ext h1 h2 h3 h4 h5 h6 hdet (by rw [ha.2, hb.2, hdet])

/-- C15: the two conventions give equal objects when their values match. -/
theorem C15_conventions_agree (kw kw' : Kw) (row col a b c d : ℝ)
    (hw : kw.wcs = none) (hw' : kw'.wcs = none) (hx : kw'.num "x" = none)
    (h1 : kw.num "x" = some col) (h2 : kw.num "y" = some row)
    (h3 : kw.num "dudx" = some d) (h4 : kw.num "dudy" = some c)
    (h5 : kw.num "dvdx" = some b) (h6 : kw.num "dvdy" = some a)
    (k1 : kw'.num "row" = some row) (k2 : kw'.num "col" = some col)
    (k3 : kw'.num "dvdrow" = some a) (k4 : kw'.num "dvdcol" = some b)
    (k5 : kw'.num "dudrow" = some c) (k6 : kw'.num "dudcol" = some d) :
    ∃ j, Jacobian.new kw = .ok j ∧ Jacobian.new kw' = .ok j := by
  obtain ⟨j, hj, hwf, e1, e2, e3, e4, e5, e6⟩ := C15_xy_construction kw _ _ _ _ _ _ hw h1 h2 h3 h4 h5 h6
  obtain ⟨j', hj', hwf', f1, f2, f3, f4, f5, f6⟩ :=
    C15_rowcol_construction kw' _ _ _ _ _ _ hx hw' k1 k2 k3 k4 k5 k6
  have : j = j' := jac_ext hwf hwf' (e1.trans f1.symm) (e2.trans f2.symm) (e3.trans f3.symm)
    (e4.trans f4.symm) (e5.trans f5.symm) (e6.trans f6.symm)
  exact ⟨j, hj, this ▸ hj'⟩

/-- C15: construction from a galsim wcs uses its four derivatives, in either convention, and
`get_galsim_wcs` gives the same wcs back. -/
theorem C15_wcs_construction (kw : Kw) (w : Wcs) (hw : kw.wcs = some w) (a b : ℝ) :
    (kw.num "x" = some a → kw.num "y" = some b →
      ∃ j, Jacobian.new kw = .ok j ∧ JacWF j ∧ j.row0 = b ∧ j.col0 = a ∧ j.galsimWcs = w ∧
        j.dvdrow = w.dvdy ∧ j.dvdcol = w.dvdx ∧ j.dudrow = w.dudy ∧ j.dudcol = w.dudx) ∧
    (kw.num "x" = none → kw.num "row" = some a → kw.num "col" = some b →
      ∃ j, Jacobian.new kw = .ok j ∧ JacWF j ∧ j.row0 = a ∧ j.col0 = b ∧ j.galsimWcs = w ∧
        j.dvdrow = w.dvdy ∧ j.dvdcol = w.dvdx ∧ j.dudrow = w.dudy ∧ j.dudcol = w.dudx) := by
  constructor
  · intro h1 h2
    refine ⟨Jacobian.finishInit b a w.dvdy w.dvdx w.dudy w.dudx, ?_, finishInit_wf _ _ _ _ _ _,
      rfl, rfl, rfl, rfl, rfl, rfl, rfl⟩
    simp [Jacobian.new, Kw.has, h1, Jacobian.initXY, hw, h2, Kw.get, bind, Except.bind]
  · intro hx h1 h2
    refine ⟨Jacobian.finishInit a b w.dvdy w.dvdx w.dudy w.dudx, ?_, finishInit_wf _ _ _ _ _ _,
      rfl, rfl, rfl, rfl, rfl, rfl, rfl⟩
    simp [Jacobian.new, Kw.has, hx, h1, Jacobian.initRowcol, hw, h2, Kw.get, bind, Except.bind]

theorem get_ok {kw : Kw} {k : String} {P : Prop}
    (h : kw.has k = true) (H : ∀ x, kw.num k = some x → P) : P := by
  unfold Kw.has at h
  obtain ⟨x, hx⟩ := Option.isSome_iff_exists.1 h
  exact H x hx

/-- C15: every Jacobian that can be constructed has the determinant and scale of its
derivatives. -/
theorem C15_constructed_wellformed (kw : Kw) (j : Jacobian) (h : Jacobian.new kw = .ok j) :
    JacWF j := by
  unfold Jacobian.new at h
  split_ifs at h with hx hr
  · unfold Jacobian.initXY at h
    cases hw : kw.wcs with
    | some w =>
      simp only [hw, Kw.get] at h
      cases hy : kw.num "y" <;> cases hxx : kw.num "x" <;>
        simp [hy, hxx, bind, Except.bind] at h
      rw [← h]; exact finishInit_wf _ _ _ _ _ _
    | none =>
      simp only [hw] at h
      split_ifs at h with hreq
      simp only [xyReq, List.any_cons, List.any_nil, Bool.or_false, Bool.or_eq_true,
        Bool.not_eq_true', not_or, Bool.not_eq_false] at hreq
      obtain ⟨a1, a2, a3, a4, a5, a6⟩ := hreq
      refine get_ok a1 fun x1 y1 => get_ok a2 fun x2 y2 => get_ok a3 fun x3 y3 =>
        get_ok a4 fun x4 y4 => get_ok a5 fun x5 y5 => get_ok a6 fun x6 y6 => ?_
      simp [Kw.get, y1, y2, y3, y4, y5, y6, bind, Except.bind] at h
      rw [← h]; exact finishInit_wf _ _ _ _ _ _
  · unfold Jacobian.initRowcol at h
    cases hw : kw.wcs with
    | some w =>
      simp only [hw, Kw.get] at h
      cases hy : kw.num "row" <;> cases hxx : kw.num "col" <;>
        simp [hy, hxx, bind, Except.bind] at h
      rw [← h]; exact finishInit_wf _ _ _ _ _ _
    | none =>
      simp only [hw] at h
      split_ifs at h with hreq
      simp only [rowcolReq, List.any_cons, List.any_nil, Bool.or_false, Bool.or_eq_true,
        Bool.not_eq_true', not_or, Bool.not_eq_false] at hreq
      obtain ⟨a1, a2, a3, a4, a5, a6⟩ := hreq
      refine get_ok a1 fun x1 y1 => get_ok a2 fun x2 y2 => get_ok a3 fun x3 y3 =>
        get_ok a4 fun x4 y4 => get_ok a5 fun x5 y5 => get_ok a6 fun x6 y6 => ?_
      simp [Kw.get, y1, y2, y3, y4, y5, y6, bind, Except.bind] at h
      rw [← h]; exact finishInit_wf _ _ _ _ _ _

/-- C15: missing keywords raise: `ValueError` with neither `x` nor `row`, or (without a wcs) any of the
six required names of the chosen convention missing; with a wcs, `KeyError` without the second
coordinate. -/
theorem C15_missing_keyword (kw : Kw) :
    (kw.num "x" = none → kw.num "row" = none → Jacobian.new kw = .error .value) ∧
    (kw.wcs = none → kw.num "x" ≠ none →
      (∃ k ∈ ["x", "y", "dudx", "dudy", "dvdx", "dvdy"], kw.num k = none) →
      Jacobian.new kw = .error .value) ∧
    (kw.wcs = none → kw.num "x" = none → kw.num "row" ≠ none →
      (∃ k ∈ ["row", "col", "dvdrow", "dvdcol", "dudrow", "dudcol"], kw.num k = none) →
      Jacobian.new kw = .error .value) ∧
    (kw.wcs ≠ none → kw.num "x" ≠ none → kw.num "y" = none → Jacobian.new kw = .error .key) ∧
    (kw.wcs ≠ none → kw.num "x" = none → kw.num "row" ≠ none → kw.num "col" = none →
      Jacobian.new kw = .error .key) := by
  refine ⟨?_, ?_, ?_, ?_, ?_⟩
  · intro h1 h2; simp [Jacobian.new, Kw.has, h1, h2]
  · intro hw hx ⟨k, hk, hkn⟩
    have hx' : kw.has "x" = true := by
      unfold Kw.has; exact Option.isSome_iff_ne_none.2 hx
    simp only [Jacobian.new, hx', if_true, Jacobian.initXY, hw]
    rw [if_pos]
    rw [List.any_eq_true]
    exact ⟨k, hk, by simp [Kw.has, hkn]⟩
  · intro hw hx hr ⟨k, hk, hkn⟩
    have hr' : kw.has "row" = true := by
      unfold Kw.has; exact Option.isSome_iff_ne_none.2 hr
    have hx' : kw.has "x" = false := by simp [Kw.has, hx]
    simp only [Jacobian.new, hx', hr', if_true, Jacobian.initRowcol, hw, Bool.false_eq_true,
      if_false]
    rw [if_pos]
    rw [List.any_eq_true]
    exact ⟨k, hk, by simp [Kw.has, hkn]⟩
  · intro hw hx hy
    obtain ⟨w, hw⟩ := Option.ne_none_iff_exists'.1 hw
    obtain ⟨x, hx⟩ := Option.ne_none_iff_exists'.1 hx
    simp [Jacobian.new, Kw.has, hx, Jacobian.initXY, hw, Kw.get, hy, bind, Except.bind]
  · intro hw hx hr hc
    obtain ⟨w, hw⟩ := Option.ne_none_iff_exists'.1 hw
    obtain ⟨r, hr⟩ := Option.ne_none_iff_exists'.1 hr
    simp [Jacobian.new, Kw.has, hx, hr, Jacobian.initRowcol, hw, Kw.get, hc, bind, Except.bind]

/-- C15: `set_cen` changes only the centre; row/col take precedence over x/y (x is the column);
with neither `row` nor `x` it raises `ValueError`, with `x` but not `y` `KeyError`, and changes
nothing. -/
theorem C15_set_cen (j : Jacobian) (kw : Kw) :
    (∀ r c, kw.num "row" = some r → kw.num "col" = some c →
      j.setCen kw = ({ j with row0 := r, col0 := c }, .ok ())) ∧
    (∀ x y, kw.num "row" = none → kw.num "x" = some x → kw.num "y" = some y →
      j.setCen kw = ({ j with row0 := y, col0 := x }, .ok ())) ∧
    (kw.num "row" = none → kw.num "x" = none → j.setCen kw = (j, .error .value)) ∧
    (kw.num "row" = none → kw.num "x" ≠ none → kw.num "y" = none → j.setCen kw = (j, .error .key)) ∧
    (JacWF j → JacWF (j.setCen kw).1 ∧ (j.setCen kw).1.dvdrow = j.dvdrow ∧
      (j.setCen kw).1.dvdcol = j.dvdcol ∧ (j.setCen kw).1.dudrow = j.dudrow ∧
      (j.setCen kw).1.dudcol = j.dudcol) := by
  refine ⟨?_, ?_, ?_, ?_, ?_⟩
  · intro r c h1 h2; simp [Jacobian.setCen, h1, h2]
  · intro x y h0 h1 h2; simp [Jacobian.setCen, h0, h1, h2]
  · intro h0 h1; simp [Jacobian.setCen, h0, h1]
  · intro h0 h1 h2
    obtain ⟨x, h1⟩ := Option.ne_none_iff_exists'.1 h1
    simp [Jacobian.setCen, h0, h1, h2]
  · intro h
    unfold Jacobian.setCen
    cases kw.num "row" <;> cases kw.num "col" <;> cases kw.num "x" <;> cases kw.num "y" <;>
      exact ⟨⟨h.1, h.2⟩, rfl, rfl, rfl, rfl⟩

/-- C15 counterexample (code as it is): `set_cen(row=r)` without `col` raises `KeyError` but has
already moved the row. -/
theorem C15_set_cen_crash_point (j : Jacobian) (kw : Kw) (r : ℝ) (h : kw.num "row" = some r)
    (hc : kw.num "col" = none) (hr : r ≠ j.row0) :
    (j.setCen kw).2 = .error .key ∧ (j.setCen kw).1.row0 = r ∧ (j.setCen kw).1 ≠ j := by
  have e : j.setCen kw = ({ j with row0 := r }, .error .key) := by simp [Jacobian.setCen, h, hc]
  rw [e]
  refine ⟨rfl, rfl, fun hh => hr ?_⟩
  have := congrArg Jacobian.row0 hh
  exact this

/-- C15: copying a (constructed) Jacobian succeeds and gives an equal object. -/
theorem C15_copy (j : Jacobian) (h : JacWF j) : j.copy = .ok j := by
  have : Jacobian.finishInit j.row0 j.col0 j.dvdrow j.dvdcol j.dudrow j.dudcol = j :=
    jac_ext (finishInit_wf _ _ _ _ _ _) h rfl rfl rfl rfl rfl rfl
  unfold Jacobian.copy
  simp [Jacobian.new, Kw.ofList, Kw.has, Jacobian.initRowcol, rowcolReq, List.lookup,
    Kw.get, bind, Except.bind]
  exact this

/-- C15: `DiagonalJacobian` has the scale on the diagonal and zero elsewhere; `UnitJacobian` is
scale 1; both conventions put the centre at row=y, col=x; a missing partner is an assertion. -/
theorem C15_diagonal (kw : Kw) (s a b : ℝ) :
    (kw.num "x" = none → kw.num "row" = some a → kw.num "col" = some b →
      ∃ j, Jacobian.diagonal s kw = .ok j ∧ JacWF j ∧ j.row0 = a ∧ j.col0 = b ∧
        j.dvdrow = s ∧ j.dvdcol = 0 ∧ j.dudrow = 0 ∧ j.dudcol = s) ∧
    (kw.num "x" = some b → kw.num "y" = some a →
      ∃ j, Jacobian.diagonal s kw = .ok j ∧ JacWF j ∧ j.row0 = a ∧ j.col0 = b ∧
        j.dvdrow = s ∧ j.dvdcol = 0 ∧ j.dudrow = 0 ∧ j.dudcol = s) ∧
    (kw.num "x" = some b → kw.num "y" = none → Jacobian.diagonal s kw = .error .assertion) ∧
    (kw.num "x" = none → kw.num "row" = some a → kw.num "col" = none →
      Jacobian.diagonal s kw = .error .assertion) ∧
    (kw.num "x" = none → kw.num "row" = none → Jacobian.diagonal s kw = .error .value) ∧
    Jacobian.unit kw = Jacobian.diagonal 1 kw := by
  refine ⟨?_, ?_, ?_, ?_, ?_, rfl⟩
  · intro hx hr hc
    refine ⟨Jacobian.finishInit a b s 0 0 s, ?_, finishInit_wf _ _ _ _ _ _, rfl, rfl, rfl, rfl, rfl, rfl⟩
    simp [Jacobian.diagonal, Kw.has, hx, hr, hc, Kw.get, bind, Except.bind, Jacobian.new, Kw.ofList,
      List.lookup, Jacobian.initRowcol, rowcolReq]
  · intro hx hy
    refine ⟨Jacobian.finishInit a b s 0 0 s, ?_, finishInit_wf _ _ _ _ _ _, rfl, rfl, rfl, rfl, rfl, rfl⟩
    simp [Jacobian.diagonal, Kw.has, hx, hy, Kw.get, bind, Except.bind, Jacobian.new, Kw.ofList,
      List.lookup, Jacobian.initXY, xyReq]
  · intro hx hy; simp [Jacobian.diagonal, Kw.has, hx, hy]
  · intro hx hr hc; simp [Jacobian.diagonal, Kw.has, hx, hr, hc]
  · intro hx hr; simp [Jacobian.diagonal, Kw.has, hx, hr]

example : ∃ kw : Kw, kw.num "x" = none ∧ kw.wcs = none ∧ kw.num "row" = some 3 ∧
    kw.num "col" = some 4 ∧ kw.num "dvdrow" = some 0.2 ∧ kw.num "dvdcol" = some 0.01 ∧
    kw.num "dudrow" = some 0.02 ∧ kw.num "dudcol" = some 0.3 :=
  ⟨Kw.ofList [("row", 3), ("col", 4), ("dvdrow", 0.2), ("dvdcol", 0.01), ("dudrow", 0.02),
    ("dudcol", 0.3)], by simp [Kw.ofList, List.lookup]⟩

example : ∃ kw : Kw, kw.num "x" = some 1 ∧ kw.num "y" = some 2 ∧ kw.wcs = none ∧
    kw.num "dudx" = some 3 ∧ kw.num "dudy" = some 4 ∧ kw.num "dvdx" = some 5 ∧ kw.num "dvdy" = some 6 :=
  ⟨Kw.ofList [("x", 1), ("y", 2), ("dudx", 3), ("dudy", 4), ("dvdx", 5), ("dvdy", 6)],
    by simp [Kw.ofList, List.lookup]⟩

/-! ## C16 -/

/-- C16: `area = |det| = scale^2`, nonnegative, and it is the factor by which the map scales the
(signed) area of every parallelogram spanned by two image displacements. -/
theorem C16_area (j : Jacobian) (h : JacWF j) :
    j.area = |j.det| ∧ j.area = j.scale ^ 2 ∧ 0 ≤ j.scale ∧
    (∀ r c dr1 dc1 dr2 dc2 : ℝ,
      let p := j.getVU r c
      let p1 := j.getVU (r + dr1) (c + dc1)
      let p2 := j.getVU (r + dr2) (c + dc2)
      |(p1.1 - p.1) * (p2.2 - p.2) - (p1.2 - p.2) * (p2.1 - p.1)|
        = j.area * |dr1 * dc2 - dc1 * dr2|) := by
  have ha : j.area = |j.det| := by
    unfold Jacobian.area; rw [h.2, Real.sq_sqrt (abs_nonneg _)]
  refine ⟨ha, rfl, by rw [h.2]; exact Real.sqrt_nonneg _, ?_⟩
  intro r c dr1 dc1 dr2 dc2 p p1 p2
  rw [ha, ← abs_mul, jacWF_det h]
  congr 1
  simp only [p, p1, p2, Jacobian.getVU]
  ring

/-- C16: a diagonal Jacobian has area `s^2` and scale `|s|`. -/
theorem C16_diagonal_area (s a b : ℝ) (kw : Kw) (hx : kw.num "x" = none)
    (hr : kw.num "row" = some a) (hc : kw.num "col" = some b) :
    ∃ j, Jacobian.diagonal s kw = .ok j ∧ j.area = s ^ 2 ∧ j.scale = |s| := by
  obtain ⟨j, hj, hwf, -, -, e1, e2, e3, e4⟩ := (C15_diagonal kw s a b).1 hx hr hc
  have hdet : j.det = s ^ 2 := by rw [jacWF_det hwf, e1, e2, e3, e4]; ring
  refine ⟨j, hj, ?_, ?_⟩
  · rw [(C16_area j hwf).1, hdet, abs_of_nonneg (sq_nonneg s)]
  · rw [hwf.2, hdet, abs_of_nonneg (sq_nonneg s), Real.sqrt_sq_eq_abs]

example : JacWF (Jacobian.finishInit 3 4 0.26 0.01 (-0.02) 0.27) := finishInit_wf _ _ _ _ _ _

end Ngmix.Props
