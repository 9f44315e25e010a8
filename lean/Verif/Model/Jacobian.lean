import Mathlib.Analysis.SpecialFunctions.Sqrt
import Verif.Model.Basic

/-!
# Model of `/repo/ngmix/jacobian/jacobian.py` and `jacobian_nb.py`
-/

namespace Ngmix

noncomputable section

/-- The one-row structured array of `jacobian.py:406-414` (`_jacobian_dtype`); the fields are what the getters of
`jacobian.py:70-138` return. -/
@[ext] structure Jacobian where
  row0 : ℝ
  col0 : ℝ
  dvdrow : ℝ
  dvdcol : ℝ
  dudrow : ℝ
  dudcol : ℝ
  det : ℝ
  scale : ℝ

/-- A galsim local WCS as read by `jacobian.py:297-304` (`_extract_wcs`). -/
structure Wcs where
  dudx : ℝ
  dudy : ℝ
  dvdx : ℝ
  dvdy : ℝ

/-- Keyword arguments of the constructors: numeric keywords, and the optional `wcs=`.  `jacobian.py:60-68`. -/
structure Kw where
  num : String → Option ℝ
  wcs : Option Wcs := none

/-- `'k' in kw`.  `jacobian.py:62, 266`. -/
def Kw.has (kw : Kw) (k : String) : Bool := (kw.num k).isSome

/-- `kw['k']`, a `KeyError` when absent.  `jacobian.py:262-295`. -/
def Kw.get (kw : Kw) (k : String) : Except PyErr ℝ :=
  match kw.num k with
  | some x => .ok x
  | none => .error .key

/-- `jacobian.py:306-317` `_finish_init`. -/
def Jacobian.finishInit (row0 col0 dvdrow dvdcol dudrow dudcol : ℝ) : Jacobian :=
  let det := dvdrow * dudcol - dvdcol * dudrow
  { row0 := row0, col0 := col0, dvdrow := dvdrow, dvdcol := dvdcol, dudrow := dudrow,
    dudcol := dudcol, det := det, scale := Real.sqrt |det| }

/-- `jacobian.py:416-421` `_ROWCOL_REQ`. -/
def rowcolReq : List String := ["row", "col", "dvdrow", "dvdcol", "dudrow", "dudcol"]

/-- `jacobian.py:423-428` `_XY_REQ`. -/
def xyReq : List String := ["x", "y", "dudx", "dudy", "dvdx", "dvdy"]

/-- `jacobian.py:262-278` `_init_rowcol`. -/
def Jacobian.initRowcol (kw : Kw) : Except PyErr Jacobian :=
  match kw.wcs with
  | some w => do
      let row ← kw.get "row"
      let col ← kw.get "col"
      .ok (Jacobian.finishInit row col w.dvdy w.dvdx w.dudy w.dudx)
  | none =>
      if rowcolReq.any (fun k => !kw.has k) then .error .value
      else do
        let dvdrow ← kw.get "dvdrow"
        let dvdcol ← kw.get "dvdcol"
        let dudrow ← kw.get "dudrow"
        let dudcol ← kw.get "dudcol"
        let row ← kw.get "row"
        let col ← kw.get "col"
        .ok (Jacobian.finishInit row col dvdrow dvdcol dudrow dudcol)

/-- `jacobian.py:280-295` `_init_xy`. -/
def Jacobian.initXY (kw : Kw) : Except PyErr Jacobian :=
  match kw.wcs with
  | some w => do
      let y ← kw.get "y"
      let x ← kw.get "x"
      .ok (Jacobian.finishInit y x w.dvdy w.dvdx w.dudy w.dudx)
  | none =>
      if xyReq.any (fun k => !kw.has k) then .error .value
      else do
        let dvdrow ← kw.get "dvdy"
        let dvdcol ← kw.get "dvdx"
        let dudrow ← kw.get "dudy"
        let dudcol ← kw.get "dudx"
        let y ← kw.get "y"
        let x ← kw.get "x"
        .ok (Jacobian.finishInit y x dvdrow dvdcol dudrow dudcol)

/-- `jacobian.py:60-68` `Jacobian.__init__`. -/
def Jacobian.new (kw : Kw) : Except PyErr Jacobian :=
  if kw.has "x" then Jacobian.initXY kw
  else if kw.has "row" then Jacobian.initRowcol kw
  else .error .value

/-- Keyword dictionary with the given numeric entries.  `jacobian.py:358-377`. -/
def Kw.ofList (l : List (String × ℝ)) : Kw := ⟨fun k => l.lookup k, none⟩

/-- `jacobian.py:358-377` `DiagonalJacobian.__init__`. -/
def Jacobian.diagonal (scale : ℝ) (kw : Kw) : Except PyErr Jacobian :=
  if kw.has "x" then
    if !kw.has "y" then .error .assertion
    else do
      let x ← kw.get "x"
      let y ← kw.get "y"
      Jacobian.new (Kw.ofList [("x", x), ("y", y), ("dudx", scale), ("dudy", 0), ("dvdx", 0),
        ("dvdy", scale)])
  else if kw.has "row" then
    if !kw.has "col" then .error .assertion
    else do
      let row ← kw.get "row"
      let col ← kw.get "col"
      Jacobian.new (Kw.ofList [("row", row), ("col", col), ("dvdrow", scale), ("dvdcol", 0),
        ("dudrow", 0), ("dudcol", scale)])
  else .error .value

/-- `jacobian.py:402-403` `UnitJacobian.__init__`. -/
def Jacobian.unit (kw : Kw) : Except PyErr Jacobian := Jacobian.diagonal 1 kw

/-- `jacobian.py:198-220` `set_cen`: the object left behind and the outcome.  The two centre
coordinates are assigned one after the other, so a missing second keyword (`KeyError`)
leaves the first one changed. -/
def Jacobian.setCen (j : Jacobian) (kw : Kw) : Jacobian × Except PyErr Unit :=
  match kw.num "row" with
  | some r =>
      let j := { j with row0 := r }
      match kw.num "col" with
      | some c => ({ j with col0 := c }, .ok ())
      | none => (j, .error .key)
  | none =>
      match kw.num "x" with
      | some x =>
          match kw.num "y" with
          | some y => ({ j with row0 := y, col0 := x }, .ok ())
          | none => (j, .error .key)
      | none => (j, .error .value)

/-- `jacobian.py:222-231` `copy` (rebuilds from the stored values), also `__copy__` and `__deepcopy__`, `:233-239`. -/
def Jacobian.copy (j : Jacobian) : Except PyErr Jacobian :=
  Jacobian.new (Kw.ofList [("row", j.row0), ("col", j.col0), ("dudrow", j.dudrow),
    ("dudcol", j.dudcol), ("dvdrow", j.dvdrow), ("dvdcol", j.dvdcol)])

/-- `jacobian.py:241-247` `__eq__` between two Jacobians: all stored fields equal. -/
def Jacobian.pyEq (a b : Jacobian) : Prop := a = b

/-- `jacobian_nb.py:5-16` `jacobian_get_vu`; `jacobian.py:146-161` `get_vu` and `:180-182` `__call__`. -/
def Jacobian.getVU (j : Jacobian) (row col : ℝ) : ℝ × ℝ :=
  let rowdiff := row - j.row0
  let coldiff := col - j.col0
  (j.dvdrow * rowdiff + j.dvdcol * coldiff, j.dudrow * rowdiff + j.dudcol * coldiff)

/-- `jacobian_nb.py:20-31` `jacobian_get_rowcol`; `jacobian.py:163-178` `get_rowcol`.  numba raises ZeroDivisionError when the
determinant is zero. -/
def Jacobian.getRowcol (j : Jacobian) (v u : ℝ) : Except PyErr (ℝ × ℝ) :=
  let rowdiff := j.dudcol * v - j.dvdcol * u
  let coldiff := -j.dudrow * v + j.dvdrow * u
  open Classical in
  if j.det = 0 then .error .zeroDiv
  else .ok (j.row0 + rowdiff / j.det, j.col0 + coldiff / j.det)

/-- `jacobian_nb.py:35-40` `jacobian_get_area` and `jacobian.py:140-144` `get_area`. -/
def Jacobian.area (j : Jacobian) : ℝ := j.scale ^ 2

/-- `jacobian.py:249-260` `get_galsim_wcs`, the derivatives handed to galsim. -/
def Jacobian.galsimWcs (j : Jacobian) : Wcs :=
  { dudx := j.dudcol, dudy := j.dudrow, dvdx := j.dvdcol, dvdy := j.dvdrow }

end

end Ngmix
