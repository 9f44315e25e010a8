import Mathlib.Analysis.SpecialFunctions.Artanh
import Mathlib.Analysis.SpecialFunctions.Trigonometric.Basic
import Verif.Model.Basic

/-!
# Model of `/repo/ngmix/shape.py`

Simplification used throughout: doubles are real numbers.
-/

namespace Ngmix

noncomputable section

/-- `shape.py:6` `ONE_MINUS_EPS`, the literal's decimal value. -/
def oneMinusEps : ℝ := 0.9999999999999999

/-- `shape.py:9-35` `shear_reduced` (scalar arguments), where the denominator does not vanish. -/
def shearReduced (g1 g2 s1 s2 : ℝ) : ℝ × ℝ :=
  let A := 1 + g1 * s1 + g2 * s2
  let B := g2 * s1 - g1 * s2
  let denomInv := 1 / (A * A + B * B)
  let g1o := A * (g1 + s1) + B * (g2 + s2)
  let g2o := A * (g2 + s2) - B * (g1 + s1)
  (g1o * denomInv, g2o * denomInv)

/-- `shape.py:38-60` the attributes of a `Shape` object.  `g` is the cached
size, `none` before it was ever assigned (an object whose `__init__` raised is
not reachable by the caller, so `none` never shows up in a live object). -/
structure ShapeObj where
  g1 : ℝ
  g2 : ℝ
  g : ℝ

/-- `shape.py:58-66` `Shape.__init__`: on a range error no object is produced. -/
def ShapeObj.new (g1 g2 : ℝ) : Except PyErr ShapeObj :=
  let g := Real.sqrt (g1 * g1 + g2 * g2)
  if g ≥ 1 then .error .gmixRange else .ok ⟨g1, g2, g⟩

/-- `shape.py:68-83` `Shape.set_g1g2`: the object left behind, and the outcome.
The components are assigned before the range check, `g` after it. -/
def ShapeObj.setG1G2 (s : ShapeObj) (g1 g2 : ℝ) : ShapeObj × Except PyErr Unit :=
  let s1 := { s with g1 := g1, g2 := g2 }
  let g := Real.sqrt (g1 * g1 + g2 * g2)
  if g ≥ 1 then (s1, .error .gmixRange) else ({ s1 with g := g }, .ok ())

/-- The argument of `get_sheared`: a `Shape`, or a scalar with optional second
component (`shape.py:85-109`). -/
inductive ShearArg
  | shape (s : ShapeObj)
  | scalars (s1 : ℝ) (s2 : Option ℝ)

/-- `shape.py:9-35` `shear_reduced` on Python floats, where a vanishing denominator (line 27) is a ZeroDivisionError (numpy
floats would give NaN). -/
def shearReducedE (g1 g2 s1 s2 : ℝ) : Except PyErr (ℝ × ℝ) :=
  open Classical in
  if (1 + g1 * s1 + g2 * s2) * (1 + g1 * s1 + g2 * s2) + (g2 * s1 - g1 * s2) * (g2 * s1 - g1 * s2) = 0 then
    .error .zeroDiv
  else .ok (shearReduced g1 g2 s1 s2)

/-- `shape.py:85-112` `Shape.get_sheared`. -/
def ShapeObj.getSheared (s : ShapeObj) : ShearArg → Except PyErr ShapeObj
  | .shape sh => (shearReducedE s.g1 s.g2 sh.g1 sh.g2).bind fun r => ShapeObj.new r.1 r.2
  | .scalars _ none => .error .value
  | .scalars s1 (some s2) => (shearReducedE s.g1 s.g2 s1 s2).bind fun r => ShapeObj.new r.1 r.2

/-- `shape.py:114-118` `Shape.__neg__`. -/
def ShapeObj.neg (s : ShapeObj) : Except PyErr ShapeObj := ShapeObj.new (-s.g1) (-s.g2)

/-- `shape.py:492-517` `rotate_shape`. -/
def rotateShape (g1 g2 theta : ℝ) : ℝ × ℝ :=
  let twotheta := 2 * theta
  let c := Real.cos twotheta
  let s := Real.sin twotheta
  (g1 * c + g2 * s, -g1 * s + g2 * c)

/-- `shape.py:120-141` `Shape.get_rotated`. -/
def ShapeObj.getRotated (s : ShapeObj) (theta : ℝ) : Except PyErr ShapeObj :=
  let twotheta := 2 * theta
  let c := Real.cos twotheta
  let sn := Real.sin twotheta
  ShapeObj.new (s.g1 * c + s.g2 * sn) (-s.g1 * sn + s.g2 * c)

/-- `shape.py:143-161` `Shape.rotate` (in place). -/
def ShapeObj.rotate (s : ShapeObj) (theta : ℝ) : ShapeObj × Except PyErr Unit :=
  let twotheta := 2 * theta
  let c := Real.cos twotheta
  let sn := Real.sin twotheta
  s.setG1G2 (s.g1 * c + s.g2 * sn) (-s.g1 * sn + s.g2 * c)

/-- `shape.py:163-173` `Shape.copy`. -/
def ShapeObj.copy (s : ShapeObj) : Except PyErr ShapeObj := ShapeObj.new s.g1 s.g2

/-- `shape.py:179-235` `g1g2_to_e1e2`, scalar branch (lines 219-233). -/
def g1g2ToE1E2 (g1 g2 : ℝ) : Except PyErr (ℝ × ℝ) :=
  let g := Real.sqrt (g1 * g1 + g2 * g2)
  if g ≥ 1 then .error .gmixRange
  else if g = 0 then .ok (0, 0)
  else
    let eta := 2 * Real.artanh g
    let e := Real.tanh eta
    let e := if e ≥ 1 then oneMinusEps else e
    let fac := e / g
    .ok (fac * g1, fac * g2)

/-- `shape.py:179-235` `g1g2_to_e1e2`, array branch (lines 200-217): element-wise except that any
bad element rejects the whole array, and `e` is clipped at `ONE_MINUS_EPS`. -/
def g1g2ToE1E2Arr (gs : List (ℝ × ℝ)) : Except PyErr (List (ℝ × ℝ)) :=
  open Classical in
  if ∃ p ∈ gs, Real.sqrt (p.1 * p.1 + p.2 * p.2) ≥ 1 then .error .gmixRange
  else .ok (gs.map fun p =>
    let g := Real.sqrt (p.1 * p.1 + p.2 * p.2)
    let eta := 2 * Real.artanh g
    let e := min (max (Real.tanh eta) 0) oneMinusEps
    if g ≠ 0 then (e / g * p.1, e / g * p.2) else (0, 0))

/-- `shape.py:238-293` `e1e2_to_g1g2`, scalar branch (lines 273-291). -/
def e1e2ToG1G2 (e1 e2 : ℝ) : Except PyErr (ℝ × ℝ) :=
  let e := Real.sqrt (e1 * e1 + e2 * e2)
  if e ≥ 1 then .error .gmixRange
  else if e = 0 then .ok (0, 0)
  else
    let eta := Real.artanh e
    let g := Real.tanh (0.5 * eta)
    let g := if g ≥ 1 then oneMinusEps else g
    let fac := g / e
    .ok (fac * e1, fac * e2)

/-- `shape.py:238-293` `e1e2_to_g1g2`, array branch (lines 254-271). -/
def e1e2ToG1G2Arr (es : List (ℝ × ℝ)) : Except PyErr (List (ℝ × ℝ)) :=
  open Classical in
  if ∃ p ∈ es, Real.sqrt (p.1 * p.1 + p.2 * p.2) ≥ 1 then .error .gmixRange
  else .ok (es.map fun p =>
    let e := Real.sqrt (p.1 * p.1 + p.2 * p.2)
    let eta := Real.artanh e
    let g := min (max (Real.tanh (0.5 * eta)) 0) oneMinusEps
    if e ≠ 0 then (g / e * p.1, g / e * p.2) else (0, 0))

/-- `shape.py:296-347` `g1g2_to_eta1eta2`, scalar branch (lines 330-345). -/
def g1g2ToEta (g1 g2 : ℝ) : Except PyErr (ℝ × ℝ) :=
  let g := Real.sqrt (g1 * g1 + g2 * g2)
  if g ≥ 1 then .error .gmixRange
  else if g = 0 then .ok (0, 0)
  else
    let eta := 2 * Real.artanh g
    let fac := eta / g
    .ok (fac * g1, fac * g2)

/-- `shape.py:296-347` `g1g2_to_eta1eta2`, array branch (lines 311-328). -/
def g1g2ToEtaArr (gs : List (ℝ × ℝ)) : Except PyErr (List (ℝ × ℝ)) :=
  open Classical in
  if ∃ p ∈ gs, Real.sqrt (p.1 * p.1 + p.2 * p.2) ≥ 1 then .error .gmixRange
  else .ok (gs.map fun p =>
    let g := Real.sqrt (p.1 * p.1 + p.2 * p.2)
    if g > 0 then
      let eta := 2 * Real.artanh g
      (eta / g * p.1, eta / g * p.2)
    else (0, 0))

/-- `shape.py:350-393` `e1e2_to_eta1eta2`; scalars are wrapped as 1-element
arrays, so one definition over a list models both.  -/
def e1e2ToEtaArr (es : List (ℝ × ℝ)) : Except PyErr (List (ℝ × ℝ)) :=
  open Classical in
  if ∃ p ∈ es, Real.sqrt (p.1 * p.1 + p.2 * p.2) ≥ 1 then .error .gmixRange
  else .ok (es.map fun p =>
    let e := Real.sqrt (p.1 * p.1 + p.2 * p.2)
    if e > 0 then
      let eta := Real.artanh e
      (eta / e * p.1, eta / e * p.2)
    else (0, 0))

/-- `shape.py:396-440` `eta1eta2_to_g1g2` (array; a scalar is a 1-element array).
The range check on `tanh` is modelled although it cannot fire over the reals. -/
def etaToG1G2Arr (etas : List (ℝ × ℝ)) : Except PyErr (List (ℝ × ℝ)) :=
  open Classical in
  if ∃ p ∈ etas, Real.tanh (0.5 * Real.sqrt (p.1 * p.1 + p.2 * p.2)) ≥ 1 then
    .error .gmixRange
  else .ok (etas.map fun p =>
    let eta := Real.sqrt (p.1 * p.1 + p.2 * p.2)
    let g := Real.tanh (0.5 * eta)
    if eta ≠ 0 then (g / eta * p.1, g / eta * p.2) else (0, 0))

/-- `shape.py:443-468` `dgs_by_dgo_jacob`. -/
def dgsByDgoJacob (g1 g2 s1 s2 : ℝ) : ℝ :=
  let ssq := s1 * s1 + s2 * s2
  let num := (ssq - 1) ^ 2
  let denom := (1 + 2 * g1 * s1 + 2 * g2 * s2 + g1 ^ 2 * ssq + g2 ^ 2 * ssq) ^ 2
  num / denom

/-- `shape.py:471-489` `get_round_factor`. -/
def getRoundFactor (g1 g2 : ℝ) : ℝ :=
  let gsq := g1 ^ 2 + g2 ^ 2
  (1 - gsq) / (1 + gsq)

end

end Ngmix
