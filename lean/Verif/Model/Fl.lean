import Mathlib.Analysis.SpecialFunctions.Sqrt

/-!
# Floating point values with NaN and infinities

IEEE-754 doubles as numpy scalars treat them (division by zero gives inf/nan with a warning),
except that finite values are exact reals: no rounding, no overflow, one unsigned zero.
Used where the code's behaviour depends on NaN or infinities.
-/

namespace Ngmix

/-- A double: NaN, an infinity or a finite (real) number.  The floats of `moments.py:398-640`, `util.py:57-80`,
`joint_prior.py:86-120` and of the other modules whose behaviour depends on NaN. -/
inductive Fl
  | nan
  | pinf
  | ninf
  | fin (x : ℝ)

namespace Fl

noncomputable section

/-- unary minus.  As in `fitting/results.py:450`. -/
def neg : Fl → Fl
  | nan => nan
  | pinf => ninf
  | ninf => pinf
  | fin x => fin (-x)

/-- addition: `inf + -inf` is NaN.  As in `util.py:68`. -/
def add : Fl → Fl → Fl
  | nan, _ => nan
  | _, nan => nan
  | fin x, fin y => fin (x + y)
  | pinf, ninf => nan
  | ninf, pinf => nan
  | pinf, _ => pinf
  | _, pinf => pinf
  | ninf, _ => ninf
  | _, ninf => ninf

/-- an infinity of the sign of `x`, NaN for zero.  numpy division, `util.py:66-68`. -/
def infOf (x : ℝ) : Fl :=
  open Classical in if x = 0 then nan else if 0 < x then pinf else ninf

/-- multiplication: `inf * 0` is NaN.  As in `util.py:68`. -/
def mul : Fl → Fl → Fl
  | nan, _ => nan
  | _, nan => nan
  | fin x, fin y => fin (x * y)
  | pinf, fin y => infOf y
  | fin x, pinf => infOf x
  | ninf, fin y => infOf (-y)
  | fin x, ninf => infOf (-x)
  | pinf, pinf => pinf
  | ninf, ninf => pinf
  | pinf, ninf => ninf
  | ninf, pinf => ninf

/-- division: `x/0` is an infinity of the sign of `x`, `0/0` and `inf/inf` are NaN.  As in `util.py:66-68`,
`moments.py:462-493`. -/
def div : Fl → Fl → Fl
  | nan, _ => nan
  | _, nan => nan
  | fin x, fin y => open Classical in if y = 0 then infOf x else fin (x / y)
  | fin _, pinf => fin 0
  | fin _, ninf => fin 0
  | pinf, fin y => open Classical in if y < 0 then ninf else pinf
  | ninf, fin y => open Classical in if y < 0 then pinf else ninf
  | pinf, pinf => nan
  | pinf, ninf => nan
  | ninf, pinf => nan
  | ninf, ninf => nan

instance : Add Fl := ⟨add⟩
instance : Mul Fl := ⟨mul⟩
instance : Div Fl := ⟨div⟩
instance : Neg Fl := ⟨neg⟩
instance : Sub Fl := ⟨fun a b => add a (neg b)⟩

/-- `x**2`.  `util.py:66-68`, `moments.py:522`. -/
def sq (x : Fl) : Fl := x * x

/-- `a < b`, false when either is NaN.  `moments.py:460-491`. -/
def lt : Fl → Fl → Prop
  | fin a, fin b => a < b
  | ninf, fin _ => True
  | ninf, pinf => True
  | fin _, pinf => True
  | _, _ => False

/-- `x > 0`.  `moments.py:460-491`. -/
def pos (x : Fl) : Prop := lt (fin 0) x

/-- `x == 0`.  `util.py:62`. -/
def isZero : Fl → Prop
  | fin x => x = 0
  | _ => False

/-- `numpy.sqrt`.  `util.py:79`, `moments.py:461`. -/
def sqrt : Fl → Fl
  | nan => nan
  | pinf => pinf
  | ninf => nan
  | fin x => open Classical in if x < 0 then nan else fin (Real.sqrt x)

/-- `numpy.clip(x, 0, inf)` (propagates NaN).  `util.py:78`, `joint_prior.py:117`. -/
def clip0 : Fl → Fl
  | nan => nan
  | pinf => pinf
  | ninf => fin 0
  | fin x => fin (max x 0)

/-- `numpy.isfinite`.  `moments.py:520`, `admom.py:546-547`. -/
def isFinite : Fl → Prop
  | fin _ => True
  | _ => False

/-- `numpy.isnan`.  `moments.py:617-625`. -/
def isNan : Fl → Prop
  | nan => True
  | _ => False

@[simp] theorem fin_add (x y : ℝ) : fin x + fin y = fin (x + y) := rfl
@[simp] theorem fin_mul (x y : ℝ) : fin x * fin y = fin (x * y) := rfl
@[simp] theorem fin_neg (x : ℝ) : -fin x = fin (-x) := rfl
@[simp] theorem fin_sub (x y : ℝ) : fin x - fin y = fin (x - y) := by
  change add (fin x) (neg (fin y)) = _
  simp [add, neg, sub_eq_add_neg]
theorem fin_div (x y : ℝ) (h : y ≠ 0) : fin x / fin y = fin (x / y) := by
  change div (fin x) (fin y) = _
  simp [div, h]
theorem fin_div_zero (x : ℝ) : fin x / fin 0 = infOf x := by
  change div (fin x) (fin 0) = _
  simp [div]
@[simp] theorem fin_sq (x : ℝ) : sq (fin x) = fin (x * x) := rfl
@[simp] theorem pos_fin (x : ℝ) : pos (fin x) ↔ 0 < x := Iff.rfl
@[simp] theorem isZero_fin (x : ℝ) : isZero (fin x) ↔ x = 0 := Iff.rfl
@[simp] theorem nan_add (x : Fl) : nan + x = nan := by cases x <;> rfl
@[simp] theorem add_nan (x : Fl) : x + nan = nan := by cases x <;> rfl
@[simp] theorem nan_mul (x : Fl) : nan * x = nan := by cases x <;> rfl
@[simp] theorem mul_nan (x : Fl) : x * nan = nan := by cases x <;> rfl
theorem zero_mul_not_fin (x : Fl) (h : ∀ y, x ≠ fin y) : fin 0 * x = nan := by
  cases x with
  | nan => rfl
  | pinf => change infOf 0 = nan; simp [infOf]
  | ninf => change infOf (-0) = nan; simp [infOf]
  | fin y => exact absurd rfl (h y)

end

end Fl

end Ngmix
