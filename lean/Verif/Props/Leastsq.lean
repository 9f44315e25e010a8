import Verif.Proof.Leastsq
import Mathlib.Analysis.SpecialFunctions.Trigonometric.Deriv
import Mathlib.Analysis.SpecialFunctions.Sqrt
import Mathlib.Analysis.Calculus.Deriv.Inv
import Mathlib.Analysis.Matrix.PosDef
import Mathlib.Analysis.Matrix.Spectrum
import Mathlib.Tactic.LinearCombination
import Mathlib.Tactic.Positivity

/-!
# Bounded least squares: transforms (C39) and result flags (C40)
-/

namespace Ngmix.Props

open Ngmix

/-- Spec: a value respects a `(lower, upper)` pair, `None` meaning no limit. -/
def InBound (b : Bound) (x : ℝ) : Prop :=
  (∀ l, b.1 = some l → l ≤ x) ∧ (∀ u, b.2 = some u → x ≤ u)

/-- Spec: the pair is a proper interval. -/
def Proper (b : Bound) : Prop := ∀ l u, b = (some l, some u) → l < u

/-- C39: every real internal value is mapped into the bounds. -/
theorem C39_inside (b : Bound) (hb : ∀ l u, b = (some l, some u) → l ≤ u) (v : ℝ) :
    InBound b (i2eLam b v) := by
  have h1 : 1 ≤ Real.sqrt (v * v + 1) := by
    rw [Real.one_le_sqrt]; nlinarith [mul_self_nonneg v]
  have hs1 := Real.neg_one_le_sin v
  have hs2 := Real.sin_le_one v
  rcases b with ⟨_ | l, _ | u⟩ <;> simp only [InBound, i2eLam]
  · simp
  · constructor
    · simp
    · intro u' hu; simp at hu; subst hu; linarith
  · constructor
    · intro u' hu; simp at hu; subst hu; linarith
    · simp
  · have := hb l u rfl
    constructor
    · intro u' hu; simp at hu; subst hu; nlinarith
    · intro u' hu; simp at hu; subst hu; nlinarith

/-- C39: on the allowed range the external to internal transform is defined, and the internal to
external transform inverts it. -/
theorem C39_round_trip (b : Bound) (hb : Proper b) (x : ℝ) (hx : InBound b x) :
    ∃ v, e2iLam b x = some v ∧ i2eLam b v = x := by
  rcases b with ⟨_ | l, _ | u⟩
  · exact ⟨x, rfl, rfl⟩
  · have hu := hx.2 u rfl
    have hnn : 0 ≤ (u - x + 1) ^ 2 - 1 := by nlinarith
    refine ⟨Real.sqrt ((u - x + 1) ^ 2 - 1), ?_, ?_⟩
    · simp only [e2iLam, sqrtNan]; rw [if_neg (by linarith)]
    · simp only [i2eLam]
      rw [Real.mul_self_sqrt hnn, show (u - x + 1) ^ 2 - 1 + 1 = (u - x + 1) ^ 2 by ring,
        Real.sqrt_sq (by linarith)]
      ring
  · have hl := hx.1 l rfl
    have hnn : 0 ≤ (x - l + 1) ^ 2 - 1 := by nlinarith
    refine ⟨Real.sqrt ((x - l + 1) ^ 2 - 1), ?_, ?_⟩
    · simp only [e2iLam, sqrtNan]; rw [if_neg (by linarith)]
    · simp only [i2eLam]
      rw [Real.mul_self_sqrt hnn, show (x - l + 1) ^ 2 - 1 + 1 = (x - l + 1) ^ 2 by ring,
        Real.sqrt_sq (by linarith)]
      ring
  · have hl := hx.1 l rfl
    have hu := hx.2 u rfl
    have hlu := hb l u rfl
    have hd : 0 < u - l := by linarith
    have h1 : -1 ≤ 2 * (x - l) / (u - l) - 1 := by
      have : 0 ≤ 2 * (x - l) / (u - l) := div_nonneg (by linarith) hd.le
      linarith
    have h2 : 2 * (x - l) / (u - l) - 1 ≤ 1 := by
      have : 2 * (x - l) / (u - l) ≤ 2 := by rw [div_le_iff₀ hd]; linarith
      linarith
    refine ⟨Real.arcsin (2 * (x - l) / (u - l) - 1), ?_, ?_⟩
    · simp only [e2iLam, arcsinNan]
      rw [if_neg hd.ne', if_neg (by push Not; exact ⟨h1, h2⟩)]
    · simp only [i2eLam]
      rw [Real.sin_arcsin h1 h2]
      field_simp
      ring

/-- C39: the other composition: converting an internal value out and back gives the representative
of the same point: itself, its absolute value, or itself when in `[-π/2, π/2]`. -/
theorem C39_round_trip_internal (b : Bound) (hb : Proper b) (v : ℝ) :
    (b = (none, none) → e2iLam b (i2eLam b v) = some v) ∧
    (∀ l, b = (some l, none) → e2iLam b (i2eLam b v) = some |v|) ∧
    (∀ u, b = (none, some u) → e2iLam b (i2eLam b v) = some |v|) ∧
    (∀ l u, b = (some l, some u) → |v| ≤ Real.pi / 2 → e2iLam b (i2eLam b v) = some v) := by
  have hpos : (0:ℝ) ≤ v * v + 1 := by nlinarith [mul_self_nonneg v]
  refine ⟨?_, ?_, ?_, ?_⟩
  · rintro rfl; rfl
  · rintro l rfl
    have : (l - 1 + Real.sqrt (v * v + 1) - l + 1) ^ 2 - 1 = v ^ 2 := by
      have := Real.sq_sqrt hpos
      linear_combination this
    simp only [e2iLam, i2eLam]
    rw [this, sqrtNan, if_neg (by nlinarith [sq_nonneg v]), Real.sqrt_sq_eq_abs]
  · rintro u rfl
    have : (u - (u + 1 - Real.sqrt (v * v + 1)) + 1) ^ 2 - 1 = v ^ 2 := by
      have := Real.sq_sqrt hpos
      linear_combination this
    simp only [e2iLam, i2eLam]
    rw [this, sqrtNan, if_neg (by nlinarith [sq_nonneg v]), Real.sqrt_sq_eq_abs]
  · rintro l u rfl hv
    have hlu := hb l u rfl
    have hd : u - l ≠ 0 := by linarith
    have : 2 * (l + ((u - l) / 2) * (Real.sin v + 1) - l) / (u - l) - 1 = Real.sin v := by
      field_simp; ring
    simp only [e2iLam, i2eLam]
    rw [if_neg hd, this, arcsinNan, if_neg (by push Not; exact ⟨Real.neg_one_le_sin v, Real.sin_le_one v⟩)]
    have := abs_le.mp hv
    rw [Real.arcsin_sin (by linarith) this.2]

/-- C39: the gradient is the derivative of the transform, everywhere. -/
theorem C39_gradient (b : Bound) (v : ℝ) : HasDerivAt (i2eLam b) (i2eGrad b v) v := by
  have hpos : v * v + 1 ≠ 0 := by nlinarith [mul_self_nonneg v]
  have hsq : HasDerivAt (fun x : ℝ => Real.sqrt (x * x + 1)) (v / Real.sqrt (v * v + 1)) v := by
    have h1 : HasDerivAt (fun x : ℝ => x * x + 1) (1 * v + v * 1) v :=
      ((hasDerivAt_id v).mul (hasDerivAt_id v)).add_const 1
    have h2 := h1.sqrt hpos
    convert h2 using 1
    have hp : 0 < v * v + 1 := by nlinarith [mul_self_nonneg v]
    rw [div_eq_div_iff (Real.sqrt_ne_zero'.mpr hp)
      (mul_ne_zero two_ne_zero (Real.sqrt_ne_zero'.mpr hp))]
    ring
  rcases b with ⟨_ | l, _ | u⟩
  · exact hasDerivAt_id v
  · have := hsq.const_sub (u + 1)
    rw [← neg_div] at this
    exact this
  · exact hsq.const_add (l - 1)
  · have := (((Real.hasDerivAt_sin v).add_const 1).const_mul ((u - l) / 2)).const_add l
    rw [show (u - l) / 2 * Real.cos v = (u - l) * Real.cos v / 2 by ring] at this
    exact this

/-- C39 (limitation of the unchanged code): a starting value below a lower limit by two or more is not
rejected and does not become NaN: it is silently reflected to a value inside the bounds. -/
theorem C39_outside_reflected (l x : ℝ) (hx : x ≤ l - 2) :
    ∃ v, e2iLam (some l, none) x = some v ∧ i2eLam (some l, none) v = 2 * (l - 1) - x := by
  have hnn : 0 ≤ (x - l + 1) ^ 2 - 1 := by nlinarith
  refine ⟨Real.sqrt ((x - l + 1) ^ 2 - 1), ?_, ?_⟩
  · simp only [e2iLam, sqrtNan]; rw [if_neg (by linarith)]
  · simp only [i2eLam]
    rw [Real.mul_self_sqrt hnn, show (x - l + 1) ^ 2 - 1 + 1 = (l - 1 - x) ^ 2 by ring,
      Real.sqrt_sq (by linarith)]
    ring

/-- Spec: a list of parameter values (NaN = `none`) respects the bounds entry by entry. -/
def AllInBounds (bounds : List Bound) (x : List (Option ℝ)) : Prop :=
  ∀ (i : ℕ) (b : Bound) (v : ℝ), bounds[i]? = some b → x[i]? = some (some v) → InBound b v

theorem i2e_inBounds (bounds : List Bound) (hb : ∀ l u, (some l, some u) ∈ bounds → l ≤ u)
    (xi : List (Option ℝ)) : AllInBounds bounds (i2e bounds xi) := by
  intro i b v hbi hxi
  simp only [i2e, List.getElem?_map, List.getElem?_zip_eq_some, Option.map_eq_some_iff] at hxi
  obtain ⟨⟨b', o⟩, ⟨h1, h2⟩, h3⟩ := hxi
  simp only at h1 h2 h3
  rw [hbi] at h1
  cases h1
  obtain ⟨w, hw, rfl⟩ := h3
  refine C39_inside b ?_ w
  intro l u hlu
  apply hb
  rw [← hlu]
  exact List.mem_of_getElem? hbi

/-- C39: with bounds, for every objective and every behaviour of the minimiser: the objective is called
first at the caller's starting point and then only at points inside the bounds (or NaN), and the returned
parameters are inside the bounds. -/
theorem C39_evaluations (n : ℕ) (inv : NpInv n) (func : List (Option ℝ) → Except LmErr (List Fl))
    (dflt : List (List (Option ℝ)) × Except LmErr (LmTup n))
    (minpack : List (Option ℝ) → Minpack n) (x0 : List ℝ) (bounds : List Bound)
    (hb : ∀ l u, (some l, some u) ∈ bounds → l ≤ u) :
    (∀ p ∈ (leastsqbound n inv func dflt minpack x0 (some bounds)).1.tail, AllInBounds bounds p) ∧
    (∀ p ∈ (leastsqbound n inv func dflt minpack x0 (some bounds)).1.head?, p = x0.map some) ∧
    (∀ t, (leastsqbound n inv func dflt minpack x0 (some bounds)).2 = .ok t → AllInBounds bounds t.x) := by
  simp only [leastsqbound]
  by_cases hlen : bounds.length = x0.length
  swap
  · rw [if_pos hlen]; simp
  rw [if_neg (by simpa using hlen)]
  cases hf : func (x0.map some) with
  | error e => simp
  | ok y0 =>
    simp only
    by_cases hm : x0.length > y0.length
    · rw [if_pos hm]; simp
    rw [if_neg hm]
    refine ⟨?_, ?_, ?_⟩
    · intro p hp
      simp only [List.tail_cons, List.mem_map] at hp
      obtain ⟨q, -, rfl⟩ := hp
      exact i2e_inBounds bounds hb q
    · simp
    · intro t ht
      simp only at ht
      split at ht
      · exact absurd ht (by simp)
      · split_ifs at ht
        all_goals
          injection ht with ht
          subst ht
          exact i2e_inBounds bounds hb _

/-- C39: nothing outside the bounds is ever looked at: two objectives with the same values at the caller's
start and inside the bounds are called at the same points and give the same outcome. -/
theorem C39_only_inside (n : ℕ) (inv : NpInv n) (func func' : List (Option ℝ) → Except LmErr (List Fl))
    (dflt : List (List (Option ℝ)) × Except LmErr (LmTup n))
    (minpack : List (Option ℝ) → Minpack n) (x0 : List ℝ) (bounds : List Bound)
    (hb : ∀ l u, (some l, some u) ∈ bounds → l ≤ u)
    (h0 : func (x0.map some) = func' (x0.map some)) (hin : ∀ x, AllInBounds bounds x → func x = func' x) :
    leastsqbound n inv func dflt minpack x0 (some bounds) = leastsqbound n inv func' dflt minpack x0 (some bounds) := by
  have e : (fun x => func (i2e bounds x)) = fun x => func' (i2e bounds x) :=
    funext fun x => hin _ (i2e_inBounds bounds hb x)
  simp only [leastsqbound, h0, e]

/-- C39: the minimiser starts from the internal image of the starting point, so that, when the start is
inside proper bounds, its external image is the start itself: no parameter is moved before the fit. -/
theorem C39_start (bounds : List Bound) (hp : ∀ b ∈ bounds, Proper b) (x0 : List ℝ)
    (hlen : bounds.length = x0.length) (hin : AllInBounds bounds (x0.map some)) :
    i2e bounds (e2i bounds (x0.map some)) = x0.map some := by
  apply List.ext_getElem?
  intro i
  simp only [i2e, e2i, List.getElem?_map]
  by_cases hi : i < x0.length
  swap
  · have : x0[i]? = none := List.getElem?_eq_none (by omega)
    rw [this]
    rw [List.getElem?_eq_none]
    · rfl
    · simp; omega
  obtain ⟨b, hbi⟩ : ∃ b, bounds[i]? = some b := ⟨bounds[i], by simp⟩
  have hxi : x0[i]? = some x0[i] := by simp [hi]
  obtain ⟨v, h1, h2⟩ := C39_round_trip b (hp b (List.mem_of_getElem? hbi)) x0[i]
    (hin i b x0[i] hbi (by simp [hxi]))
  rw [hxi]
  have hz : (bounds.zip (x0.map some))[i]? = some (b, some x0[i]) := by
    rw [List.getElem?_zip_eq_some]; exact ⟨hbi, by simp [hxi]⟩
  have hz2 : (bounds.zip ((bounds.zip (x0.map some)).map fun p => p.2.bind (e2iLam p.1)))[i]? =
      some (b, some v) := by
    rw [List.getElem?_zip_eq_some]
    refine ⟨hbi, ?_⟩
    rw [List.getElem?_map, hz]
    simp [h1]
  rw [hz2]
  simp [h2]

/-- Spec: numpy's `inv` on a finite matrix gives the inverse, and refuses exactly a singular one. -/
def InvHonest {n : ℕ} (inv : NpInv n) : Prop :=
  ∀ M : Matrix (Fin n) (Fin n) ℝ, open Classical in
    inv (fun i j => .fin (M i j)) = if M.det = 0 then none else some fun i j => .fin (M⁻¹ i j)

theorem covX_fin {n : ℕ} (inv : NpInv n) (hinv : InvHonest inv) (grad : Fin n → ℝ) (hg : ∀ i, grad i ≠ 0)
    (r : Matrix (Fin n) (Fin n) ℝ) (ipvt : Fin n → Fin n) (A P : Matrix (Fin n) (Fin n) ℝ)
    (hA : A = fun i j => if i ≤ j then r i j / grad (ipvt j) else 0)
    (hP : P = fun j k => if k = ipvt j then 1 else 0) : open Classical in
    covX inv (fun i => .fin (grad i)) (fun i j => .fin (r i j)) ipvt =
      if ((A * P).transpose * (A * P)).det = 0 then none
      else some fun i j => .fin (((A * P).transpose * (A * P))⁻¹ i j) := by
  have hR : covR (fun i => .fin (grad i)) (fun i j => .fin (r i j)) ipvt = fun i j => .fin ((A * P) i j) := by
    rw [← flDot_fin]
    unfold covR
    congr 1
    · funext i j
      rw [hA]
      dsimp only
      split_ifs
      · exact Fl.fin_div _ _ (hg _)
      · rfl
    · funext j k
      rw [hP]
      dsimp only
      split_ifs <;> rfl
  unfold covX
  simp only [hR]
  rw [← hinv, ← flDot_fin (A * P).transpose (A * P)]
  rfl

/-- C39: the gradient is used to bring the covariance to the external parameters: the returned matrix is
`D C D` with `C` the covariance of the internal parameters and `D` the diagonal matrix of derivatives. -/
theorem C39_covariance {n : ℕ} (inv : NpInv n) (hinv : InvHonest inv) (grad : Fin n → ℝ) (hg : ∀ i, grad i ≠ 0)
    (r : Matrix (Fin n) (Fin n) ℝ) (ipvt : Fin n → Fin n) (C : Matrix (Fin n) (Fin n) ℝ)
    (hC : covX inv (fun _ => .fin 1) (fun i j => .fin (r i j)) ipvt = some fun i j => .fin (C i j)) :
    covX inv (fun i => .fin (grad i)) (fun i j => .fin (r i j)) ipvt =
      some fun i j => .fin ((Matrix.diagonal grad * C * Matrix.diagonal grad) i j) := by
  classical
  rw [covX_fin inv hinv (fun _ => 1) (by simp) r ipvt _ _ rfl rfl] at hC
  rw [covX_fin inv hinv grad hg r ipvt _ _ rfl rfl]
  set P : Matrix (Fin n) (Fin n) ℝ := fun j k => if k = ipvt j then 1 else 0 with hP
  set A : Matrix (Fin n) (Fin n) ℝ := fun i j => if i ≤ j then r i j / 1 else 0 with hA
  set B : Matrix (Fin n) (Fin n) ℝ := fun i j => if i ≤ j then r i j / grad (ipvt j) else 0 with hB
  set D := Matrix.diagonal grad with hD
  set Di := Matrix.diagonal (fun i => (grad i)⁻¹) with hDi
  have hR : B * P = A * P * Di := by
    ext i k
    rw [hDi, Matrix.mul_diagonal, Matrix.mul_apply, Matrix.mul_apply, Finset.sum_mul]
    refine Finset.sum_congr rfl fun j _ => ?_
    simp only [hB, hA, hP]
    by_cases hk : k = ipvt j
    · subst hk
      split_ifs <;> simp [div_eq_mul_inv]
    · simp [hk]
  have hdd : Di * D = 1 := by
    rw [hDi, hD, Matrix.diagonal_mul_diagonal]
    rw [show (fun i => (grad i)⁻¹ * grad i) = fun _ => (1:ℝ) from by
      funext i; exact inv_mul_cancel₀ (hg i)]
    exact Matrix.diagonal_one
  have hdd' : D * Di = 1 := by
    rw [hDi, hD, Matrix.diagonal_mul_diagonal]
    rw [show (fun i => grad i * (grad i)⁻¹) = fun _ => (1:ℝ) from by
      funext i; exact mul_inv_cancel₀ (hg i)]
    exact Matrix.diagonal_one
  have hDt : D.transpose = D := Matrix.diagonal_transpose _
  have hDit : Di.transpose = Di := Matrix.diagonal_transpose _
  set M := (A * P).transpose * (A * P) with hM
  have hRR : (B * P).transpose * (B * P) = Di * M * Di := by
    rw [hR, Matrix.transpose_mul, hDit, hM]
    simp only [Matrix.mul_assoc]
  rw [hRR]
  split_ifs at hC with hdet
  have hC : M⁻¹ = C := by
    simp only [Option.some.injEq] at hC
    ext i j
    have := congrFun (congrFun hC i) j
    exact Fl.fin.inj this
  have hMu : IsUnit M.det := isUnit_iff_ne_zero.mpr hdet
  have hDu : Di.det ≠ 0 := by
    intro h
    have := congrArg Matrix.det hdd
    rw [Matrix.det_mul, h] at this
    simp at this
  rw [if_neg]
  · have e : (Di * M * Di)⁻¹ = D * C * D := by
      rw [← hC]
      apply Matrix.inv_eq_right_inv
      have : Di * M * Di * (D * M⁻¹ * D) = Di * (M * (Di * D) * M⁻¹) * D := by
        simp only [Matrix.mul_assoc]
      rw [this, hdd, Matrix.mul_one, Matrix.mul_nonsing_inv _ hMu, Matrix.mul_one, hdd]
    rw [e]
  · rw [Matrix.det_mul, Matrix.det_mul]
    exact mul_ne_zero (mul_ne_zero hDu hdet) hDu

theorem gradAt_some {bounds : List Bound} {x : List (Option ℝ)} {i : ℕ} {b : Bound} {v : ℝ} (hb : bounds[i]? = some b)
    (hx : x[i]? = some (some v)) : gradAt bounds x i = .fin (i2eGrad b v) := by
  unfold gradAt
  rw [hb, hx]
  rcases b with ⟨_ | l, _ | u⟩ <;> rfl

/-- What a run with bounds that ends normally has made of MINPACK's output. -/
theorem leastsqbound_ok {n : ℕ} {inv : NpInv n} {func : List (Option ℝ) → Except LmErr (List Fl)}
    {dflt : List (List (Option ℝ)) × Except LmErr (LmTup n)} {minpack : List (Option ℝ) → Minpack n} {x0 : List ℝ}
    {bounds : List Bound} {t : LmTup n}
    (h : (leastsqbound n inv func dflt minpack x0 (some bounds)).2 = .ok t) :
    bounds.length = x0.length ∧ ∃ o : MinpackOut n,
      ((minpack (e2i bounds (x0.map some))).run fun x => func (i2e bounds x)).2 = .ok o ∧
      t = ⟨i2e bounds o.x, if 1 ≤ o.info ∧ o.info ≤ 4 then covX inv (fun i => gradAt bounds o.x i.val) o.r o.ipvt
        else none, o.nfev, o.info⟩ := by
  simp only [leastsqbound] at h
  by_cases hlen : bounds.length = x0.length
  swap
  · rw [if_pos hlen] at h; simp at h
  refine ⟨hlen, ?_⟩
  rw [if_neg (by simpa using hlen)] at h
  cases hf : func (x0.map some) with
  | error e => rw [hf] at h; simp at h
  | ok y0 =>
    rw [hf] at h
    simp only at h
    by_cases hm : x0.length > y0.length
    · rw [if_pos hm] at h; simp at h
    rw [if_neg hm] at h
    simp only at h
    cases hr : ((minpack (e2i bounds (x0.map some))).run fun x => func (i2e bounds x)).2 with
    | error e => rw [hr] at h; simp at h
    | ok o =>
      rw [hr] at h
      simp only at h
      by_cases h1 : o.info < 0 ∨ 8 < o.info
      · rw [if_pos h1] at h; simp at h
      rw [if_neg h1] at h
      simp only [Except.ok.injEq] at h
      exact ⟨o, rfl, h.symm⟩

/-- C39: the covariance that comes back from a fit with bounds is `D C D`, `C` being the one of the internal parameters
that MINPACK's output describes and `D` the diagonal matrix of the derivatives of the transforms at its solution. -/
theorem C39_returned_covariance {n : ℕ} (inv : NpInv n) (hinv : InvHonest inv)
    (func : List (Option ℝ) → Except LmErr (List Fl)) (dflt : List (List (Option ℝ)) × Except LmErr (LmTup n))
    (minpack : List (Option ℝ) → Minpack n) (x0 : List ℝ) (bounds : List Bound) (t : LmTup n)
    (h : (leastsqbound n inv func dflt minpack x0 (some bounds)).2 = .ok t) (o : MinpackOut n)
    (ho : ((minpack (e2i bounds (x0.map some))).run fun x => func (i2e bounds x)).2 = .ok o)
    (hi : 1 ≤ o.info ∧ o.info ≤ 4) (b : Fin n → Bound) (hb : bounds = List.ofFn b) (v : Fin n → ℝ)
    (hv : o.x = List.ofFn fun i => some (v i)) (D : Fin n → ℝ) (hD : ∀ i, HasDerivAt (i2eLam (b i)) (D i) (v i))
    (hD0 : ∀ i, D i ≠ 0) (r : Matrix (Fin n) (Fin n) ℝ) (hr : o.r = fun i j => .fin (r i j))
    (C : Matrix (Fin n) (Fin n) ℝ)
    (hC : covX inv (fun _ => .fin 1) o.r o.ipvt = some fun i j => .fin (C i j)) :
    t.cov = some fun i j => .fin ((Matrix.diagonal D * C * Matrix.diagonal D) i j) := by
  obtain ⟨-, o', ho', ht⟩ := leastsqbound_ok h
  rw [ho] at ho'
  injection ho' with ho'
  subst ho'
  have hg : (fun i : Fin n => gradAt bounds o.x i.val) = fun i => .fin (D i) := by
    funext i
    rw [gradAt_some (b := b i) (v := v i) (by rw [hb]; simp) (by rw [hv]; simp)]
    rw [(C39_gradient (b i) (v i)).unique (hD i)]
  rw [ht]
  simp only [if_pos hi]
  rw [hg, hr]
  exact C39_covariance inv hinv D hD0 r o.ipvt C (by rw [← hr]; exact hC)

/-- The hypotheses are met: a lower limit, an upper limit and an interval, with a start inside. -/
example : ∃ (bounds : List Bound) (x0 : List ℝ), bounds.length = x0.length ∧
    (∀ b ∈ bounds, Proper b) ∧ AllInBounds bounds (x0.map some) ∧ bounds.length = 3 := by
  refine ⟨[(some 0, none), (none, some 5), (some (-1), some 2)], [3, 4, 0], rfl, ?_, ?_, rfl⟩
  · intro b hb
    simp only [List.mem_cons, List.not_mem_nil, or_false] at hb
    rcases hb with rfl | rfl | rfl <;> intro l u h <;> simp at h
    obtain ⟨rfl, rfl⟩ := h
    norm_num
  · intro i b v hb hv
    match i with
    | 0 => simp at hb hv; subst hb hv; constructor <;> simp
    | 1 => simp at hb hv; subst hb hv; constructor <;> simp; norm_num
    | 2 => simp at hb hv; subst hb hv; constructor <;> simp
    | k + 3 => simp at hb

/-! ## C40 -/

section

variable (n : ℕ) (func : List (Option ℝ) → Except LmErr (List Fl))
  (eig : (Fin n → Fin n → Fl) → Option (List Fl)) (nPrior : ℕ) (kSpace : Bool)

/-- Spec: the scaled covariance matrix `cov * sum(fdiff[n_prior:]**2) / dof`. -/
noncomputable def scaledCov (c : Fin n → Fin n → Fl) (fdiff : List Fl) (dof : ℤ) :
    Fin n → Fin n → Fl :=
  fun i j => c i j * (flSumSq (fdiff.drop nPrior) / Fl.fin (dof : ℝ))

theorem scaledCov_eq (c : Fin n → Fin n → Fl) (fdiff : List Fl) (dof : ℤ) :
    scaledCov n nPrior c fdiff dof =
    fun i j => c i j * (flSumSq (fdiff.drop nPrior) / Fl.fin (dof : ℝ)) := rfl

theorem catch_flags_zero (b : Except LmErr (LmResult n)) (r : LmResult n)
    (h : runLeastsqCatch n b = .ok r) (h0 : r.flags = 0) : b = .ok r := by
  rcases b with (_ | e) | r'
  · simp only [runLeastsqCatch] at h
    injection h with h; subst h
    simp [Flags.LM_FUNC_NOTFINITE] at h0
  · by_cases he : e = .zeroDiv
    · subst he
      simp only [runLeastsqCatch] at h
      injection h with h; subst h
      simp [Flags.DIV_ZERO] at h0
    · cases e <;> first | exact absurd rfl he | exact absurd h (by simp [runLeastsqCatch])
  · simpa [runLeastsqCatch] using h

/-- C40: flags are zero exactly when the minimiser reported success, a covariance was returned, the final
evaluation succeeded, the degrees of freedom are not zero and the covariance tests pass. -/
theorem C40_flags_zero_iff (lm : Except LmErr (LmTup n))
    (hcov : ∀ t, lm = .ok t → t.cov.isSome → 1 ≤ t.info ∧ t.info ≤ 4) :
    (∃ r, runLeastsq n func eig nPrior kSpace lm = .ok r ∧ r.flags = 0) ↔
    ∃ t c fdiff, lm = .ok t ∧ 1 ≤ t.info ∧ t.info ≤ 4 ∧ t.cov = some c ∧ func t.x = .ok fdiff ∧
      lmDof fdiff.length nPrior n kSpace ≠ 0 ∧
      testCov eig (scaledCov n nPrior c fdiff (lmDof fdiff.length nPrior n kSpace)) = 0 := by
  constructor
  · rintro ⟨r, hr, hf⟩
    have hr := catch_flags_zero n _ r hr hf
    cases lm with
    | error e => exact absurd hr (by simp [runLeastsqTry])
    | ok t =>
      simp only [runLeastsqTry] at hr
      by_cases h0 : t.info = 0
      · simp [h0] at hr
      rw [if_neg h0] at hr
      by_cases h4 : t.info > 4
      · rw [if_pos h4] at hr
        injection hr with hr; subst hr
        simp at hf
      rw [if_neg h4] at hr
      cases hc : t.cov with
      | none =>
        simp only [hc] at hr
        injection hr with hr; subst hr
        simp [Flags.LM_SINGULAR_MATRIX] at hf
      | some c =>
        simp only [hc] at hr
        obtain ⟨hi1, hi2⟩ := hcov t rfl (by simp [hc])
        cases hfd : func t.x with
        | error e => rw [hfd] at hr; simp at hr
        | ok fdiff =>
          rw [hfd] at hr
          simp only at hr
          by_cases hd : lmDof fdiff.length nPrior n kSpace = 0
          · rw [if_pos hd] at hr
            injection hr with hr; subst hr
            simp [Flags.ZERO_DOF] at hf
          rw [if_neg hd] at hr
          refine ⟨t, c, fdiff, rfl, hi1, hi2, hc, hfd, hd, ?_⟩
          by_contra hne
          have hne' := hne
          rw [scaledCov_eq] at hne'
          rw [if_pos hne'] at hr
          injection hr with hr; subst hr
          exact hne hf
  · rintro ⟨t, c, fdiff, rfl, hi1, hi2, hc, hfd, hd, ht⟩
    simp only [runLeastsq, runLeastsqTry]
    rw [if_neg (by omega), if_neg (by omega)]
    simp only [hc, hfd]
    rw [scaledCov_eq] at ht
    rw [if_neg hd, if_neg (not_not.mpr ht)]
    exact ⟨_, rfl, rfl⟩

/-- C40: on success the parameters are the minimiser's, the covariance is its matrix times chi^2/dof and
the errors are the roots of its diagonal. -/
theorem C40_success (t : LmTup n) (c : Fin n → Fin n → Fl) (fdiff : List Fl)
    (hi : 1 ≤ t.info ∧ t.info ≤ 4) (hc : t.cov = some c) (hfd : func t.x = .ok fdiff)
    (hd : lmDof fdiff.length nPrior n kSpace ≠ 0)
    (ht : testCov eig (scaledCov n nPrior c fdiff (lmDof fdiff.length nPrior n kSpace)) = 0) :
    ∃ r, runLeastsq n func eig nPrior kSpace (.ok t) = .ok r ∧ r.flags = 0 ∧ r.pars = t.x ∧
      r.ier = some t.info ∧ r.nfev = t.nfev ∧
      r.parsCov = scaledCov n nPrior c fdiff (lmDof fdiff.length nPrior n kSpace) ∧
      r.parsErr = some fun i => Fl.sqrt (r.parsCov i i) := by
  simp only [runLeastsq, runLeastsqTry]
  rw [if_neg (by omega), if_neg (by omega)]
  simp only [hc, hfd]
  rw [scaledCov_eq] at ht
  rw [if_neg hd, if_neg (not_not.mpr ht)]
  exact ⟨_, rfl, rfl, rfl, rfl, rfl, rfl, rfl⟩

/-- C40: the degrees of freedom are the data residuals minus the fitted parameters. -/
theorem C40_dof (ndata : ℕ) :
    lmDof (nPrior + ndata) nPrior n false = (ndata : ℤ) - n ∧
    lmDof (nPrior + 2 * ndata) nPrior n true = (ndata : ℤ) - n := by
  constructor
  · simp [lmDof]
  · simp only [lmDof, if_true]
    push_cast
    omega

/-- C40: every other outcome has its own flag; parameters, errors and covariance are defaults, except that
the parameters are kept when only the covariance is unusable. -/
theorem C40_failures (t : LmTup n) :
    (∀ k : ℕ, k < 4 → t.info = 5 + k →
      ∃ r, runLeastsq n func eig nPrior kSpace (.ok t) = .ok r ∧ r.flags = 2 ^ k ∧
        r.pars = List.replicate n (some PDEF) ∧ r.parsErr = some (fun _ => .fin CDEF) ∧
        r.parsCov = fun _ _ => .fin CDEF) ∧
    (1 ≤ t.info ∧ t.info ≤ 4 → t.cov = none →
      ∃ r, runLeastsq n func eig nPrior kSpace (.ok t) = .ok r ∧ r.flags = Flags.LM_SINGULAR_MATRIX ∧
        r.pars = t.x ∧ r.parsErr = some (fun _ => .fin CDEF) ∧ r.parsCov = fun _ _ => .fin CDEF) ∧
    (∀ c fdiff, 1 ≤ t.info ∧ t.info ≤ 4 → t.cov = some c → func t.x = .ok fdiff →
      lmDof fdiff.length nPrior n kSpace = 0 →
      ∃ r, runLeastsq n func eig nPrior kSpace (.ok t) = .ok r ∧ r.flags = Flags.ZERO_DOF ∧
        r.pars = t.x ∧ r.parsErr = some (fun _ => .fin CDEF) ∧ r.parsCov = fun _ _ => .fin CDEF) ∧
    (∀ c fdiff, 1 ≤ t.info ∧ t.info ≤ 4 → t.cov = some c → func t.x = .ok fdiff →
      lmDof fdiff.length nPrior n kSpace ≠ 0 →
      testCov eig (scaledCov n nPrior c fdiff (lmDof fdiff.length nPrior n kSpace)) ≠ 0 →
      ∃ r, runLeastsq n func eig nPrior kSpace (.ok t) = .ok r ∧
        r.flags = testCov eig (scaledCov n nPrior c fdiff (lmDof fdiff.length nPrior n kSpace)) ∧
        r.pars = t.x ∧ r.parsErr = some (fun _ => .fin CDEF) ∧
        r.parsCov = scaledCov n nPrior c fdiff (lmDof fdiff.length nPrior n kSpace)) ∧
    (t.info = 0 → runLeastsq n func eig nPrior kSpace (.ok t) = .error .value) := by
  refine ⟨?_, ?_, ?_, ?_, ?_⟩
  · intro k hk hi
    simp only [runLeastsq, runLeastsqTry]
    rw [if_neg (by omega), if_pos (by omega)]
    refine ⟨_, rfl, ?_, rfl, rfl, rfl⟩
    simp only [hi]
    congr 1
    omega
  · intro hi hc
    simp only [runLeastsq, runLeastsqTry]
    rw [if_neg (by omega), if_neg (by omega)]
    simp only [hc]
    exact ⟨_, rfl, rfl, rfl, rfl, rfl⟩
  · intro c fdiff hi hc hfd hd
    simp only [runLeastsq, runLeastsqTry]
    rw [if_neg (by omega), if_neg (by omega)]
    simp only [hc, hfd]
    rw [if_pos hd]
    exact ⟨_, rfl, rfl, rfl, rfl, rfl⟩
  · intro c fdiff hi hc hfd hd ht
    simp only [runLeastsq, runLeastsqTry]
    rw [if_neg (by omega), if_neg (by omega)]
    simp only [hc, hfd]
    rw [scaledCov_eq] at ht
    rw [if_neg hd, if_pos ht]
    exact ⟨_, rfl, rfl, rfl, rfl, rfl⟩
  · intro h0
    simp [runLeastsq, runLeastsqTry, runLeastsqCatch, h0]

/-- C40: exceptions. A non finite objective and a division by zero become flags with default parameters,
and then neither `pars_err` nor `ier` is in the result; every other exception of the objective or the
minimiser propagates unchanged. -/
theorem C40_exceptions (lm : Except LmErr (LmTup n)) (e : LmErr)
    (he : lm = .error e ∨ ∃ t c, lm = .ok t ∧ 1 ≤ t.info ∧ t.info ≤ 4 ∧ t.cov = some c ∧
      func t.x = .error e) :
    (e = .notFinite → ∃ r, runLeastsq n func eig nPrior kSpace lm = .ok r ∧
      r.flags = Flags.LM_FUNC_NOTFINITE ∧ r.pars = List.replicate n (some PDEF) ∧
      r.parsCov = (fun _ _ => .fin CDEF) ∧ r.parsErr = none ∧ r.ier = none) ∧
    (e = .py .zeroDiv → ∃ r, runLeastsq n func eig nPrior kSpace lm = .ok r ∧
      r.flags = Flags.DIV_ZERO ∧ r.pars = List.replicate n (some PDEF) ∧
      r.parsCov = (fun _ _ => .fin CDEF) ∧ r.parsErr = none ∧ r.ier = none) ∧
    (∀ p, e = .py p → p ≠ .zeroDiv → runLeastsq n func eig nPrior kSpace lm = .error p) := by
  have hbody : runLeastsqTry n func eig nPrior kSpace lm = .error e := by
    rcases he with rfl | ⟨t, c, rfl, h1, h2, hc, hf⟩
    · simp only [runLeastsqTry]
    · simp only [runLeastsqTry]
      rw [if_neg (by omega), if_neg (by omega)]
      simp only [hc, hf]
  unfold runLeastsq
  rw [hbody]
  refine ⟨?_, ?_, ?_⟩
  · rintro rfl
    exact ⟨_, rfl, rfl, rfl, rfl, rfl, rfl⟩
  · rintro rfl
    exact ⟨_, rfl, rfl, rfl, rfl, rfl, rfl⟩
  · rintro p rfl hp
    cases p <;> first | rfl | exact absurd rfl hp

/-- C40: the covariance tests. With numpy's `eig` returning the eigenvalues, a covariance with finite
entries passes both tests exactly when no eigenvalue and no diagonal entry is negative; `eig` refusing
(non finite entries) is a flag of its own. -/
theorem C40_test_cov (pcov : Fin n → Fin n → Fl) :
    (testCov eig pcov = 0 ↔ ∃ e, eig pcov = some e ∧ (∀ x ∈ e, ¬ Fl.lt x (.fin 0)) ∧
      ∀ i, ¬ Fl.lt (pcov i i) (.fin 0)) ∧
    (eig pcov = none → testCov eig pcov = Flags.EIG_NOTFINITE) ∧
    (∀ e, eig pcov = some e → (∃ x ∈ e, Fl.lt x (.fin 0)) →
      testCov eig pcov &&& Flags.LM_NEG_COV_EIG ≠ 0) ∧
    (∀ e, eig pcov = some e → (∃ i, Fl.lt (pcov i i) (.fin 0)) →
      testCov eig pcov &&& Flags.LM_NEG_COV_DIAG ≠ 0) := by
  classical
  unfold testCov
  cases he : eig pcov with
  | none => simp [Flags.EIG_NOTFINITE]
  | some e =>
    simp only [Option.some.injEq, exists_eq_left']
    by_cases h1 : ∃ x ∈ e, Fl.lt x (.fin 0) <;> by_cases h2 : ∃ i, Fl.lt (pcov i i) (.fin 0)
    · rw [if_pos h1, if_pos h2]
      refine ⟨?_, by simp, by intros; decide, by intros; decide⟩
      constructor
      · intro h; exact absurd h (by decide)
      · rintro ⟨h, -⟩; obtain ⟨x, hx, hl⟩ := h1; exact absurd hl (h x hx)
    · rw [if_pos h1, if_neg h2]
      refine ⟨?_, by simp, by intros; decide, fun _ _ h => absurd h h2⟩
      constructor
      · intro h; exact absurd h (by decide)
      · rintro ⟨h, -⟩; obtain ⟨x, hx, hl⟩ := h1; exact absurd hl (h x hx)
    · rw [if_neg h1, if_pos h2]
      refine ⟨?_, by simp, by rintro _ rfl h; exact absurd h h1, by intros; decide⟩
      constructor
      · intro h; exact absurd h (by decide)
      · rintro ⟨-, h⟩; obtain ⟨i, hl⟩ := h2; exact absurd hl (h i)
    · rw [if_neg h1, if_neg h2]
      refine ⟨?_, by simp, by rintro _ rfl h; exact absurd h h1, fun _ _ h => absurd h h2⟩
      push Not at h1 h2
      exact ⟨fun _ => ⟨h1, h2⟩, fun _ => rfl⟩

/-- Spec: numpy's `eig` on a real symmetric matrix gives exactly its eigenvalues. -/
def EigHonest (eig : (Fin n → Fin n → Fl) → Option (List Fl)) : Prop :=
  ∀ (M : Matrix (Fin n) (Fin n) ℝ) (hM : M.IsHermitian) (e : List Fl),
    eig (fun i j => .fin (M i j)) = some e → ∀ i, Fl.fin (hM.eigenvalues i) ∈ e

/-- C40: on flags zero with finite residuals the reported covariance is a positive semidefinite matrix. -/
theorem C40_cov_psd (heig : EigHonest n eig) (t : LmTup n) (c : Matrix (Fin n) (Fin n) ℝ)
    (hsym : c.IsHermitian) (fdiff : List ℝ) (hi : 1 ≤ t.info ∧ t.info ≤ 4)
    (hc : t.cov = some fun i j => .fin (c i j)) (hfd : func t.x = .ok (fdiff.map .fin)) (r : LmResult n)
    (hr : runLeastsq n func eig nPrior kSpace (.ok t) = .ok r) (h0 : r.flags = 0) :
    ∃ M : Matrix (Fin n) (Fin n) ℝ, r.parsCov = (fun i j => .fin (M i j)) ∧ M.PosSemidef ∧
      M = (((fdiff.drop nPrior).map fun x => x ^ 2).sum /
        (lmDof fdiff.length nPrior n kSpace : ℝ)) • c := by
  obtain ⟨t', c', fd', ht, -, -, hc', hfd', hd, htest⟩ :=
    (C40_flags_zero_iff n func eig nPrior kSpace (.ok t) (by
      rintro t' h -; injection h with h; subst h; exact hi)).mp ⟨r, hr, h0⟩
  injection ht with ht; subst ht
  rw [hc] at hc'; injection hc' with hc'; subst hc'
  rw [hfd] at hfd'; injection hfd' with hfd'; subst hfd'
  simp only [List.length_map] at hd htest
  obtain ⟨r', hr', -, -, -, -, hcov, -⟩ := C40_success n func eig nPrior kSpace t _ _ hi hc hfd
    (by simpa using hd) (by simpa using htest)
  rw [hr] at hr'; injection hr' with hr'; subst hr'
  simp only [List.length_map] at hcov
  set dof := lmDof fdiff.length nPrior n kSpace with hdof
  have hsum : ∀ (l : List ℝ) (a : ℝ), (l.map Fl.fin).foldl (fun a x => a + Fl.sq x) (.fin a) =
      .fin (a + (l.map fun x => x ^ 2).sum) := by
    intro l
    induction l with
    | nil => intro a; simp
    | cons x l ih =>
      intro a
      simp only [List.map_cons, List.foldl_cons, Fl.fin_sq, Fl.fin_add, List.sum_cons]
      rw [ih]
      congr 1
      ring
  have hs : flSumSq ((fdiff.map Fl.fin).drop nPrior) =
      .fin ((fdiff.drop nPrior).map fun x => x ^ 2).sum := by
    rw [← List.map_drop, flSumSq, hsum, zero_add]
  set s := ((fdiff.drop nPrior).map fun x => x ^ 2).sum with hsdef
  have hcovM : scaledCov n nPrior (fun i j => .fin (c i j)) (fdiff.map Fl.fin) dof =
      fun i j => .fin (((s / (dof : ℝ)) • c) i j) := by
    funext i j
    rw [scaledCov, hs, Fl.fin_div _ _ (by exact_mod_cast hd), Fl.fin_mul]
    simp [mul_comm]
  refine ⟨(s / (dof : ℝ)) • c, by rw [hcov, hcovM], ?_, rfl⟩
  have hH : ((s / (dof : ℝ)) • c).IsHermitian := by
    unfold Matrix.IsHermitian at hsym ⊢
    rw [Matrix.conjTranspose_smul, hsym]
    simp
  rw [hH.posSemidef_iff_eigenvalues_nonneg]
  intro i
  rw [hcovM] at htest
  obtain ⟨e, he, hpos, -⟩ := (C40_test_cov n eig _).1.mp htest
  have := hpos _ (heig _ hH e he i)
  simpa [Fl.lt] using this

/-- C40 (disagreement): the flags for MINPACK's own failures collide with other documented flags. Reaching
the maximum number of function calls (`ier = 5`) is reported with the bit of "no attempt", so the flag
string says that no attempt was made. -/
theorem C40_minpack_flags_collide (t : LmTup n) (h : t.info = 5) :
    ∃ r, runLeastsq n func eig nPrior kSpace (.ok t) = .ok r ∧ r.flags = Flags.NO_ATTEMPT ∧
      Flags.getFlagsStr r.flags = .ok "no attempt" := by
  obtain ⟨r, hr, hf, -⟩ := (C40_failures n func eig nPrior kSpace t).1 0 (by norm_num) (by simpa using h)
  refine ⟨r, hr, hf, ?_⟩
  rw [hf]
  decide +kernel

/-- The hypotheses are met: one parameter, two residuals, a unit covariance. -/
example : ∃ (t : LmTup 1) (c : Fin 1 → Fin 1 → Fl) (fdiff : List Fl), t.cov = some c ∧ t.info = 1 ∧
    lmDof fdiff.length 0 1 false ≠ 0 ∧
    testCov (fun m => some [m 0 0]) (scaledCov 1 0 c fdiff (lmDof fdiff.length 0 1 false)) = 0 := by
  refine ⟨⟨[some 0], some fun _ _ => .fin 1, 3, 1⟩, fun _ _ => .fin 1, [.fin 1, .fin 1], rfl, rfl, by decide, ?_⟩
  rw [(C40_test_cov 1 (fun m => some [m 0 0]) _).1]
  have : scaledCov 1 0 (fun _ _ => .fin 1) [.fin 1, .fin 1] (lmDof 2 0 1 false) 0 0 = .fin 2 := by
    have h1 : (lmDof 2 0 1 false) = 1 := by decide
    have h2 : flSumSq [.fin 1, .fin 1] = .fin 2 := by
      simp [flSumSq]; norm_num
    rw [h1]
    simp only [scaledCov, List.drop_zero, h2]
    rw [Fl.fin_div _ _ (by norm_num)]
    simp
  refine ⟨_, rfl, ?_, ?_⟩
  · intro x hx
    simp only [List.mem_singleton] at hx
    subst hx
    simp only [List.length_cons, List.length_nil]
    rw [this]; norm_num [Fl.lt]
  · intro i
    have : i = 0 := Subsingleton.elim _ _
    subst this
    simp only [List.length_cons, List.length_nil]
    rw [‹scaledCov _ _ _ _ _ 0 0 = _›]; norm_num [Fl.lt]

/-- Spec: numpy's `inv` of a matrix with a NaN, if it does not refuse it, has an entry that is not finite. -/
def InvNan {n : ℕ} (inv : NpInv n) : Prop :=
  ∀ M C, (∃ i j, M i j = .nan) → inv M = some C → ∃ i j, ¬ (C i j).isFinite

/-- Spec: numpy's `eig` raises for a matrix with an entry that is not finite. -/
def EigFinite {n : ℕ} (eig : (Fin n → Fin n → Fl) → Option (List Fl)) : Prop :=
  ∀ M : Fin n → Fin n → Fl, (∃ i j, ¬ (M i j).isFinite) → eig M = none

/-- Spec: a value is strictly inside a `(lower, upper)` pair. -/
def StrictlyIn (b : Bound) (x : ℝ) : Prop :=
  (∀ l, b.1 = some l → l < x) ∧ (∀ u, b.2 = some u → x < u)

theorem at_bound_grad (b : Bound) (hb : b ≠ (none, none)) (v : ℝ)
    (h : (∃ l, b.1 = some l ∧ i2eLam b v = l) ∨ (∃ u, b.2 = some u ∧ i2eLam b v = u)) : i2eGrad b v = 0 := by
  have hs : Real.sqrt (v * v + 1) = 1 → v = 0 := by
    intro e
    have := Real.sq_sqrt (show (0 : ℝ) ≤ v * v + 1 by nlinarith [mul_self_nonneg v])
    rw [e] at this
    nlinarith
  rcases b with ⟨_ | l, _ | u⟩
  · exact absurd rfl hb
  · rcases h with ⟨l, hl, -⟩ | ⟨w, hw, h⟩
    · simp at hl
    · simp only [Option.some.injEq] at hw
      subst hw
      simp only [i2eLam] at h
      rw [i2eGrad, hs (by linarith)]
      simp
  · rcases h with ⟨w, hw, h⟩ | ⟨u, hu, -⟩
    · simp only [Option.some.injEq] at hw
      subst hw
      simp only [i2eLam] at h
      rw [i2eGrad, hs (by linarith)]
      simp
    · simp at hu
  · have hcos : ∀ w, Real.sin v = w → w ^ 2 = 1 → Real.cos v = 0 := by
      intro w hw hw2
      have := Real.sin_sq_add_cos_sq v
      rw [hw, hw2] at this
      nlinarith
    simp only [i2eGrad]
    rcases h with ⟨w, hw, h⟩ | ⟨w, hw, h⟩ <;>
    · simp only [Option.some.injEq] at hw
      subst hw
      simp only [i2eLam] at h
      rcases eq_or_ne l u with e | e
      · subst e; simp
      · have hne : u - l ≠ 0 := sub_ne_zero.2 (Ne.symm e)
        first
        | (have : Real.sin v = -1 := by
            have h' : (u - l) * (Real.sin v + 1) = 0 := by linarith
            rcases mul_eq_zero.1 h' with h' | h'
            · exact absurd h' hne
            · linarith
           rw [hcos _ this (by norm_num)]; simp)
        | (have : Real.sin v = 1 := by
            have h' : (u - l) * (Real.sin v - 1) = 0 := by linarith
            rcases mul_eq_zero.1 h' with h' | h'
            · exact absurd h' hne
            · linarith
           rw [hcos _ this (by norm_num)]; simp)

/-- C40: in a fit with bounds of two or more parameters, flags zero means that every bounded parameter ended strictly
inside its bounds: at a bound the derivative of the transform is zero, and the covariance is unusable. -/
theorem C40_inside_bounds (inv : NpInv n) (hinv : InvNan inv) (heig : EigFinite eig) (h2 : 2 ≤ n)
    (dflt : List (List (Option ℝ)) × Except LmErr (LmTup n)) (minpack : List (Option ℝ) → Minpack n)
    (hsol : ∀ x f o, ((minpack x).run f).2 = .ok o → o.x.length = n ∧ Function.Bijective o.ipvt)
    (x0 : List ℝ) (hx0 : x0.length = n) (bounds : List Bound) (hb : ∀ l u, (some l, some u) ∈ bounds → l ≤ u)
    (r : LmResult n)
    (hr : runLeastsq n func eig nPrior kSpace (leastsqbound n inv func dflt minpack x0 (some bounds)).2 = .ok r)
    (h0 : r.flags = 0) :
    ∀ (i : ℕ) (b : Bound), bounds[i]? = some b → b ≠ (none, none) → ∃ v, r.pars[i]? = some (some v) ∧ StrictlyIn b v := by
  intro i b hbi hbn
  have hlm : ∀ t, (leastsqbound n inv func dflt minpack x0 (some bounds)).2 = .ok t → t.cov.isSome →
      1 ≤ t.info ∧ t.info ≤ 4 := by
    intro t ht hc
    obtain ⟨-, o, -, rfl⟩ := leastsqbound_ok ht
    by_contra hcon
    simp only at hc hcon
    rw [if_neg hcon] at hc
    simp at hc
  obtain ⟨t, c, fdiff, ht, hi1, hi4, hc, hfd, hd, htest⟩ :=
    (C40_flags_zero_iff n func eig nPrior kSpace _ hlm).mp ⟨r, hr, h0⟩
  obtain ⟨r', hr', -, hpars, -⟩ := C40_success n func eig nPrior kSpace t c fdiff ⟨hi1, hi4⟩ hc hfd hd htest
  rw [ht, hr'] at hr
  injection hr with hr
  subst hr
  rw [hpars]
  obtain ⟨hbl, o, ho, hto⟩ := leastsqbound_ok ht
  obtain ⟨hol, hperm⟩ := hsol _ _ o ho
  have hin : i < n := by
    have := (List.getElem?_eq_some_iff.1 hbi).1
    omega
  have hgood : ∀ g, gradAt bounds o.x i = g → ¬ (g = .nan ∨ (g = .fin 0 ∧ 2 ≤ n)) := by
    intro g hg hbad
    obtain ⟨k, hk⟩ := covR_nan (fun i => gradAt bounds o.x i.val) o.r o.ipvt hperm.2 ⟨i, hin⟩ (by rw [hg]; exact hbad)
    have hcx : covX inv (fun i => gradAt bounds o.x i.val) o.r o.ipvt = some c := by
      rw [hto] at hc hi1 hi4
      simp only at hc hi1 hi4
      rw [if_pos ⟨hi1, hi4⟩] at hc
      exact hc
    obtain ⟨a, a', hna⟩ := hinv _ _ ⟨k, k, hk⟩ hcx
    have := (C40_test_cov n eig _).2.1 (heig (scaledCov n nPrior c fdiff (lmDof fdiff.length nPrior n kSpace))
      ⟨a, a', (Fl.mul_not_finite hna _).1⟩)
    rw [htest] at this
    simp [Flags.EIG_NOTFINITE] at this
  have hxi : ∃ v, o.x[i]? = some (some v) := by
    have hsome : o.x[i]? = some o.x[i] := by simp [hol, hin]
    cases hv : o.x[i] with
    | some v => exact ⟨v, by rw [hsome, hv]⟩
    | none =>
      exfalso
      refine hgood .nan ?_ (Or.inl rfl)
      unfold gradAt
      rw [hbi, hsome, hv]
      rcases b with ⟨_ | l, _ | u⟩ <;> first | exact absurd rfl hbn | rfl
  obtain ⟨v, hv⟩ := hxi
  have hz : (bounds.zip o.x)[i]? = some (b, some v) := by
    rw [List.getElem?_zip_eq_some]; exact ⟨hbi, hv⟩
  have htx : t.x[i]? = some (some (i2eLam b v)) := by
    rw [hto]
    simp only [i2e, List.getElem?_map, hz, Option.map_some]
  refine ⟨_, htx, ?_⟩
  have hne : i2eGrad b v ≠ 0 := fun e => hgood _ (gradAt_some hbi hv) (Or.inr ⟨by rw [e], h2⟩)
  have hI := C39_inside b (fun l u e => hb l u (by rw [← e]; exact List.mem_of_getElem? hbi)) v
  refine ⟨fun l hl => lt_of_le_of_ne (hI.1 l hl) ?_, fun u hu => lt_of_le_of_ne (hI.2 u hu) ?_⟩
  · intro e
    exact hne (at_bound_grad b hbn v (Or.inl ⟨l, hl, e.symm⟩))
  · intro e
    exact hne (at_bound_grad b hbn v (Or.inr ⟨u, hu, e⟩))

/-- The unit matrix. -/
noncomputable def flOne (n : ℕ) : Fin n → Fin n → Fl := fun i j => .fin ((1 : Matrix (Fin n) (Fin n) ℝ) i j)

/-- numpy's `inv`: refuses what is not finite (one of the behaviours allowed) and what is singular. -/
noncomputable def exInv (n : ℕ) : NpInv n := fun M =>
  open Classical in
  if h : ∃ A : Matrix (Fin n) (Fin n) ℝ, M = fun i j => .fin (A i j) then
    if h.choose.det = 0 then none else some fun i j => .fin (h.choose⁻¹ i j)
  else none

theorem exInv_honest (n : ℕ) : InvHonest (exInv n) := by
  classical
  intro M
  have h : ∃ A : Matrix (Fin n) (Fin n) ℝ, (fun i j => Fl.fin (M i j)) = fun i j => .fin (A i j) := ⟨M, rfl⟩
  have hc : h.choose = M := by
    ext i j
    have := congrFun (congrFun h.choose_spec i) j
    exact (Fl.fin.inj this).symm
  unfold exInv
  rw [dif_pos h, hc]

theorem exInv_nan (n : ℕ) : InvNan (exInv n) := by
  rintro M C ⟨i, j, hij⟩ h
  unfold exInv at h
  split_ifs at h with h1 h2
  obtain ⟨A, rfl⟩ := h1
  simp at hij

/-- The hypotheses of `C40_inside_bounds` and `C39_returned_covariance` are met: two parameters, the first not below
zero, and a minimiser that ends at the internal point (1, 1). -/
example : ∃ (minpack : List (Option ℝ) → Minpack 2) (t : LmTup 2) (r : LmResult 2),
    (leastsqbound 2 (exInv 2) (fun _ => .ok [.fin 1, .fin 1, .fin 1]) ([], .error .notFinite) minpack [3, 4]
      (some [(some 0, none), (none, none)])).2 = .ok t ∧ t.cov.isSome ∧
    (∀ x f o, ((minpack x).run f).2 = .ok o → o.x.length = 2 ∧ Function.Bijective o.ipvt) ∧
    runLeastsq 2 (fun _ => .ok [.fin 1, .fin 1, .fin 1]) (fun _ => some [.fin 1]) 0 false (.ok t) = .ok r ∧
    r.flags = 0 := by
  classical
  let o : MinpackOut 2 := ⟨[some 1, some 1], fun i j => .fin ((1 : Matrix (Fin 2) (Fin 2) ℝ) i j), id, 3, 1⟩
  let D : Fin 2 → ℝ := ![1 / Real.sqrt 2, 1]
  have hs : Real.sqrt 2 ≠ 0 := by positivity
  have hD0 : ∀ i, D i ≠ 0 := by
    intro i; fin_cases i
    · change (1 / Real.sqrt 2 : ℝ) ≠ 0; positivity
    · exact one_ne_zero
  have hC : covX (exInv 2) (fun _ => .fin 1) o.r o.ipvt =
      some fun i j => .fin ((1 : Matrix (Fin 2) (Fin 2) ℝ) i j) := by
    rw [covX_fin (exInv 2) (exInv_honest 2) (fun _ => 1) (by simp) 1 o.ipvt 1 1]
    · simp
    · ext i j; fin_cases i <;> fin_cases j <;> simp
    · ext i j; fin_cases i <;> fin_cases j <;> simp [o]
  have hcov := C39_covariance (exInv 2) (exInv_honest 2) D hD0 1 o.ipvt 1 hC
  have hg : (fun i : Fin 2 => gradAt [(some 0, none), (none, none)] o.x i.val) = fun i => .fin (D i) := by
    funext i; fin_cases i
    · change Fl.fin (i2eGrad (some 0, none) 1) = .fin (1 / Real.sqrt 2)
      simp only [i2eGrad]; norm_num
    · rfl
  let t : LmTup 2 := ⟨i2e [(some 0, none), (none, none)] o.x,
    some fun i j => .fin ((Matrix.diagonal D * (1 : Matrix (Fin 2) (Fin 2) ℝ) * Matrix.diagonal D : Matrix (Fin 2) (Fin 2) ℝ) i j), 3, 1⟩
  refine ⟨fun _ => .ret o, t, ?_⟩
  have ht : testCov (fun _ => some [.fin 1])
      (scaledCov 2 0
        (fun i j => .fin ((Matrix.diagonal D * (1 : Matrix (Fin 2) (Fin 2) ℝ) * Matrix.diagonal D : Matrix (Fin 2) (Fin 2) ℝ) i j)) [.fin 1, .fin 1, .fin 1] 1) = 0 := by
    rw [(C40_test_cov 2 _ _).1]
    refine ⟨_, rfl, ?_, ?_⟩
    · intro x hx
      simp only [List.mem_singleton] at hx
      subst hx
      norm_num [Fl.lt]
    · intro i
      have h3 : flSumSq [.fin 1, .fin 1, .fin 1] = .fin 3 := by
        simp [flSumSq]; norm_num
      simp only [scaledCov, List.drop_zero, h3]
      rw [Fl.fin_div _ _ (by norm_num), Fl.fin_mul, Matrix.mul_one, Matrix.diagonal_mul_diagonal]
      simp only [Matrix.diagonal_apply_eq, Fl.lt, not_lt]
      have := mul_self_nonneg (D i)
      push_cast
      linarith
  obtain ⟨r, hr, hr0, -⟩ := C40_success 2 (fun _ => .ok [.fin 1, .fin 1, .fin 1]) (fun _ => some [.fin 1]) 0 false t _
    [.fin 1, .fin 1, .fin 1] (by decide) rfl rfl (by decide) ht
  refine ⟨r, ?_, rfl, ?_, hr, hr0⟩
  · simp only [leastsqbound]
    rw [if_neg (by simp), if_neg (by simp)]
    simp only [Minpack.run]
    rw [if_neg (by simp [o]), if_pos (by simp [o]), hg, hcov]
  · intro x f o' h
    simp only [Minpack.run, Except.ok.injEq] at h
    subst h
    exact ⟨rfl, Function.bijective_id⟩

end

end Ngmix.Props
