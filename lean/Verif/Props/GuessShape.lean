import Verif.Props.Guessers
import Mathlib.Tactic.IntervalCases

/-! # C62, continued: shapes, `ParsGuesser` and the spergel index -/

namespace Ngmix.Props

open Spec JointPrior

theorem srandu_between {σ : Type} {r : URng σ} (h : r.Unit) (w : ℝ) (s : σ) :
    Between (-w) w (w * (r.uniform (-1.0) 1.0 s).1) := by
  have := between_affine (affine_mul w) (uniform_between h (-1.0) 1.0 s)
  have h1 : w * (-1.0) = -w := by norm_num
  have h2 : w * 1.0 = w := by norm_num
  rwa [h1, h2] at this

theorem between_sq {w o : ℝ} (h : Between (-w) w o) : o ^ 2 ≤ w ^ 2 := by
  obtain ⟨h1, h2⟩ := h
  rcases le_total 0 w with hw | hw
  · rw [min_eq_left (by linarith)] at h1; rw [max_eq_right (by linarith)] at h2
    nlinarith
  · rw [min_eq_right (by linarith)] at h1; rw [max_eq_left (by linarith)] at h2
    nlinarith

/-- `x` is the shape `c` sheared by an offset within the widths, and inside the disk. -/
def ShearedWithin (c : ℝ × ℝ) (w1 w2 : ℝ) (x : ℝ × ℝ) : Prop :=
  InDisk x.1 x.2 ∧ ∃ o1 o2, Between (-w1) w1 o1 ∧ Between (-w2) w2 o2 ∧ toC x = mobius (toC c) (toC (o1, o2))

theorem shapeDraw_spec {σ : Type} {r : URng σ} (h : r.Unit) (w1 w2 : ℝ) (sh : ShapeObj) (fuel : ℕ) (s : σ)
    {res : Except PyErr ((ℝ × ℝ) × σ)} (hres : shapeDraw r w1 w2 sh fuel s = some res) :
    (∃ x s', res = .ok (x, s') ∧ ShearedWithin (sh.g1, sh.g2) w1 w2 x) ∨ (res = .error .zeroDiv ∧ 1 < w1 ^ 2 + w2 ^ 2 ∨ res = .error .zeroDiv ∧ ¬ InDisk sh.g1 sh.g2) := by
  induction fuel generalizing s with
  | zero => simp [shapeDraw] at hres
  | succ n ih =>
      simp only [shapeDraw] at hres
      set o1 := w1 * (r.uniform (-1.0) 1.0 s).1 with ho1
      set o2 := w2 * (r.uniform (-1.0) 1.0 (r.uniform (-1.0) 1.0 s).2).1 with ho2
      have hb1 : Between (-w1) w1 o1 := srandu_between h w1 s
      have hb2 : Between (-w2) w2 o2 := srandu_between h w2 _
      simp only [ShapeObj.getSheared, shearReducedE] at hres
      split_ifs at hres with hz0
      · simp only [Except.bind] at hres
        cases hres
        have hz : 1 + sh.g1 * o1 + sh.g2 * o2 = 0 ∧ sh.g2 * o1 - sh.g1 * o2 = 0 := by
          constructor <;> nlinarith [mul_self_nonneg (sh.g2 * o1 - sh.g1 * o2), mul_self_nonneg (1 + sh.g1 * o1 + sh.g2 * o2)]
        right
        by_cases hd : InDisk sh.g1 sh.g2
        · left
          refine ⟨rfl, ?_⟩
          by_contra hle
          have h1 := between_sq hb1
          have h2 := between_sq hb2
          unfold InDisk at hd
          have hA : sh.g1 * o1 + sh.g2 * o2 = -1 := by linarith [hz.1]
          have : (sh.g1 * o1 + sh.g2 * o2) ^ 2 + (sh.g2 * o1 - sh.g1 * o2) ^ 2 = (sh.g1 ^ 2 + sh.g2 ^ 2) * (o1 ^ 2 + o2 ^ 2) := by ring
          rw [hA, hz.2] at this
          nlinarith [sq_nonneg o1, sq_nonneg o2, sq_nonneg sh.g1, sq_nonneg sh.g2]
        · exact Or.inr ⟨rfl, hd⟩
      · simp only [Except.bind] at hres
        by_cases hd : InDisk (shearReduced sh.g1 sh.g2 o1 o2).1 (shearReduced sh.g1 sh.g2 o1 o2).2
        · rw [new_ok hd] at hres
          cases hres
          exact Or.inl ⟨_, _, rfl, hd, o1, o2, hb1, hb2, shearReduced_eq_mobius _ _ _ _⟩
        · rw [new_err hd] at hres
          exact ih _ hres

theorem shapeDraw_first {σ : Type} {r : URng σ} (h : r.Unit) (w1 w2 : ℝ) (hw : w1 ^ 2 + w2 ^ 2 < 1) (sh : ShapeObj)
    (hsh : InDisk sh.g1 sh.g2) (n : ℕ) (s : σ) : ∃ x s', shapeDraw r w1 w2 sh (n + 1) s = some (.ok (x, s')) := by
  have h1 := between_sq (srandu_between h w1 s)
  have h2 := between_sq (srandu_between h w2 (r.uniform (-1.0) 1.0 s).2)
  simp only [shapeDraw]
  generalize w1 * (r.uniform (-1.0) 1.0 s).1 = o1 at *
  generalize w2 * (r.uniform (-1.0) 1.0 (r.uniform (-1.0) 1.0 s).2).1 = o2 at *
  have hs : InDisk o1 o2 := by unfold InDisk; linarith
  simp only [sheared_ok hsh hs]
  exact ⟨_, _, rfl⟩

theorem shapeDraws_spec {σ : Type} {r : URng σ} (h : r.Unit) (w1 w2 : ℝ) (sh : ShapeObj) (fuel n : ℕ) (s : σ)
    {res : Except PyErr (List (ℝ × ℝ) × σ)} (hres : shapeDraws r w1 w2 sh fuel n s = some res) :
    (∃ xs s', res = .ok (xs, s') ∧ xs.length = n ∧ ∀ x ∈ xs, ShearedWithin (sh.g1, sh.g2) w1 w2 x) ∨
      (res = .error .zeroDiv ∧ (1 < w1 ^ 2 + w2 ^ 2 ∨ ¬ InDisk sh.g1 sh.g2)) := by
  induction n generalizing s res with
  | zero =>
      simp only [shapeDraws, Option.some.injEq] at hres
      exact Or.inl ⟨[], s, hres.symm, rfl, by simp⟩
  | succ n ih =>
      simp only [shapeDraws] at hres
      rcases hd : shapeDraw r w1 w2 sh fuel s with _ | d
      · rw [hd] at hres; cases hres
      · rw [hd] at hres
        rcases shapeDraw_spec h w1 w2 sh fuel s hd with ⟨x, s', rfl, hx⟩ | ⟨rfl, hx⟩ | ⟨rfl, hx⟩
        · simp only [Option.map_eq_some_iff] at hres
          obtain ⟨y, hy, rfl⟩ := hres
          rcases ih s' hy with ⟨xs, s2, rfl, hl, hxs⟩ | ⟨rfl, hz⟩
          · refine Or.inl ⟨x :: xs, s2, rfl, by simp [hl], ?_⟩
            intro z hz
            rcases List.mem_cons.1 hz with rfl | hz
            · exact hx
            · exact hxs z hz
          · exact Or.inr ⟨rfl, hz⟩
        · cases hres; exact Or.inr ⟨rfl, Or.inl hx⟩
        · cases hres; exact Or.inr ⟨rfl, Or.inr hx⟩

theorem shapeDraws_total {σ : Type} {r : URng σ} (h : r.Unit) (w1 w2 : ℝ) (hw : w1 ^ 2 + w2 ^ 2 < 1) (sh : ShapeObj)
    (hsh : InDisk sh.g1 sh.g2) (fuel n : ℕ) (s : σ) : ∃ xs s', shapeDraws r w1 w2 sh (fuel + 1) n s = some (.ok (xs, s')) := by
  induction n generalizing s with
  | zero => exact ⟨[], s, rfl⟩
  | succ n ih =>
      obtain ⟨x, s1, hx⟩ := shapeDraw_first h w1 w2 hw sh hsh fuel s
      obtain ⟨xs, s2, hxs⟩ := ih s1
      refine ⟨x :: xs, s2, ?_⟩
      rw [shapeDraws, hx]
      simp only [hxs, Option.map_some, Except.map]

/-- `c` is the shape `g`, shortened to length `max` if it is longer. -/
def Shortened (g : ℝ × ℝ) (max : ℝ) (c : ℝ × ℝ) : Prop :=
  (‖toC g‖ ≤ max → c = g) ∧ (max < ‖toC g‖ → ‖toC c‖ = max ∧ SameDirection g c)

theorem norm_toC (g : ℝ × ℝ) : ‖toC g‖ = Real.sqrt (g.1 ^ 2 + g.2 ^ 2) := by
  rw [← Real.sqrt_sq (norm_nonneg (toC g)), Complex.sq_norm, Complex.normSq_apply]
  simp [toC, pow_two]

theorem shapeClamp_spec (g1 g2 max : ℝ) (hm : 0 ≤ max) : Shortened (g1, g2) max (shapeClamp g1 g2 max) := by
  have hn : ‖toC (g1, g2)‖ = Real.sqrt (g1 ^ 2 + g2 ^ 2) := norm_toC _
  constructor
  · intro h
    rw [hn] at h
    simp [shapeClamp, not_lt.2 h]
  · intro h
    have hg : 0 < Real.sqrt (g1 ^ 2 + g2 ^ 2) := by rw [hn] at h; linarith
    have hc : shapeClamp g1 g2 max = (max / ‖toC (g1, g2)‖ * g1, max / ‖toC (g1, g2)‖ * g2) := by
      rw [hn] at h ⊢
      simp only [shapeClamp, gt_iff_lt, h, if_true]
      exact Prod.ext (mul_comm _ _) (mul_comm _ _)
    rw [hn] at hc
    refine ⟨?_, max / Real.sqrt (g1 ^ 2 + g2 ^ 2), by positivity, hc⟩
    have h2 : toC (shapeClamp g1 g2 max) = ((max / Real.sqrt (g1 ^ 2 + g2 ^ 2) : ℝ) : ℂ) * toC (g1, g2) := by
      rw [hc]; apply Complex.ext <;> simp [toC]
    rw [h2, norm_mul, hn, Complex.norm_real, Real.norm_of_nonneg (by positivity)]
    field_simp

theorem shapeClamp_inDisk (g1 g2 max : ℝ) (hm : 0 ≤ max) (hm1 : max < 1) :
    InDisk (shapeClamp g1 g2 max).1 (shapeClamp g1 g2 max).2 := by
  rw [inDisk_iff_norm]
  obtain ⟨h1, h2⟩ := shapeClamp_spec g1 g2 max hm
  rcases le_or_gt ‖toC (g1, g2)‖ max with h | h
  · rw [h1 h]; linarith
  · rw [(h2 h).1]; exact hm1

/-- **C62 (shapes).** For a maximum below 1, `get_shape_guess` returns as many shapes as asked for, all inside the disk, each
the given shape (shortened to the maximum if longer) sheared by an offset within the widths.  It fails only when the addition
formula has a vanishing denominator, which needs widths reaching beyond 1. -/
theorem C62_shape {σ : Type} {r : URng σ} (h : r.Unit) (g1 g2 : ℝ) (n : ℕ) (w1 w2 max : ℝ) (hm : 0 ≤ max) (hm1 : max < 1)
    (fuel : ℕ) (s : σ) {res : Except PyErr (List (ℝ × ℝ) × σ)} (hres : getShapeGuess r g1 g2 n w1 w2 max fuel s = some res) :
    ∃ c, Shortened (g1, g2) max c ∧
      ((∃ xs s', res = .ok (xs, s') ∧ xs.length = n ∧ ∀ x ∈ xs, ShearedWithin c w1 w2 x) ∨
        (res = .error .zeroDiv ∧ 1 < w1 ^ 2 + w2 ^ 2)) := by
  have hd := shapeClamp_inDisk g1 g2 max hm hm1
  refine ⟨shapeClamp g1 g2 max, shapeClamp_spec g1 g2 max hm, ?_⟩
  rw [getShapeGuess, new_ok hd] at hres
  rcases shapeDraws_spec h w1 w2 _ fuel n s hres with hok | ⟨h1, h2 | h2⟩
  · exact Or.inl hok
  · exact Or.inr ⟨h1, h2⟩
  · exact absurd hd h2

/-- **C62 (shapes, no repetition).** With widths inside the unit circle the first draw always serves: the call returns. -/
theorem C62_shape_returns {σ : Type} {r : URng σ} (h : r.Unit) (g1 g2 : ℝ) (n : ℕ) (w1 w2 max : ℝ) (hm : 0 ≤ max)
    (hm1 : max < 1) (hw : w1 ^ 2 + w2 ^ 2 < 1) (s : σ) :
    ∃ xs s', getShapeGuess r g1 g2 n w1 w2 max 1 s = some (.ok (xs, s')) := by
  have hd := shapeClamp_inDisk g1 g2 max hm hm1
  obtain ⟨xs, s', hx⟩ := shapeDraws_total h w1 w2 hw ⟨_, _, _⟩ hd 0 n s
  exact ⟨xs, s', by rw [getShapeGuess, new_ok hd]; exact hx⟩

/-- **C62 (shapes, violation).** The shape returned can be longer than the maximum: only the centre is shortened. -/
theorem C62_shape_above_max : ∃ x s', getShapeGuess constRng 0.8 0 1 0.1 0 0.8 1 () = some (.ok ([x], s')) ∧
    0.8 < ‖toC x‖ := by
  obtain ⟨xs, s', hx⟩ := C62_shape_returns constRng_unit 0.8 0 1 0.1 0 0.8 (by norm_num) (by norm_num) (by norm_num) ()
  have hc : shapeClamp 0.8 0 0.8 = (0.8, 0) := by
    refine (shapeClamp_spec 0.8 0 0.8 (by norm_num)).1 ?_
    rw [norm_toC]
    apply Real.sqrt_le_iff.2
    norm_num
  have hv : getShapeGuess constRng 0.8 0 1 0.1 0 0.8 1 () = some (.ok ([(0.85 / 1.04, 0)], ())) := by
    have hd : InDisk (0.8 : ℝ) 0 := by unfold InDisk; norm_num
    have hu : ((-1.0 : ℝ) + (1.0 - -1.0) * (3 / 4)) = 1 / 2 := by norm_num
    have hsh : shearReduced 0.8 0 (0.1 * (1 / 2)) (0 * (1 / 2)) = (0.85 / 1.04, 0) := by
      simp only [shearReduced]
      norm_num
    have hd2 : InDisk (0.85 / 1.04 : ℝ) 0 := by unfold InDisk; norm_num
    rw [getShapeGuess, hc]
    simp only [new_ok hd, shapeDraws, shapeDraw, URng.uniform, constRng, hu]
    rw [sheared_ok (s := ⟨0.8, 0, _⟩) hd (by unfold InDisk; norm_num)]
    simp only [hsh, Option.map_some, Except.map]
  refine ⟨_, _, hv, ?_⟩
  rw [norm_toC]
  apply Real.lt_sqrt_of_sq_lt
  norm_num

/-- **C62 (shapes, refused).** With a maximum of 1 or more a shape outside the disk that is not longer than the maximum is
refused with a range error. -/
theorem C62_shape_refused {σ : Type} (r : URng σ) (g1 g2 : ℝ) (n : ℕ) (w1 w2 max : ℝ) (hm : 1 ≤ max)
    (hg : ¬ InDisk g1 g2) (fuel : ℕ) (s : σ) : getShapeGuess r g1 g2 n w1 w2 max fuel s = some (.error .gmixRange) := by
  have hno : ¬ InDisk (shapeClamp g1 g2 max).1 (shapeClamp g1 g2 max).2 := by
    rw [inDisk_iff_norm]
    obtain ⟨h1, h2⟩ := shapeClamp_spec g1 g2 max (by linarith)
    rcases le_or_gt ‖toC (g1, g2)‖ max with h | h
    · rw [h1 h, ← inDisk_iff_norm]; exact hg
    · rw [(h2 h).1]; linarith
  rw [getShapeGuess, new_err hno]

end Ngmix.Props
