import Verif.Proof.AdmomAxes
import Verif.Props.EMUnit

/-!
# C97: adaptive moments do not depend on the unit of brightness, nor on the names, directions and origin of the sky axes
-/

namespace Ngmix.Props

open Ngmix Ngmix.Spec Ngmix.Proof.AdmomAxes Ngmix.Proof.EMUnit

noncomputable section

/-- C97.  Let the axes of the sky be exchanged, reversed or shifted (`M`), and let brightnesses be given in another unit
(`k > 0`): image values times `k`, inverse errors divided by `k`.  Then the run on the moved pixels, started from the
moved weight, raises the same exception, or has the same flags, number of iterations, size, signal to noise, fourth moment and
errors of the shape; fluxes and their errors are times `k`, `e1` and `e2` have the signs of the new axes.  The weight
that is left in the guess is the moved one. -/
theorem C97_axes (k : ℝ) (hk : 0 < k) (M : SkyMap) (hM : M.Iso) (hA : M.Axes) (conf : AMConf) (area : ℝ)
    (pixels pixels' : List Pixel) (hp : List.Forall₂ (AxesPixel k M) pixels pixels') (w w' : AMWt)
    (hw : List.Forall₂ (Brighter 1 M) w.list w'.list) (hd : ∀ g ∈ w.list ++ w'.list, DetCurrent g) :
    SameOutcome (SameMoments k M) (admomGo conf pixels area w).2 (admomGo conf pixels' area w').2 ∧
    List.Forall₂ (Brighter 1 M) (admomGo conf pixels area w).1.list (admomGo conf pixels' area w').1.list := by
  have hf := fresh_of hw (fun g hg => hd g (List.mem_append_left _ hg)) fun g hg => hd g (List.mem_append_right _ hg)
  rcases hf with _ | ⟨a, b⟩
  obtain ⟨h1, h2⟩ := go_rel hk hM hA conf area hp (w := w) (w' := w') ⟨a, b⟩
  exact ⟨h2, .cons h1.1.1 (h1.2.imp fun _ _ h => h.1)⟩

/-! ### Turned axes -/

theorem blur_pos (v u : ℝ) (hvu : v ^ 2 + u ^ 2 ≤ 4) (g : Gauss) (hs : SameGauss (gauss2dSet 1 0 0 2 0 2) g)
    (hn : NormsCurrent g) : 0 < gaussEvalFast g v u 1 := by
  obtain ⟨s1, s2, s3, s4, s5, s6⟩ := hs
  simp only [gauss2dSet] at s1 s2 s3 s4 s5 s6
  obtain ⟨y, peak, h1, h2, h3⟩ := C26_eval g hn (by rw [← s4, ← s6]; norm_num) (by rw [← s1]; exact zero_le_one) v u 1
    zero_le_one
  obtain ⟨d, hd, h4, h5, h6, h7, h8, h9⟩ := hn
  have hpn : 0 < d.pnorm := by
    rw [h9, ← s1, ← s4, ← s5, ← s6]
    have := Real.pi_pos
    norm_num
    positivity
  simp only [gaussEval, hd, Option.map_some, Option.some.injEq, mul_one] at h1 h2
  have hy : 0 < y := by
    rw [← h1]
    positivity
  have hchi : gaussChi2 g d v u ≤ 2 ∧ gaussChi2 g d g.row g.col = 0 := by
    simp only [gaussChi2, h5, h6, h7, ← s2, ← s3, ← s4, ← s5, ← s6]
    constructor
    · norm_num
      nlinarith
    · norm_num
  rcases h3 with h3 | ⟨-, h3⟩
  · by_contra h0
    push Not at h0
    have := (abs_le.1 h3).1
    norm_num at this
    linarith
  · exfalso
    rw [hchi.2, mul_zero, Real.exp_zero, mul_one] at h2
    rw [← h1, ← h2, mul_comm d.pnorm] at h3
    have h3 := le_of_mul_le_mul_right h3 hpn
    rw [Real.exp_le_exp] at h3
    linarith [hchi.1]

/-- One pixel at `(v, u)` near a round weight: the run fails in the first pass, because the centre moved too far along one of the
axes or because a single pixel has no size. -/
theorem one_pixel (v u s : ℝ) (hvu : v ^ 2 + u ^ 2 ≤ 4) (area : ℝ) :
    ∃ o, (admomGo ⟨10, s, 1, 1, false⟩ [⟨u, v, 1, 1, 1⟩] area ⟨gauss2dSet 1 0 0 2 0 2, []⟩).2 = .ok o ∧
      (|v| > s ∨ |u| > s → o.flags = Flags.CEN_SHIFT ||| Flags.NONPOS_VAR) ∧
      (¬ (|v| > s ∨ |u| > s) → o.flags = Flags.NONPOS_SIZE ||| Flags.NONPOS_VAR) := by
  obtain ⟨g, hn, hs, hd, hnc⟩ := round_norms 2 2 one_le_two one_le_two
  have hE := blur_pos v u hvu g hs hnc
  have hset : amSetNorms ⟨gauss2dSet 1 0 0 2 0 2, []⟩ = (⟨g, []⟩, .ok ()) := by
    simp only [amSetNorms, AMWt.list, hn]
  have hdet : ¬ (gauss2dSet 1 0 0 2 0 2).det < gmixLowDetval := by
    simp only [gauss2dSet]; norm_num [gmixLowDetval]
  have hev : ∀ x y a, gmixEvalFast [g] x y a = gaussEvalFast g x y a := by
    intro x y a
    rw [C27_sum_of_components]; simp
  have hval : ∀ (fl n : ℕ) (w : AMWt) (r : AMRes), fl ≠ 0 → n ≠ 10 → (r.sumsCov 2 2 = 0) →
      amLoop ⟨10, s, 1, 1, false⟩ (0, 0) [⟨u, v, 1, 1, 1⟩] 10 0 ⟨gauss2dSet 1 0 0 2 0 2, []⟩ AMRes.zero none =
        (w, { r with flags := fl }, .ok n) →
      ∃ o, (admomGo ⟨10, s, 1, 1, false⟩ [⟨u, v, 1, 1, 1⟩] area ⟨gauss2dSet 1 0 0 2 0 2, []⟩).2 = .ok o ∧
        o.flags = fl ||| Flags.NONPOS_VAR := by
    intro fl n w r hfl hn10 hc hloop
    have h10 : ¬ ((n : ℤ) = 10) := by exact_mod_cast hn10
    have hnb : admomNb ⟨10, s, 1, 1, false⟩ ⟨gauss2dSet 1 0 0 2 0 2, []⟩ [⟨u, v, 1, 1, 1⟩] AMRes.zero =
        (w, { r with flags := fl, numiter := n }, .ok ()) := by
      unfold admomNb
      rw [if_neg (by norm_num)]
      simp only [show ((10 : ℤ).toNat) = 10 from rfl, show (gauss2dSet 1 0 0 2 0 2).row = 0 from rfl,
        show (gauss2dSet 1 0 0 2 0 2).col = 0 from rfl, hloop, amFinish, if_neg h10]
    unfold admomGo
    rw [hnb]
    simp only [amGetResult, amBase, amFlux, amT, amRho4, if_neg hfl, Except.bind, amVarFlag]
    have hv : ¬ ∀ i : Fin 7, 2 ≤ i.val → r.sumsCov i i > 0 := fun h => by
      have := h 2 (by simp)
      rw [hc] at this
      exact lt_irrefl _ this
    rw [if_neg hv]
    simp only [amShape]
    rw [if_neg (or_ne_zero _ _ (by decide))]
    exact ⟨_, rfl, rfl⟩
  have hiter : amIter ⟨10, s, 1, 1, false⟩ (0, 0) [⟨u, v, 1, 1, 1⟩] ⟨gauss2dSet 1 0 0 2 0 2, []⟩ AMRes.zero none =
      amPass ⟨10, s, 1, 1, false⟩ (0, 0) [⟨u, v, 1, 1, 1⟩] ⟨g, []⟩ AMRes.zero none := by
    unfold amIter
    rw [if_neg hdet, hset]
  have hc : ∀ i, (amCensums ⟨g, []⟩ [⟨u, v, 1, 1, 1⟩] (amClear AMRes.zero)).sums i =
      if i = 0 then gaussEvalFast g v u 1 * v else if i = 1 then gaussEvalFast g v u 1 * u
        else if i = 5 then gaussEvalFast g v u 1 else 0 := by
    intro i
    simp only [amCensums, List.foldl_cons, List.foldl_nil, cenStep, AMWt.list, hev, amClear, zero_add, mul_one]
  have hcov : (amCensums ⟨g, []⟩ [⟨u, v, 1, 1, 1⟩] (amClear AMRes.zero)).sumsCov 2 2 = 0 := by
    simp only [amCensums, List.foldl_cons, List.foldl_nil, cenStep, amClear]
  generalize hcdef : amCensums ⟨g, []⟩ [⟨u, v, 1, 1, 1⟩] (amClear AMRes.zero) = c at hc hcov
  have c0 : c.sums 0 / c.sums 5 = v := by
    rw [hc, hc]; simp [hE.ne']
  have c1 : c.sums 1 / c.sums 5 = u := by
    rw [hc, hc]; simp [hE.ne']
  have c5 : ¬ c.sums 5 ≤ 0 := by rw [hc]; simp [hE]
  by_cases hsh : |v| > s ∨ |u| > s
  · have hpass : amPass ⟨10, s, 1, 1, false⟩ (0, 0) [⟨u, v, 1, 1, 1⟩] ⟨g, []⟩ AMRes.zero none =
        (⟨{ g with row := v, col := u }, []⟩, { c with flags := Flags.CEN_SHIFT }, .ok .brk) := by
      unfold amPass
      simp only [hcdef, if_neg c5, c0, c1, sub_zero, if_pos hsh]
    obtain ⟨o, h1, h2⟩ := hval Flags.CEN_SHIFT 1 _ c (by decide) (by decide) hcov (by
      unfold amLoop
      rw [hiter, hpass])
    exact ⟨o, h1, fun _ => h2, fun h => absurd hsh h⟩
  · have hF : ∀ i, i = 2 ∨ i = 4 → amF { g with row := v, col := u } ⟨u, v, 1, 1, 1⟩ i = 0 := by
      rintro i (rfl | rfl) <;> simp [amF]
    have hm : ∃ r, amMomsums ⟨{ g with row := v, col := u }, []⟩ [⟨u, v, 1, 1, 1⟩] (amClear c) = .ok r ∧ r.sums 4 = 0 ∧
        r.sumsCov 2 2 = 0 ∧ 0 < r.sums 5 := by
      have hE0 := blur_pos 0 0 (by norm_num) g hs hnc
      have hcen : gaussEvalFast { g with row := v, col := u } v u 1 = gaussEvalFast g 0 0 1 := by
        have h1 : g.row = 0 := hs.2.1.symm
        have h2 : g.col = 0 := hs.2.2.1.symm
        simp only [gaussEvalFast, gaussChi2, sub_self, h1, h2]
      refine ⟨_, by simp only [amMomsums]; rw [if_neg (by norm_num)], ?_, ?_, ?_⟩
      · simp only [momStep, amClear, hF 4 (.inr rfl), mul_zero, add_zero]
      · simp only [momStep, amClear, hF 2 (.inl rfl), mul_zero, add_zero]
      · simp only [momStep, amClear, AMWt.list, gmixEvalFast, List.foldl_cons, List.foldl_nil, zero_add, hcen, mul_one]
        have h5 : amF { g with row := v, col := u } ⟨u, v, 1, 1, 1⟩ 5 = 1 := by simp [amF]; norm_num
        rw [h5, mul_one]
        exact hE0
    obtain ⟨r, hm, hr4, hr2, hr5⟩ := hm
    have hpass : amPass ⟨10, s, 1, 1, false⟩ (0, 0) [⟨u, v, 1, 1, 1⟩] ⟨g, []⟩ AMRes.zero none =
        (⟨{ g with row := v, col := u }, []⟩, { r with flags := Flags.NONPOS_SIZE }, .ok .brk) := by
      unfold amPass
      simp only [hcdef, if_neg c5, c0, c1, sub_zero, if_neg hsh, hm, amDecide, if_neg (not_le.2 hr5), hr4, zero_mul, le_refl,
        if_true]
    obtain ⟨o, h1, h2⟩ := hval Flags.NONPOS_SIZE 1 _ r (by decide) (by decide) hr2 (by
      unfold amLoop
      rw [hiter, hpass])
    exact ⟨o, h1, fun h => absurd h hsh, fun _ => h2⟩

/-- C97 (violation): the measurement depends on the angle of the axes.  The same pixel and the same round weight in axes turned by 53
degrees: in the first the centre is said to have moved too far, in the second it is not, because `shiftmax` is compared
with the shift along each axis and not with the distance. -/
theorem C97_rotated (area : ℝ) : turn345.Iso ∧ AxesPixel 1 turn345 ⟨0, 5 / 3, 1, 1, 1⟩ ⟨4 / 3, 1, 1, 1, 1⟩ ∧
    Brighter 1 turn345 (gauss2dSet 1 0 0 2 0 2) (gauss2dSet 1 0 0 2 0 2) ∧
    ∃ o o', (admomGo ⟨10, 3 / 2, 1, 1, false⟩ [⟨0, 5 / 3, 1, 1, 1⟩] area ⟨gauss2dSet 1 0 0 2 0 2, []⟩).2 = .ok o ∧
      (admomGo ⟨10, 3 / 2, 1, 1, false⟩ [⟨4 / 3, 1, 1, 1, 1⟩] area ⟨gauss2dSet 1 0 0 2 0 2, []⟩).2 = .ok o' ∧
      o.flags = Flags.CEN_SHIFT ||| Flags.NONPOS_VAR ∧ o'.flags = Flags.NONPOS_SIZE ||| Flags.NONPOS_VAR ∧ o'.flags ≠ o.flags := by
  obtain ⟨o, h1, h2, -⟩ := one_pixel (5 / 3) 0 (3 / 2) (by norm_num) area
  obtain ⟨o', h1', -, h2'⟩ := one_pixel 1 (4 / 3) (3 / 2) (by norm_num) area
  have e := h2 (.inl (by rw [abs_of_pos (by norm_num)]; norm_num))
  have e' := h2' (by rw [abs_of_pos (by norm_num), abs_of_pos (by norm_num)]; norm_num)
  refine ⟨by simp only [SkyMap.Iso, turn345]; norm_num, by simp only [AxesPixel, SkyMap.point, turn345]; norm_num,
    by simp only [Brighter, Moved, gauss2dSet, SkyMap.point, turn345]; norm_num, o, o', h1, h1', e, e', ?_⟩
  rw [e, e']
  decide

/-! ### The hypotheses are met -/

/-- Rows and columns exchanged and the origin shifted, brightness in a unit half as large. -/
example : (⟨0, 1, 1, 0, 3, -2⟩ : SkyMap).Iso ∧ (⟨0, 1, 1, 0, 3, -2⟩ : SkyMap).Axes ∧
    List.Forall₂ (AxesPixel 2 ⟨0, 1, 1, 0, 3, -2⟩) [⟨1, 5, 1, 7, 4⟩, ⟨0, 0, 1, 3, 2⟩] [⟨3, 4, 1, 14, 2⟩, ⟨-2, 3, 1, 6, 1⟩] ∧
    List.Forall₂ (Brighter 1 ⟨0, 1, 1, 0, 3, -2⟩) [gauss2dSet 1 0 1 2 1 3] [gauss2dSet 1 4 (-2) 3 1 2] ∧
    (⟨0, 1, 1, 0, 3, -2⟩ : SkyMap).sign1 = -1 ∧ (⟨0, 1, 1, 0, 3, -2⟩ : SkyMap).sign2 = 1 ∧
    (∀ g ∈ [gauss2dSet 1 0 1 2 1 3] ++ [gauss2dSet 1 4 (-2) 3 1 2], DetCurrent g) := by
  refine ⟨by simp only [SkyMap.Iso]; norm_num, .inr ⟨rfl, rfl⟩, ?_, ?_, by norm_num [SkyMap.sign1], by norm_num [SkyMap.sign2], ?_⟩
  · refine .cons ?_ (.cons ?_ .nil) <;> simp only [AxesPixel, SkyMap.point] <;> norm_num
  · refine .cons ?_ .nil
    simp only [Brighter, Moved, gauss2dSet, SkyMap.point]; norm_num
  · intro g hg
    simp only [List.cons_append, List.nil_append, List.mem_cons, List.not_mem_nil, or_false] at hg
    rcases hg with rfl | rfl <;> rfl

/-- The measurement of C51 with zero flags, with columns reversed and values three times as large. -/
example : ∃ o, (admomGo (exConf 3 true) [⟨-2, 1, 1, 3, 1 / 3⟩, ⟨2, -1, 1, 3, 1 / 3⟩] 1 ⟨exG, []⟩).2 = .ok o ∧ o.flags = 0 ∧
    o.numiter = 2 ∧ o.T = .fin 2 := by
  obtain ⟨w, o, h1, h2, -, h3⟩ := C51_converged_at_maxiter 1
  obtain ⟨h3, -, h4⟩ := h3 one_ne_zero
  have hc := (C97_axes 3 (by norm_num) ⟨1, 0, 0, -1, 0, 0⟩ (by simp only [SkyMap.Iso]; norm_num) (.inl ⟨rfl, rfl⟩) (exConf 3 true) 1
    exPix [⟨-2, 1, 1, 3, 1 / 3⟩, ⟨2, -1, 1, 3, 1 / 3⟩]
    (.cons (by simp only [AxesPixel, SkyMap.point]; norm_num) (.cons (by simp only [AxesPixel, SkyMap.point]; norm_num) .nil))
    ⟨exG, []⟩ ⟨exG, []⟩ (.cons (by simp [Brighter, Moved, exG, gauss2dSet, SkyMap.point]) .nil) (by
      intro g hg
      simp only [AMWt.list, List.cons_append, List.nil_append, List.mem_cons, List.not_mem_nil, or_false, or_self] at hg
      rw [hg]; rfl)).1
  have e : admomGo (exConf 3 true) exPix 1 ⟨exG, []⟩ = (w, .ok o) := by
    have : ((1 : ℕ) : ℤ) + 2 = 3 := by norm_num
    rw [this] at h1
    exact h1
  rw [e] at hc
  rcases hx : (admomGo (exConf 3 true) [⟨-2, 1, 1, 3, 1 / 3⟩, ⟨2, -1, 1, 3, 1 / 3⟩] 1 ⟨exG, []⟩).2 with x | o'
  · rw [hx] at hc; exact hc.elim
  · rw [hx] at hc
    exact ⟨o', rfl, hc.flags.trans h3, hc.numiter.trans h2, hc.T.trans h4⟩

end

end Ngmix.Props
