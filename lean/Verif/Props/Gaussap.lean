import Verif.Props.GaussMom
import Verif.Props.Composite

/-!
# C64: gaussian apertures
-/

namespace Ngmix.Props

open Ngmix Ngmix.Spec MeasureTheory

noncomputable section

/-- Determinant of the covariance widened by the aperture. -/
def wideDet (s2 : ℝ) (g : Gauss) : ℝ := (g.irr + s2) * (g.icc + s2) - g.irc ^ 2

theorem inv2_diag (s2 : ℝ) (h : s2 ≠ 0) : inv2 s2 0.0 0.0 s2 = .ok (1 / s2, 0, 0, 1 / s2) := by
  have z : (0.0 : ℝ) = 0 := by norm_num
  unfold inv2
  rw [z, if_neg (by simpa using h)]
  congr 1
  ext <;> simp <;> field_simp

theorem inv2_zero : inv2 0 0.0 0.0 0 = .error .linAlg := by
  have z : (0.0 : ℝ) = 0 := by norm_num
  unfold inv2
  rw [z, if_pos (by simp)]

theorem newdet_eq (g : Gauss) (s2 : ℝ) (hs : 0 < s2) (hd : DetCurrent g) (hdet : 0 < g.det) :
    (wideDet s2 g = 0 → apNewdet g (1 / s2, 0, 0, 1 / s2) = .error .linAlg) ∧
    (wideDet s2 g ≠ 0 → apNewdet g (1 / s2, 0, 0, 1 / s2) = .ok (g.det * s2 ^ 2 / wideDet s2 g)) := by
  have hd' : g.irr * g.icc - g.irc * g.irc = g.det := hd.symm
  have hm : inv2 g.irr g.irc g.irc g.icc = .ok (g.icc / g.det, -g.irc / g.det, -g.irc / g.det, g.irr / g.det) := by
    unfold inv2
    rw [hd', if_neg hdet.ne']
  have hsum : (g.icc / g.det + 1 / s2) * (g.irr / g.det + 1 / s2) - (-g.irc / g.det + 0) * (-g.irc / g.det + 0) =
      wideDet s2 g / (g.det * s2 ^ 2) := by
    unfold wideDet
    rw [eq_div_iff (by positivity)]
    field_simp
    rw [← hd']
    ring
  unfold apNewdet
  rw [hm]
  simp only [Except.bind]
  constructor
  · intro h0
    unfold inv2
    rw [hsum, h0, zero_div, if_pos rfl]
    rfl
  · intro h0
    have hne : wideDet s2 g / (g.det * s2 ^ 2) ≠ 0 := div_ne_zero h0 (by positivity)
    unfold inv2
    rw [hsum, if_neg hne]
    simp only [Except.map]
    congr 1
    generalize hX : wideDet s2 g / (g.det * s2 ^ 2) = X at *
    have hA : g.det * s2 ^ 2 / wideDet s2 g = 1 / X := by rw [← hX, one_div_div]
    rw [hA]
    have : (g.irr / g.det + 1 / s2) / X * ((g.icc / g.det + 1 / s2) / X) -
        -(-g.irc / g.det + 0) / X * (-(-g.irc / g.det + 0) / X) =
        ((g.icc / g.det + 1 / s2) * (g.irr / g.det + 1 / s2) - (-g.irc / g.det + 0) * (-g.irc / g.det + 0)) / (X * X) := by
      ring
    rw [this, hsum]
    field_simp

/-- C64.  The factor of every gaussian: one below the threshold of the determinant; otherwise the gaussian integral
`s2 / sqrt(det(M + s2 I))`, which is between 0 and 1 for a positive definite covariance. -/
theorem C64_factor (g : Gauss) (s2 : ℝ) (hs : 0 < s2) (hd : DetCurrent g) :
    (g.det ≤ gmixLowDetval → apFactor g (1 / s2, 0, 0, 1 / s2) = some 1) ∧
    (gmixLowDetval < g.det → 0 < g.irr →
      apFactor g (1 / s2, 0, 0, 1 / s2) = some (s2 / Real.sqrt (wideDet s2 g)) ∧
      0 < s2 / Real.sqrt (wideDet s2 g) ∧ s2 / Real.sqrt (wideDet s2 g) < 1) ∧
    (gmixLowDetval < g.det → wideDet s2 g = 0 → apFactor g (1 / s2, 0, 0, 1 / s2) = some 1) ∧
    (gmixLowDetval < g.det → wideDet s2 g < 0 → apFactor g (1 / s2, 0, 0, 1 / s2) = none) := by
  have hl := lowDet_pos
  refine ⟨fun h => ?_, fun h hirr => ?_, fun h h0 => ?_, fun h h0 => ?_⟩
  · unfold apFactor
    rw [if_neg (not_lt.2 h)]
  · have hdet : 0 < g.det := by linarith
    have hdet' : 0 < g.irr * g.icc - g.irc * g.irc := by rw [← hd]; exact hdet
    have hicc : 0 < g.icc := by
      by_contra hc
      nlinarith [mul_nonneg hirr.le (neg_nonneg.2 (not_lt.1 hc)), sq_nonneg g.irc]
    have hw : s2 ^ 2 < wideDet s2 g := by
      unfold wideDet
      nlinarith [mul_pos hs hirr, mul_pos hs hicc]
    have hwp : 0 < wideDet s2 g := lt_trans (by positivity) hw
    have hrt : s2 < Real.sqrt (wideDet s2 g) := Real.lt_sqrt_of_sq_lt hw
    have hrp : 0 < Real.sqrt (wideDet s2 g) := lt_trans hs hrt
    have hlt : s2 / Real.sqrt (wideDet s2 g) < 1 := (div_lt_one hrp).2 hrt
    refine ⟨?_, div_pos hs hrp, hlt⟩
    unfold apFactor
    rw [if_pos h, (newdet_eq g s2 hs hd hdet).2 hwp.ne']
    have hq : g.det * s2 ^ 2 / wideDet s2 g / g.det = s2 ^ 2 / wideDet s2 g := by field_simp
    have hsq : Real.sqrt (s2 ^ 2 / wideDet s2 g) = s2 / Real.sqrt (wideDet s2 g) := by
      rw [Real.sqrt_div (by positivity), Real.sqrt_sq hs.le]
    simp only [hq, hsq]
    rw [if_neg (not_lt.2 (by positivity)), if_neg (not_lt.2 hlt.le)]
  · have hdet : 0 < g.det := by linarith
    unfold apFactor
    rw [if_pos h, (newdet_eq g s2 hs hd hdet).1 h0]
  · have hdet : 0 < g.det := by linarith
    unfold apFactor
    rw [if_pos h, (newdet_eq g s2 hs hd hdet).2 h0.ne]
    have hq : g.det * s2 ^ 2 / wideDet s2 g / g.det = s2 ^ 2 / wideDet s2 g := by field_simp
    simp only [hq]
    rw [if_pos (div_neg_of_pos_of_neg (by positivity) h0)]

/-- C64.  The factor is the fraction of the gaussian's flux seen through the weight `exp(-r^2 / (2 s2))` centred on it. -/
theorem C64_integral (g : Gauss) (h : NormsCurrent g) (hT : 0 < g.irr + g.icc) (s2 : ℝ) (hs : 0 < s2) :
    ∃ f : ℝ × ℝ → ℝ, (∀ v u, gaussEval g v u 1 = some (f (v, u))) ∧
      Integrable (fun z : ℝ × ℝ => f z * Real.exp (-(((z.1 - g.row) ^ 2 + (z.2 - g.col) ^ 2) / (2 * s2)))) ∧
      ∫ z : ℝ × ℝ, f z * Real.exp (-(((z.1 - g.row) ^ 2 + (z.2 - g.col) ^ 2) / (2 * s2))) = apertureOf s2 g := by
  obtain ⟨d, hd, hdet, h1, h2, h3, h4, h5⟩ := id h
  have hirr := (chi2_square g d hd h hT 0 0).1
  set D := g.irr * g.icc - g.irc * g.irc with hDd
  have hicc : 0 < g.icc := by
    by_contra hc
    nlinarith [mul_nonneg hirr.le (neg_nonneg.2 (not_lt.1 hc)), sq_nonneg g.irc]
  set W := wideDet s2 g with hW
  have hWe : W = s2 ^ 2 + s2 * (g.irr + g.icc) + D := by rw [hW, hDd]; unfold wideDet; ring
  have hWp : 0 < W := by rw [hWe]; positivity
  -- the product is again a gaussian
  let nrr := (g.irr * s2 + D) * s2 / W
  let nrc := g.irc * s2 ^ 2 / W
  let ncc := (g.icc * s2 + D) * s2 / W
  have hnd : nrr * ncc - nrc * nrc = D * s2 ^ 2 / W := by
    show (g.irr * s2 + D) * s2 / W * ((g.icc * s2 + D) * s2 / W) - g.irc * s2 ^ 2 / W * (g.irc * s2 ^ 2 / W) = _
    rw [div_mul_div_comm, div_mul_div_comm, ← sub_div, div_eq_div_iff (by positivity) hWp.ne']
    have : g.irc * g.irc = g.irr * g.icc - D := by rw [hDd]; ring
    have e : (g.irr * s2 + D) * s2 * ((g.icc * s2 + D) * s2) - g.irc * s2 ^ 2 * (g.irc * s2 ^ 2) =
        s2 ^ 2 * ((g.irr * s2 + D) * (g.icc * s2 + D) - s2 ^ 2 * (g.irc * g.irc)) := by ring
    rw [e, this, hWe]; ring
  have hndp : 0 < nrr * ncc - nrc * nrc := by rw [hnd]; positivity
  let N : ℝ := nrr * ncc - nrc * nrc
  let g' : Gauss := ⟨1, g.row, g.col, nrr, nrc, ncc, N, true,
    some ⟨nrr / N, nrc / N, ncc / N, 1 / (2 * Real.pi * Real.sqrt N), 1 / (2 * Real.pi * Real.sqrt N)⟩⟩
  have hc' : NormsCurrent g' := ⟨_, rfl, hndp, rfl, rfl, rfl, rfl, rfl⟩
  have hT' : 0 < g'.irr + g'.icc := by
    show 0 < (g.irr * s2 + D) * s2 / W + (g.icc * s2 + D) * s2 / W
    positivity
  obtain ⟨f', hf', hfi', hint', -⟩ := C21_integral g' hc' hT'
  have hfe : ∀ v u, gaussEval g v u 1 = some (d.pnorm * Real.exp (-0.5 * gaussChi2 g d v u) * 1) := by
    intro v u; simp [gaussEval, hd]
  refine ⟨fun z => d.pnorm * Real.exp (-0.5 * gaussChi2 g d z.1 z.2) * 1, hfe, ?_⟩
  have key : (fun z : ℝ × ℝ => d.pnorm * Real.exp (-0.5 * gaussChi2 g d z.1 z.2) * 1 *
      Real.exp (-(((z.1 - g.row) ^ 2 + (z.2 - g.col) ^ 2) / (2 * s2)))) = fun z => apertureOf s2 g * f' z := by
    funext ⟨v, u⟩
    have e1 := hf' v u
    simp only [gaussEval, g', Option.map_some, Option.some.injEq] at e1
    rw [← e1]
    have hchi : gaussChi2 g' ⟨nrr / N, nrc / N, ncc / N, 1 / (2 * Real.pi * Real.sqrt N), 1 / (2 * Real.pi * Real.sqrt N)⟩ v u =
        gaussChi2 g d v u + ((v - g.row) ^ 2 + (u - g.col) ^ 2) / s2 := by
      simp only [gaussChi2, h1, h2, h3]
      have hN : N = D * s2 ^ 2 / W := hnd
      have a1 : ncc / N = g.icc / D + 1 / s2 := by
        rw [hN]
        show (g.icc * s2 + D) * s2 / W / (D * s2 ^ 2 / W) = _
        rw [div_div_div_cancel_right₀ hWp.ne']
        field_simp
      have a2 : nrr / N = g.irr / D + 1 / s2 := by
        rw [hN]
        show (g.irr * s2 + D) * s2 / W / (D * s2 ^ 2 / W) = _
        rw [div_div_div_cancel_right₀ hWp.ne']
        field_simp
      have a3 : nrc / N = g.irc / D := by
        rw [hN]
        show g.irc * s2 ^ 2 / W / (D * s2 ^ 2 / W) = _
        rw [div_div_div_cancel_right₀ hWp.ne']
        field_simp
      rw [a1, a2, a3]
      show (g.icc / D + 1 / s2) * (v - g.row) * (v - g.row) + (g.irr / D + 1 / s2) * (u - g.col) * (u - g.col) -
        2 * (g.irc / D) * (v - g.row) * (u - g.col) = _
      ring
    have hexp : Real.exp (-0.5 * gaussChi2 g d v u) * Real.exp (-(((v - g.row) ^ 2 + (u - g.col) ^ 2) / (2 * s2))) =
        Real.exp (-0.5 * gaussChi2 g' ⟨nrr / N, nrc / N, ncc / N, 1 / (2 * Real.pi * Real.sqrt N),
          1 / (2 * Real.pi * Real.sqrt N)⟩ v u) := by
      rw [hchi, ← Real.exp_add]
      congr 1
      have : (-0.5 : ℝ) = -(1 / 2) := by norm_num
      rw [this]
      field_simp
      ring
    have hcoef : d.pnorm = apertureOf s2 g * (1 / (2 * Real.pi * Real.sqrt N)) := by
      rw [h5]
      unfold apertureOf
      have hsN : Real.sqrt N = Real.sqrt D * s2 / Real.sqrt W := by
        show Real.sqrt (nrr * ncc - nrc * nrc) = _
        rw [hnd, Real.sqrt_div (by positivity), Real.sqrt_mul hdet.le, Real.sqrt_sq hs.le]
      have hWW : (g.irr + s2) * (g.icc + s2) - g.irc ^ 2 = W := rfl
      rw [hsN, hWW]
      have q1 : Real.sqrt D ≠ 0 := (Real.sqrt_pos.2 hdet).ne'
      have q2 : Real.sqrt W ≠ 0 := (Real.sqrt_pos.2 hWp).ne'
      have q3 := Real.pi_pos.ne'
      generalize Real.sqrt D = X at *
      generalize Real.sqrt W = Y at *
      field_simp
    rw [← hexp]
    simp only [mul_one]
    rw [hcoef]
    show _ = apertureOf s2 g * ((1 / (2 * Real.pi * Real.sqrt N)) * _)
    ring
  rw [key]
  refine ⟨hfi'.const_mul _, ?_⟩
  rw [integral_const_mul, hint']
  show apertureOf s2 g * 1 = _
  rw [mul_one]

/-- Squared width of the weight from the argument that is used. -/
def WidthSq : ApWidth → ℝ → Prop
  | .fwhm x, s2 => s2 = fwhmToSigma x ^ 2
  | .T x, s2 => 0 ≤ x ∧ s2 = x / 2
  | .sigma x, s2 => s2 = x ^ 2
  | .missing, _ => False

theorem sigma2_ok {w : ApWidth} {s2 : ℝ} (h : WidthSq w s2) : w.sigma2 = .ok (some s2) := by
  have two : (2.0 : ℝ) = 2 := by norm_num
  cases w with
  | fwhm x => rw [show s2 = fwhmToSigma x ^ 2 from h]; rfl
  | T x =>
      obtain ⟨h0, rfl⟩ := h
      have : ¬ x / 2 < 0 := not_lt.2 (by linarith)
      simp only [ApWidth.sigma2, two, if_neg this, Real.sq_sqrt (show 0 ≤ x / 2 by linarith)]
  | sigma x => rw [show s2 = x ^ 2 from h]; rfl
  | missing => exact h.elim

theorem apLoop_sum (wi : ℝ × ℝ × ℝ × ℝ) (F : Gauss → ℝ) : ∀ (gm : List Gauss), (∀ g ∈ gm, apFactor g wi = some (F g)) → ∀ a,
    apLoop wi gm (some a) = some (a + (gm.map fun g => g.p * F g).sum) := by
  intro gm
  induction gm with
  | nil => intro _ a; simp [apLoop]
  | cons g gm ih =>
      intro h a
      rw [apLoop, h g List.mem_cons_self]
      simp only [Option.bind_some, Option.map_some]
      rw [ih (fun g hg => h g (List.mem_cons_of_mem _ hg))]
      simp only [List.map_cons, List.sum_cons]
      congr 1; ring

/-- The contribution of one gaussian. -/
def contribution (s2 : ℝ) (g : Gauss) : ℝ :=
  open Classical in if g.det > gmixLowDetval then apertureOf s2 g else g.p

/-- C64.  The aperture flux of a mixture of positive definite gaussians is the sum of the fluxes seen through weights centred
on each of them, gaussians below the threshold of the determinant counting in full. -/
theorem C64_mixture (gm : List Gauss) (w : ApWidth) (s2 : ℝ) (hw : WidthSq w s2) (hs : 0 < s2)
    (hg : ∀ g ∈ gm, DetCurrent g ∧ (gmixLowDetval < g.det → 0 < g.irr)) :
    gaussapFlux gm w = .ok (some ((gm.map (contribution s2)).sum)) := by
  classical
  unfold gaussapFlux
  rw [sigma2_ok hw]
  simp only [Except.bind]
  rw [inv2_diag s2 hs.ne']
  simp only [Except.map]
  have hF : ∀ g ∈ gm, apFactor g (1 / s2, 0, 0, 1 / s2) =
      some (if g.det > gmixLowDetval then s2 / Real.sqrt (wideDet s2 g) else 1) := by
    intro g hgm
    obtain ⟨h1, h2, -⟩ := C64_factor g s2 hs (hg g hgm).1
    by_cases hd : g.det > gmixLowDetval
    · rw [if_pos hd]; exact (h2 hd ((hg g hgm).2 hd)).1
    · rw [if_neg hd]; exact h1 (not_lt.1 hd)
  rw [apLoop_sum _ _ gm hF]
  have z : (0.0 : ℝ) = 0 := by norm_num
  rw [z, zero_add]
  congr 3
  apply List.map_congr_left
  intro g _
  unfold contribution apertureOf
  split_ifs
  · rfl
  · ring

/-- C64.  When all gaussians have the centre of the aperture this is the integral of the mixture's density times the weight. -/
theorem C64_mixture_integral (gm : List Gauss) (r c s2 : ℝ) (hs : 0 < s2)
    (hg : ∀ g ∈ gm, NormsCurrent g ∧ 0 < g.irr + g.icc ∧ DetCurrent g ∧ gmixLowDetval < g.det ∧ g.row = r ∧ g.col = c)
    (w : ApWidth) (hw : WidthSq w s2) :
    ∃ f : ℝ × ℝ → ℝ, (∀ v u, gmixEval gm v u 1 = some (f (v, u))) ∧
      Integrable (fun z : ℝ × ℝ => f z * Real.exp (-(((z.1 - r) ^ 2 + (z.2 - c) ^ 2) / (2 * s2)))) ∧
      gaussapFlux gm w = .ok (some (∫ z : ℝ × ℝ, f z * Real.exp (-(((z.1 - r) ^ 2 + (z.2 - c) ^ 2) / (2 * s2))))) := by
  have key : ∀ (gm : List Gauss), (∀ g ∈ gm, NormsCurrent g ∧ 0 < g.irr + g.icc ∧ DetCurrent g ∧ gmixLowDetval < g.det ∧
      g.row = r ∧ g.col = c) → ∀ f0 : ℝ × ℝ → ℝ,
      Integrable (fun z : ℝ × ℝ => f0 z * Real.exp (-(((z.1 - r) ^ 2 + (z.2 - c) ^ 2) / (2 * s2)))) →
      ∃ f : ℝ × ℝ → ℝ,
        (∀ v u, gm.foldl (fun acc g => acc.bind fun a => (gaussEval g v u 1).map fun b => a + b)
          (some (f0 (v, u))) = some (f (v, u))) ∧
        Integrable (fun z : ℝ × ℝ => f z * Real.exp (-(((z.1 - r) ^ 2 + (z.2 - c) ^ 2) / (2 * s2)))) ∧
        ∫ z : ℝ × ℝ, f z * Real.exp (-(((z.1 - r) ^ 2 + (z.2 - c) ^ 2) / (2 * s2))) =
          (∫ z : ℝ × ℝ, f0 z * Real.exp (-(((z.1 - r) ^ 2 + (z.2 - c) ^ 2) / (2 * s2)))) +
            (gm.map (contribution s2)).sum := by
    intro gm
    induction gm with
    | nil => intro _ f0 h0; exact ⟨f0, fun _ _ => rfl, h0, by simp⟩
    | cons g gm ih =>
        intro hg f0 h0
        obtain ⟨n1, n2, n3, n4, n5, n6⟩ := hg g List.mem_cons_self
        obtain ⟨f1, hf1, hi1, hv1⟩ := C64_integral g n1 n2 s2 hs
        rw [n5, n6] at hi1 hv1
        have hsplit : (fun z : ℝ × ℝ => (f0 z + f1 z) * Real.exp (-(((z.1 - r) ^ 2 + (z.2 - c) ^ 2) / (2 * s2)))) =
            fun z => f0 z * Real.exp (-(((z.1 - r) ^ 2 + (z.2 - c) ^ 2) / (2 * s2))) +
              f1 z * Real.exp (-(((z.1 - r) ^ 2 + (z.2 - c) ^ 2) / (2 * s2))) := by
          funext z; ring
        obtain ⟨f, hf, hi, hv⟩ := ih (fun g hg' => hg g (List.mem_cons_of_mem _ hg')) (fun z => f0 z + f1 z) (by
          rw [hsplit]; exact h0.add hi1)
        refine ⟨f, ?_, hi, ?_⟩
        · intro v u
          rw [List.foldl_cons, hf1]
          simp only [Option.bind_some, Option.map_some]
          exact hf v u
        · rw [hv, hsplit, integral_add h0 hi1, hv1]
          simp only [List.map_cons, List.sum_cons, contribution, if_pos n4]
          ring
  obtain ⟨f, hf, hi, hv⟩ := key gm hg (fun _ => 0) (by simp)
  refine ⟨f, hf, hi, ?_⟩
  rw [hv]
  simp only [zero_mul, integral_zero, zero_add]
  refine C64_mixture gm w s2 hw hs fun g hgm => ?_
  obtain ⟨n1, n2, n3, n4, -⟩ := hg g hgm
  refine ⟨n3, fun _ => ?_⟩
  obtain ⟨d, hd, -⟩ := id n1
  exact (chi2_square g d hd n1 n2 0 0).1

/-- C64.  Positions are ignored: moving the gaussians anywhere changes nothing. -/
theorem C64_positions (gm : List Gauss) (w : ApWidth) (move : Gauss → ℝ × ℝ) :
    gaussapFlux (gm.map fun g => { g with row := (move g).1, col := (move g).2 }) w = gaussapFlux gm w := by
  unfold gaussapFlux
  cases w.sigma2 with
  | error e => rfl
  | ok s =>
      simp only [Except.bind]
      cases s with
      | none =>
          simp only [List.mem_map, exists_exists_and_eq_and]
          have : psum (gm.map fun g => { g with row := (move g).1, col := (move g).2 }) = psum gm := by
            simp [psum, List.map_map, Function.comp_def]
          rw [this]
      | some s2 =>
          simp only
          have hl : ∀ (wi : ℝ × ℝ × ℝ × ℝ) (gm : List Gauss) (a : Option ℝ),
              apLoop wi (gm.map fun g => { g with row := (move g).1, col := (move g).2 }) a = apLoop wi gm a := by
            intro wi gm
            induction gm with
            | nil => intro a; rfl
            | cons g gm ih => intro a; rw [List.map_cons, apLoop, apLoop, ih]; rfl
          cases inv2 s2 0.0 0.0 s2 with
          | error e => rfl
          | ok wi => simp only [Except.map, hl]

/-- C64.  Refused arguments: no width is ValueError, a zero width LinAlgError. -/
theorem C64_refused (gm : List Gauss) :
    gaussapFlux gm .missing = .error .value ∧ gaussapFlux gm (.fwhm 0) = .error .linAlg ∧
    gaussapFlux gm (.T 0) = .error .linAlg ∧ gaussapFlux gm (.sigma 0) = .error .linAlg := by
  have key : ∀ w, WidthSq w 0 → gaussapFlux gm w = .error .linAlg := by
    intro w hw
    unfold gaussapFlux
    rw [sigma2_ok hw]
    simp only [Except.bind]
    rw [inv2_zero]; rfl
  refine ⟨rfl, key _ ?_, key _ ⟨le_refl _, by norm_num⟩, key _ ?_⟩
  · simp [WidthSq, fwhmToSigma]
  · simp [WidthSq]

/-! ### Catalogs -/

theorem bandPars_ok (model : String) (row : List ℝ) (b : ℕ) (h : apNpars model - 1 + b < row.length) :
    apBandPars model row b = .ok (((row.take (apNpars model - 1)) ++ [row[apNpars model - 1 + b]]).modify 4
      fun T => max T 0.0001) := by
  unfold apBandPars
  simp only [List.getElem?_eq_getElem h]

theorem apBands_ok (model : String) (wf fd td : ℝ) (row : List ℝ) : ∀ bs : List ℕ,
    (∀ b ∈ bs, ∃ e, apDo model wf fd td row b = .ok e) →
    ∃ es, apBands model wf fd td row bs = .ok es ∧ List.Forall₂ (fun b e => apDo model wf fd td row b = .ok e) bs es := by
  intro bs
  induction bs with
  | nil => intro _; exact ⟨[], rfl, .nil⟩
  | cons b bs ih =>
      intro h
      obtain ⟨e, he⟩ := h b List.mem_cons_self
      obtain ⟨es, hes, hall⟩ := ih fun b hb => h b (List.mem_cons_of_mem _ hb)
      exact ⟨e :: es, by simp only [apBands, he, hes, Except.bind, Except.map], .cons he hall⟩

/-- What one object of the table gets. -/
def rowOf (model : String) (wf : ℝ) (nband : ℕ) (x : List ℝ × ℝ × ℝ × Bool) (es : List ApEntry) : Prop :=
  (x.2.2.2 = false → es = List.replicate nband (none, Flags.NO_ATTEMPT)) ∧
  (x.2.2.2 = true → List.Forall₂ (fun b e => apDo model wf x.2.1 x.2.2.1 x.1 b = .ok e) (List.range nband) es)

theorem apRows_ok (model : String) (wf : ℝ) (nband : ℕ) : ∀ l : List (List ℝ × ℝ × ℝ × Bool),
    (∀ x ∈ l, x.2.2.2 = true → ∀ b < nband, ∃ e, apDo model wf x.2.1 x.2.2.1 x.1 b = .ok e) →
    ∃ out, apRows model wf nband l = .ok out ∧ List.Forall₂ (rowOf model wf nband) l out := by
  intro l
  induction l with
  | nil => intro _; exact ⟨[], rfl, .nil⟩
  | cons x l ih =>
      intro h
      obtain ⟨row, fd, td, m⟩ := x
      obtain ⟨out, ho, hall⟩ := ih fun x hx => h x (List.mem_cons_of_mem _ hx)
      cases m with
      | false =>
          exact ⟨_ :: out, by simp only [apRows, Bool.false_eq_true, if_false, Except.bind, ho, Except.map],
            .cons ⟨fun _ => rfl, fun hh => (by cases hh)⟩ hall⟩
      | true =>
          obtain ⟨es, he, hes⟩ := apBands_ok model wf fd td row (List.range nband) fun b hb =>
            h _ List.mem_cons_self rfl b (List.mem_range.1 hb)
          exact ⟨es :: out, by simp only [apRows, if_true, he, Except.bind, ho, Except.map],
            .cons ⟨fun hh => (by cases hh), fun _ => hes⟩ hall⟩

/-- The parameters of one object and band of a simple model, `[row, col, g1, g2, T, flux]`, with the size clipped. -/
theorem simple_pars (name : String) (hn : name ≠ "bdf") (row col g1 g2 T : ℝ) (fluxes : List ℝ) (b : ℕ) (hb : b < fluxes.length) :
    apBandPars name ([row, col, g1, g2, T] ++ fluxes) b = .ok [row, col, g1, g2, max T 0.0001, fluxes[b]] := by
  have hnp : apNpars name = 6 := by simp [apNpars, hn]
  rw [bandPars_ok _ _ _ (by rw [hnp]; simp; omega)]
  simp [hnp, List.getElem_cons]

theorem hasShape_posdef {g : Gauss} {row col g1 g2 T : ℝ} (h : HasShape g row col g1 g2 T) (hT : 0 < T) (hg : InDisk g1 g2) :
    0 < g.irr := by
  obtain ⟨-, -, h1, h2, -⟩ := h
  have hn : g1 ^ 2 + g2 ^ 2 < 1 := by simpa [InDisk] using hg
  have : 2 * g.irr = T * (1 - 2 * g1 / (1 + (g1 ^ 2 + g2 ^ 2))) := by linarith
  have hp : 0 < 1 + (g1 ^ 2 + g2 ^ 2) := by positivity
  have h3 : 0 < 1 - 2 * g1 / (1 + (g1 ^ 2 + g2 ^ 2)) := by
    rw [sub_pos, div_lt_one hp]
    nlinarith [sq_nonneg (g1 - 1), sq_nonneg g2, sq_nonneg (g1 + 1)]
  nlinarith [mul_pos hT h3]

/-- Fluxes of the simple models through an aperture: the model's table of fluxes and sizes, each gaussian having the given
shape. -/
def simpleAperture (fvals pvals : List ℝ) (s2 g1 g2 T F : ℝ) (x : ℝ) : Prop :=
  ∃ gm : List Gauss, List.Forall₂ (fun fp g => g.p = F * fp.2 ∧ HasShape g 0 0 g1 g2 (T * fp.1) ∧ DetCurrent g)
    (fvals.zip pvals) gm ∧ x = (gm.map (contribution s2)).sum

/-- C64.  One entry of the catalog for the models gauss, turb, exp and dev: a shape outside the unit disk is flagged and has no
flux; otherwise the flux of the model of that shape, with size clipped at 1e-4 and the flux of the band, without flags. -/
theorem C64_entry (name : String) (fvals pvals : List ℝ) (h : (name, fvals, pvals) ∈ simpleTables) (wf fd td : ℝ)
    (hwf : wf ≠ 0) (row col g1 g2 T : ℝ) (fluxes : List ℝ) (b : ℕ) (hb : b < fluxes.length) :
    (¬ InDisk g1 g2 → apDo name wf fd td ([row, col, g1, g2, T] ++ fluxes) b = .ok (none, Flags.GMIX_RANGE_ERROR)) ∧
    (InDisk g1 g2 → ∃ x, apDo name wf fd td ([row, col, g1, g2, T] ++ fluxes) b = .ok (some x, 0) ∧
      simpleAperture fvals pvals (fwhmToSigma wf ^ 2) g1 g2 (max T 0.0001) fluxes[b] x) := by
  have hname : name ≠ "bdf" ∧ name ≠ "cm" := by
    simp only [simpleTables, List.mem_cons, Prod.mk.injEq, List.not_mem_nil, or_false] at h
    rcases h with ⟨rfl, -, -⟩ | ⟨rfl, -, -⟩ | ⟨rfl, -, -⟩ | ⟨rfl, -, -⟩ <;> decide
  have hp := simple_pars name hname.1 row col g1 g2 T fluxes b hb
  have hmix : ∀ pars, apMixture name fd td pars = makeGmixModel pars (.str name) := by
    intro pars
    unfold apMixture makeGmixModel
    rw [if_neg hname.2]
    simp only [simpleTables, List.mem_cons, Prod.mk.injEq, List.not_mem_nil, or_false] at h
    rcases h with ⟨rfl, -, -⟩ | ⟨rfl, -, -⟩ | ⟨rfl, -, -⟩ | ⟨rfl, -, -⟩ <;>
      simp [newGMixModel, num_facts, Except.bind]
  obtain ⟨m1, m2, m3⟩ := make_simple name fvals pvals h row col g1 g2 (max T 0.0001) fluxes[b]
  obtain ⟨f1, f2⟩ := C22_fill_simple fvals pvals row col g1 g2 (max T 0.0001) fluxes[b]
  obtain ⟨-, -, -, t3, -⟩ := C22_tables name fvals pvals h
  constructor
  · intro hg
    unfold apDo
    rw [hp]
    simp only [Except.bind, hmix, m2 _ (f1 hg)]
  · intro hg
    obtain ⟨gm, hgm, hall⟩ := f2 hg
    obtain ⟨o, ho, rfl, -, -⟩ := m3 gm hgm
    have hTp : 0 < max T 0.0001 := lt_of_lt_of_le (by norm_num) (le_max_right _ _)
    have hs : 0 < fwhmToSigma wf ^ 2 := by
      have : fwhmFac ≠ 0 := by unfold fwhmFac; positivity
      have : fwhmToSigma wf ≠ 0 := div_ne_zero hwf this
      positivity
    have hgd : ∀ g ∈ o.data, DetCurrent g ∧ (gmixLowDetval < g.det → 0 < g.irr) := by
      intro g hgm
      obtain ⟨i, hi, rfl⟩ := List.getElem_of_mem hgm
      have hl := hall.length_eq
      have := (List.forall₂_iff_get.1 hall).2 i (by omega) hi
      simp only [List.get_eq_getElem] at this
      obtain ⟨-, hsh, hdc, -⟩ := this
      refine ⟨hdc, fun _ => hasShape_posdef hsh ?_ hg⟩
      refine mul_pos hTp (t3 _ ?_)
      rw [List.getElem_zip]
      exact List.getElem_mem _
    have hx := C64_mixture o.data (.fwhm wf) _ rfl hs hgd
    refine ⟨(o.data.map (contribution (fwhmToSigma wf ^ 2))).sum, ?_, ?_⟩
    · unfold apDo
      rw [hp]
      simp only [Except.bind, hmix, ho, hx]
    · refine ⟨o.data.map fun g => { g with row := 0, col := 0 }, ?_, ?_⟩
      · rw [List.forall₂_map_right_iff]
        refine hall.imp fun fp g hh => ⟨hh.1, ⟨rfl, rfl, hh.2.1.2.2⟩, hh.2.2.1⟩
      · rw [List.map_map]; rfl

/-- C64.  The whole catalog for a simple model: objects that are masked out are marked as not attempted in all bands, the others
have the entries of `C64_entry`; one row per object, one entry per flux. -/
theorem C64_catalog (name : String) (fvals pvals : List ℝ) (h : (name, fvals, pvals) ∈ simpleTables) (wf : ℝ) (hwf : wf ≠ 0)
    (objs : List (ℝ × ℝ × ℝ × ℝ × ℝ × List ℝ)) (nband : ℕ) (hne : objs ≠ []) (hnb : ∀ x ∈ objs, x.2.2.2.2.2.length = nband)
    (mask : Option (List Bool)) (hmask : ∀ m, mask = some m → m.length = objs.length) (fd td : List ℝ) :
    ∃ out, gaussapTable ⟨objs.map fun x => [x.1, x.2.1, x.2.2.1, x.2.2.2.1, x.2.2.2.2.1] ++ x.2.2.2.2.2, 5 + nband, fd, td, mask⟩
        name wf = .ok out ∧ out.length = objs.length ∧
      ∀ i (hi : i < objs.length) (ho : i < out.length),
        ((mask.getD (List.replicate objs.length true))[i]? = some false →
          out[i] = List.replicate nband (none, Flags.NO_ATTEMPT)) ∧
        ((mask.getD (List.replicate objs.length true))[i]? = some true → out[i].length = nband ∧
          ∀ b (hb : b < out[i].length) (hb' : b < objs[i].2.2.2.2.2.length),
            (¬ InDisk objs[i].2.2.1 objs[i].2.2.2.1 → out[i][b] = (none, Flags.GMIX_RANGE_ERROR)) ∧
            (InDisk objs[i].2.2.1 objs[i].2.2.2.1 → ∃ x, out[i][b] = (some x, 0) ∧
              simpleAperture fvals pvals (fwhmToSigma wf ^ 2) objs[i].2.2.1 objs[i].2.2.2.1 (max objs[i].2.2.2.2.1 0.0001)
                (objs[i].2.2.2.2.2[b]) x)) := by
  have hname : name ≠ "bdf" ∧ name ≠ "cm" := by
    simp only [simpleTables, List.mem_cons, Prod.mk.injEq, List.not_mem_nil, or_false] at h
    rcases h with ⟨rfl, -, -⟩ | ⟨rfl, -, -⟩ | ⟨rfl, -, -⟩ | ⟨rfl, -, -⟩ <;> decide
  have hnp : apNpars name = 6 := by simp [apNpars, hname.1]
  set M := mask.getD (List.replicate objs.length true) with hM
  have hMl : M.length = objs.length := by
    rw [hM]
    cases mask with
    | none => simp
    | some m => simpa using hmask m rfl
  set rows := objs.map fun x => [x.1, x.2.1, x.2.2.1, x.2.2.2.1, x.2.2.2.2.1] ++ x.2.2.2.2.2 with hrows
  have hrl : rows.length = objs.length := by rw [hrows, List.length_map]
  have hn0 : objs.length ≠ 0 := fun h0 => hne (List.length_eq_zero_iff.1 h0)
  set Z := rows.zip ((List.replicate objs.length (0 : ℝ)).zip ((List.replicate objs.length (0 : ℝ)).zip M)) with hZ
  have htab : gaussapTable ⟨rows, 5 + nband, fd, td, mask⟩ name wf = apRows name wf nband Z := by
    unfold gaussapTable
    simp only [hrl]
    rw [← hM, if_neg (by rw [hMl]; simp), if_neg (by simp [hname.2]), if_neg hn0, if_neg (by rw [hnp]; omega), hnp]
    simp only [hname.2, if_false]
    congr 1
    omega
  have hZl : Z.length = objs.length := by simp [hZ, hrl, hMl]
  have hZi : ∀ i (hi : i < Z.length) (ho : i < objs.length) (hm : i < M.length), Z[i] =
      ([objs[i].1, objs[i].2.1, objs[i].2.2.1, objs[i].2.2.2.1, objs[i].2.2.2.2.1] ++ objs[i].2.2.2.2.2, 0, 0, M[i]) := by
    intro i hi ho hm
    simp [hZ, hrows]
  obtain ⟨out, hout, hall⟩ := apRows_ok name wf nband Z (by
    intro x hx hm b hb
    obtain ⟨i, hi, rfl⟩ := List.getElem_of_mem hx
    have ho : i < objs.length := by omega
    rw [hZi i hi ho (by omega)] at hm ⊢
    simp only at hm ⊢
    have hbl : b < objs[i].2.2.2.2.2.length := by rw [hnb _ (List.getElem_mem ho)]; exact hb
    obtain ⟨e1, e2⟩ := C64_entry name fvals pvals h wf 0 0 hwf objs[i].1 objs[i].2.1 objs[i].2.2.1 objs[i].2.2.2.1
      objs[i].2.2.2.2.1 objs[i].2.2.2.2.2 b hbl
    by_cases hd : InDisk objs[i].2.2.1 objs[i].2.2.2.1
    · obtain ⟨x, hx, -⟩ := e2 hd; exact ⟨_, hx⟩
    · exact ⟨_, e1 hd⟩)
  have hol : out.length = objs.length := by rw [← hall.length_eq, hZl]
  refine ⟨out, by rw [htab, hout], hol, ?_⟩
  intro i hi ho
  have hr := (List.forall₂_iff_get.1 hall).2 i (by omega) ho
  simp only [List.get_eq_getElem] at hr
  rw [hZi i (by omega) hi (by omega)] at hr
  obtain ⟨r1, r2⟩ := hr
  simp only at r1 r2
  have hMi : M[i]? = some M[i] := List.getElem?_eq_getElem (by omega)
  rw [hMi]
  simp only [Option.some.injEq]
  refine ⟨r1, fun hm => ?_⟩
  have hf := r2 hm
  have hl := hf.length_eq
  simp only [List.length_range] at hl
  refine ⟨hl.symm, fun b hb hb' => ?_⟩
  have hb2 := (List.forall₂_iff_get.1 hf).2 b (by simp; omega) hb
  simp only [List.get_eq_getElem, List.getElem_range] at hb2
  obtain ⟨e1, e2⟩ := C64_entry name fvals pvals h wf 0 0 hwf objs[i].1 objs[i].2.1 objs[i].2.2.1 objs[i].2.2.2.1
    objs[i].2.2.2.2.1 objs[i].2.2.2.2.2 b hb'
  constructor
  · intro hd
    rw [e1 hd] at hb2
    injection hb2 with hb2
    exact hb2.symm
  · intro hd
    obtain ⟨x, hx, hap⟩ := e2 hd
    rw [hx] at hb2
    injection hb2 with hb2
    exact ⟨x, hb2.symm, hap⟩

/-- C64.  Lengths that do not match are AssertionErrors, an empty catalog IndexError and a table too narrow ValueError. -/
theorem C64_catalog_refused (t : ApTable) (model : String) (wf : ℝ) :
    ((∃ m, t.mask = some m ∧ m.length ≠ t.rows.length) → gaussapTable t model wf = .error .assertion) ∧
    (t.mask = none → model = "cm" → (t.fracdev.length ≠ t.rows.length ∨ t.TdByTe.length ≠ t.rows.length) →
      gaussapTable t model wf = .error .assertion) ∧
    (t.mask = none → model ≠ "cm" → t.rows = [] → gaussapTable t model wf = .error .index) ∧
    (t.mask = none → model ≠ "cm" → t.rows ≠ [] → t.width < apNpars model - 1 → gaussapTable t model wf = .error .value) := by
  refine ⟨?_, ?_, ?_, ?_⟩
  · rintro ⟨m, hm, hl⟩
    simp [gaussapTable, hm, hl]
  · intro hm hc hl
    simp [gaussapTable, hm, hc, hl]
  · intro hm hc hr
    simp [gaussapTable, hm, hc, hr]
  · intro hm hc hr hw
    have : t.width + 1 < apNpars model := by omega
    simp [gaussapTable, hm, hc, hr, this]

example : ∃ x, gaussapFlux [gauss2dSet 2 5 (-3) 1 0 1] (.sigma 1) = .ok (some x) ∧ x = 1 := by
  refine ⟨_, C64_mixture _ (.sigma 1) 1 (by simp [WidthSq]) one_pos ?_, ?_⟩
  · intro g hg
    simp only [List.mem_singleton] at hg
    subst hg
    exact ⟨rfl, fun _ => by norm_num [gauss2dSet]⟩
  · have : (gauss2dSet 2 5 (-3) 1 0 1).det > gmixLowDetval := by norm_num [gauss2dSet, gmixLowDetval]
    have h4 : Real.sqrt 4 = 2 := by rw [show (4 : ℝ) = 2 ^ 2 by norm_num]; exact Real.sqrt_sq (by norm_num)
    simp only [List.map_cons, List.map_nil, List.sum_cons, List.sum_nil, contribution, if_pos this]
    simp only [apertureOf, gauss2dSet]
    norm_num [h4]

end

end Ngmix.Props
