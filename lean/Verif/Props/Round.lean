import Verif.Spec.Round
import Verif.Props.Parts
import Verif.Props.Composite

/-!
# Round versions of mixtures (C116)
-/

namespace Ngmix.Props

open Ngmix Ngmix.Spec

noncomputable section

/-- The size after rounding with a factor. -/
theorem round_moms (gm : List Gauss) (r c f rr rc cc : ℝ) (hc : ∀ g ∈ gm, g.row = r ∧ g.col = c)
    (hm : SecondMoments gm rr rc cc) :
    Flux (roundData f gm) = Flux gm ∧ Centroid (roundData f gm) r c ∧
      SecondMoments (roundData f gm) (f * ((rr + cc) / 2)) 0 (f * ((rr + cc) / 2)) := by
  have hf : psum gm ≠ 0 := by obtain ⟨_, _, h, -⟩ := hm; exact h.1
  have hfl : psum (roundData f gm) = psum gm := by
    unfold psum roundData
    rw [List.map_map]
    rfl
  have hc' : ∀ g ∈ roundData f gm, g.row = r ∧ g.col = c := by
    intro g hg
    obtain ⟨x, hx, rfl⟩ := List.mem_map.1 hg
    exact hc x hx
  obtain ⟨-, k2⟩ := moms_one_centre gm r c hc hf
  obtain ⟨l1, l2⟩ := moms_one_centre (roundData f gm) r c hc' (by rw [hfl]; exact hf)
  rw [← getMoms_iff, k2, Option.some.injEq, Prod.mk.injEq, Prod.mk.injEq] at hm
  obtain ⟨m1, -, m3⟩ := hm
  refine ⟨hfl, (getCen_iff _ _ _).1 l1, ?_⟩
  rw [← getMoms_iff, l2, Option.some.injEq, Prod.mk.injEq, Prod.mk.injEq, hfl]
  have e : ((roundData f gm).map fun g => g.irr * g.p).sum =
      f / 2 * ((gm.map fun g => g.irr * g.p).sum + (gm.map fun g => g.icc * g.p).sum) := by
    unfold roundData
    rw [List.map_map]
    clear hc hf hfl hc' k2 l1 l2 m1 m3
    induction gm with
    | nil => simp
    | cons g gm ih =>
      simp only [List.map_cons, List.sum_cons, ih, Function.comp]
      ring
  have e' : ((roundData f gm).map fun g => g.icc * g.p).sum = ((roundData f gm).map fun g => g.irr * g.p).sum := by
    congr 1
    apply List.map_congr_left
    intro g hg
    obtain ⟨x, -, rfl⟩ := List.mem_map.1 hg
    rfl
  have e0 : ((roundData f gm).map fun g => g.irc * g.p).sum = 0 := by
    apply List.sum_eq_zero
    intro y hy
    obtain ⟨g, hg, rfl⟩ := List.mem_map.1 hy
    obtain ⟨x, -, rfl⟩ := List.mem_map.1 hg
    simp
  rw [e', e, e0, ← m1, ← m3]
  refine ⟨?_, ?_, ?_⟩ <;> ring

theorem maxEig_extent (a b c : ℝ) :
    (∀ x y : ℝ, x ^ 2 + y ^ 2 = 1 → ExtentAlong a b c x y ≤ maxEig a b c) ∧
      ∃ x y : ℝ, x ^ 2 + y ^ 2 = 1 ∧ ExtentAlong a b c x y = maxEig a b c := by
  have hs := Real.sq_sqrt (show (0:ℝ) ≤ ((a - c) / 2) ^ 2 + b ^ 2 by positivity)
  have hn := Real.sqrt_nonneg (((a - c) / 2) ^ 2 + b ^ 2)
  unfold maxEig
  generalize Real.sqrt (((a - c) / 2) ^ 2 + b ^ 2) = s at hs hn
  unfold ExtentAlong
  constructor
  · intro x y hxy
    have h1 : (x ^ 2 - y ^ 2) ^ 2 + (2 * x * y) ^ 2 = 1 := by
      have : (x ^ 2 - y ^ 2) ^ 2 + (2 * x * y) ^ 2 = (x ^ 2 + y ^ 2) ^ 2 := by ring
      rw [this, hxy]; norm_num
    have h2 : ((x ^ 2 - y ^ 2) * ((a - c) / 2) + 2 * x * y * b) ^ 2 ≤ s ^ 2 := by
      rw [hs]
      have : ((x ^ 2 - y ^ 2) ^ 2 + (2 * x * y) ^ 2) * (((a - c) / 2) ^ 2 + b ^ 2) -
          ((x ^ 2 - y ^ 2) * ((a - c) / 2) + 2 * x * y * b) ^ 2 = ((x ^ 2 - y ^ 2) * b - 2 * x * y * ((a - c) / 2)) ^ 2 := by ring
      rw [h1] at this
      nlinarith [sq_nonneg ((x ^ 2 - y ^ 2) * b - 2 * x * y * ((a - c) / 2))]
    have h3 := le_trans (le_abs_self _) (abs_le_of_sq_le_sq h2 hn)
    have h4 : x ^ 2 * a + 2 * x * y * b + y ^ 2 * c =
        (x ^ 2 + y ^ 2) * ((a + c) / 2) + ((x ^ 2 - y ^ 2) * ((a - c) / 2) + 2 * x * y * b) := by ring
    rw [h4, hxy]
    linarith
  · by_cases hb : b = 0
    · subst hb
      by_cases hac : c ≤ a
      · refine ⟨1, 0, by norm_num, ?_⟩
        have : s = (a - c) / 2 := by
          have h0 : 0 ≤ (a - c) / 2 := by linarith
          nlinarith [sq_nonneg (s - (a - c) / 2)]
        rw [this]; ring
      · refine ⟨0, 1, by norm_num, ?_⟩
        have : s = (c - a) / 2 := by
          have h0 : 0 < (c - a) / 2 := by linarith [not_le.1 hac]
          nlinarith [sq_nonneg (s - (c - a) / 2)]
        rw [this]; ring
    · set l := (a + c) / 2 + s with hl
      have hq : (l - a) * (l - c) = b ^ 2 := by rw [hl]; nlinarith
      have hN : 0 < b ^ 2 + (l - a) ^ 2 := by positivity
      have hN2 := Real.sq_sqrt hN.le
      have hN0 : Real.sqrt (b ^ 2 + (l - a) ^ 2) ≠ 0 := (Real.sqrt_pos.2 hN).ne'
      generalize Real.sqrt (b ^ 2 + (l - a) ^ 2) = n at hN2 hN0
      refine ⟨b / n, (l - a) / n, ?_, ?_⟩
      · rw [div_pow, div_pow, ← add_div, ← hN2, div_self (pow_ne_zero 2 hN0)]
      · have : (b / n) ^ 2 * a + 2 * (b / n) * ((l - a) / n) * b + ((l - a) / n) ^ 2 * c =
            (b ^ 2 * a + 2 * b * (l - a) * b + (l - a) ^ 2 * c) / n ^ 2 := by
          field_simp
        rw [this, div_eq_iff (pow_ne_zero 2 hN0), hN2]
        linear_combination (l - a) * (-1) * hq

/-- Shape of a mixture with positive definite second moments. -/
theorem g1g2T_of_posDef (gm : List Gauss) (rr rc cc : ℝ) (hm : SecondMoments gm rr rc cc) (hp : PosDef2 rr rc cc) :
    ∃ g1 g2, gmGetG1g2T gm = some (.ok (g1, g2, rr + cc)) ∧ InDisk g1 g2 ∧
      ((rr + cc) / 2 * ((1 - (g1 ^ 2 + g2 ^ 2)) / (1 + (g1 ^ 2 + g2 ^ 2)))) ^ 2 = rr * cc - rc ^ 2 := by
  obtain ⟨p1, p2, p3⟩ := hp
  have hT : rr + cc ≠ 0 := by linarith
  have hT2 : 0 < (rr + cc) ^ 2 / 4 := by positivity
  have hd := det_eq_e rr rc cc hT
  have hE := (C18_size_and_shape gm rr rc cc hm).2 hT
  have hin : InDisk ((cc - rr) / (rr + cc)) (2 * rc / (rr + cc)) := by
    unfold InDisk
    rw [hd] at p3
    have := (mul_pos_iff_of_pos_left hT2).1 p3
    linarith
  have hgd := e1e2ToG1G2_closed hin
  rw [gmGetG1g2T, hE]
  simp only [Option.map_some, hgd, Except.map]
  rw [hd]
  clear hd hgd hE
  generalize (cc - rr) / (rr + cc) = e1 at hin ⊢
  generalize 2 * rc / (rr + cc) = e2 at hin ⊢
  unfold InDisk at hin
  have hq0 : 0 < Real.sqrt (1 - (e1 ^ 2 + e2 ^ 2)) := Real.sqrt_pos.2 (by linarith)
  have hq2 := Real.sq_sqrt (show (0:ℝ) ≤ 1 - (e1 ^ 2 + e2 ^ 2) by linarith)
  generalize Real.sqrt (1 - (e1 ^ 2 + e2 ^ 2)) = q at hq0 hq2
  have hs : (e1 / (1 + q)) ^ 2 + (e2 / (1 + q)) ^ 2 = (1 - q) / (1 + q) := by
    rw [div_pow e1, div_pow e2, ← add_div, show e1 ^ 2 + e2 ^ 2 = (1 - q) * (1 + q) by linarith]
    field_simp
  refine ⟨_, _, rfl, ?_, ?_⟩
  · unfold InDisk
    rw [hs, div_lt_one (by positivity)]
    linarith
  · rw [hs, ← hq2]
    have : (1 - (1 - q) / (1 + q)) / (1 + (1 - q) / (1 + q)) = q := by field_simp; ring
    rw [this]
    ring

/-- A mixture that is round already is rounded to itself. -/
theorem round_again (f : ℝ) (gm : List Gauss) (t : ℝ) (ht : t ≠ 0) (hm : SecondMoments (roundData f gm) t 0 t) (preserve : Bool) :
    makeRound (roundData f gm) preserve = some (.ok (roundData f gm)) ∧
      gmGetE1e2T (roundData f gm) = some (0, 0, t + t) ∧ gmGetG1g2T (roundData f gm) = some (.ok (0, 0, t + t)) := by
  have hT : t + t ≠ 0 := by intro h; exact ht (by linarith)
  have hE := (C18_size_and_shape _ t 0 t hm).2 hT
  simp only [sub_self, mul_zero, zero_div] at hE
  have hG : gmGetG1g2T (roundData f gm) = some (.ok (0, 0, t + t)) := by
    rw [gmGetG1g2T, hE]
    simp only [Option.map_some]
    rw [e1e2ToG1G2_closed (by norm_num [InDisk])]
    simp [Except.map]
  have hrd : roundData 1 (roundData f gm) = roundData f gm := by
    unfold roundData
    rw [List.map_map]
    apply List.map_congr_left
    intro g _
    simp only [Function.comp]
    congr 1 <;> ring
  refine ⟨?_, hE, hG⟩
  cases preserve
  · simp only [makeRound, roundFactorOf, hG, Bool.false_eq_true, if_false, Option.map_some, Except.map, getRoundFactor]
    norm_num
    exact hrd
  · simp only [makeRound, roundFactorOf, hE, if_true, Option.map_some, Except.map]
    have : maxEig (e2mom 0 0 (t + t)).1 (e2mom 0 0 (t + t)).2.1 (e2mom 0 0 (t + t)).2.2 / ((t + t) / 2) = 1 := by
      simp only [maxEig, e2mom]
      rw [show ((((1 - 0) * (t + t) / 2 - (1 + 0) * (t + t) / 2) / 2) ^ 2 + (0 * (t + t) / 2) ^ 2 : ℝ) = 0 by ring, Real.sqrt_zero]
      field_simp
      ring
    rw [this, hrd]

/-- C116.  The round version of a mixture whose gaussians have one centre and whose second moments are positive definite: flux
and centre are kept, and the shape is zero, in both conventions.  Without `preserve_size` the size is `T (1-g^2)/(1+g^2)`, so
that the determinant of the second moments is kept.  With `preserve_size` half the size is the largest mean squared extent of
the mixture along any direction.  Rounding again, with either option, changes nothing. -/
theorem C116_round (gm : List Gauss) (r c rr rc cc : ℝ) (hc : ∀ g ∈ gm, g.row = r ∧ g.col = c)
    (hm : SecondMoments gm rr rc cc) (hp : PosDef2 rr rc cc) (preserve : Bool) :
    ∃ gm' T', makeRound gm preserve = some (.ok gm') ∧ 0 < T' ∧ Flux gm' = Flux gm ∧ Centroid gm' r c ∧
      SecondMoments gm' (T' / 2) 0 (T' / 2) ∧ gmGetE1e2T gm' = some (0, 0, T') ∧ gmGetG1g2T gm' = some (.ok (0, 0, T')) ∧
      (preserve = false → (T' / 2) ^ 2 = rr * cc - rc ^ 2 ∧
        ∃ g1 g2, gmGetG1g2T gm = some (.ok (g1, g2, rr + cc)) ∧ InDisk g1 g2 ∧
          T' = (rr + cc) * ((1 - (g1 ^ 2 + g2 ^ 2)) / (1 + (g1 ^ 2 + g2 ^ 2)))) ∧
      (preserve = true → (∀ x y : ℝ, x ^ 2 + y ^ 2 = 1 → ExtentAlong rr rc cc x y ≤ T' / 2) ∧
        ∃ x y : ℝ, x ^ 2 + y ^ 2 = 1 ∧ ExtentAlong rr rc cc x y = T' / 2) ∧
      ∀ again, makeRound gm' again = some (.ok gm') := by
  have hp' := hp
  obtain ⟨p1, p2, p3⟩ := hp
  have hT : rr + cc ≠ 0 := by linarith
  have key : ∀ f T', 0 < T' → T' / 2 = f * ((rr + cc) / 2) → makeRound gm preserve = some (.ok (roundData f gm)) →
      Flux (roundData f gm) = Flux gm ∧ Centroid (roundData f gm) r c ∧
      SecondMoments (roundData f gm) (T' / 2) 0 (T' / 2) ∧ gmGetE1e2T (roundData f gm) = some (0, 0, T') ∧
      gmGetG1g2T (roundData f gm) = some (.ok (0, 0, T')) ∧
      ∀ again, makeRound (roundData f gm) again = some (.ok (roundData f gm)) := by
    intro f T' h0 hf _
    obtain ⟨k1, k2, k3⟩ := round_moms gm r c f rr rc cc hc hm
    rw [← hf] at k3
    have ha := fun again => round_again f gm (T' / 2) (by linarith) k3 again
    have hTT : T' / 2 + T' / 2 = T' := by ring
    rw [hTT] at ha
    exact ⟨k1, k2, k3, (ha true).2.1, (ha true).2.2, fun again => (ha again).1⟩
  cases preserve
  · obtain ⟨g1, g2, hg, hin, hdet⟩ := g1g2T_of_posDef gm rr rc cc hm hp'
    have hF : 0 < (1 - (g1 ^ 2 + g2 ^ 2)) / (1 + (g1 ^ 2 + g2 ^ 2)) := by
      unfold InDisk at hin
      exact div_pos (by linarith) (by positivity)
    have hr : makeRound gm false = some (.ok (roundData ((1 - (g1 ^ 2 + g2 ^ 2)) / (1 + (g1 ^ 2 + g2 ^ 2))) gm)) := by
      simp [makeRound, roundFactorOf, hg, getRoundFactor, Except.map]
    generalize hfd : (1 - (g1 ^ 2 + g2 ^ 2)) / (1 + (g1 ^ 2 + g2 ^ 2)) = f at hF hr hdet
    have hT0 : 0 < (rr + cc) * f := mul_pos (by linarith) hF
    obtain ⟨a1, a2, a3, a4, a5, a6⟩ := key f ((rr + cc) * f) hT0 (by ring) hr
    exact ⟨_, _, hr, hT0, a1, a2, a3, a4, a5, fun _ => ⟨by rw [← hdet]; ring, g1, g2, hg, hin, by rw [hfd]⟩, fun h => (by cases h), a6⟩
  · have hE := (C18_size_and_shape gm rr rc cc hm).2 hT
    have hmom : e2mom ((cc - rr) / (rr + cc)) (2 * rc / (rr + cc)) (rr + cc) = (rr, rc, cc) := by
      simp only [e2mom, Prod.mk.injEq]
      refine ⟨?_, ?_, ?_⟩ <;> field_simp <;> ring
    have hr : makeRound gm true = some (.ok (roundData (maxEig rr rc cc / ((rr + cc) / 2)) gm)) := by
      simp only [makeRound, roundFactorOf, hE, if_true, Option.map_some, Except.map, hmom]
    have h0 : 0 < maxEig rr rc cc := by
      unfold maxEig
      have := Real.sqrt_nonneg (((rr - cc) / 2) ^ 2 + rc ^ 2)
      linarith
    obtain ⟨a1, a2, a3, a4, a5, a6⟩ := key _ (2 * maxEig rr rc cc) (by linarith) (by field_simp) hr
    refine ⟨_, _, hr, by linarith, a1, a2, a3, a4, a5, fun h => (by cases h), fun _ => ?_, a6⟩
    rw [mul_div_cancel_left₀ _ (two_ne_zero)]
    exact maxEig_extent rr rc cc

/-! ### Mixtures whose gaussians have one shape -/

theorem oneShape_g1g2T (gm : List Gauss) (row col g1 g2 T : ℝ) (hg : InDisk g1 g2) (h : OneShape gm row col g1 g2)
    (hT : gmGetT gm = some T) (hT0 : T ≠ 0) : gmGetG1g2T gm = some (.ok (g1, g2, T)) := by
  have hf : psum gm ≠ 0 := by
    intro h0
    simp [gmGetT, getMoms, getCen, h0] at hT
  obtain ⟨-, k2⟩ := moms_one_centre gm row col (fun g hg => ⟨(h g hg).1, (h g hg).2.1⟩) hf
  rw [gmGetT, k2] at hT
  simp only [Option.map_some, Option.some.injEq] at hT
  refine (co_mixture gm (gm.map fun g => (g.irr + g.icc, g.p)) row col g1 g2 T hg ?_ ⟨?_, ?_⟩).2.2.2 hT0
  · rw [List.forall₂_map_left_iff, List.forall₂_same]
    exact fun g hg => ⟨rfl, h g hg⟩
  · rw [List.map_map]
    exact hf
  · rw [List.map_map, List.map_map, ← hT]
    have e : (gm.map ((fun x : ℝ × ℝ => x.2) ∘ fun g => (g.irr + g.icc, g.p))).sum = psum gm := rfl
    rw [e]
    have e2 : (gm.map ((fun x : ℝ × ℝ => x.2 * x.1) ∘ fun g => (g.irr + g.icc, g.p))).sum =
        (gm.map fun g => g.irr * g.p).sum + (gm.map fun g => g.icc * g.p).sum := by
      clear hT k2 e hf h
      induction gm with
      | nil => simp
      | cons g gm ih =>
        simp only [List.map_cons, List.sum_cons, ih, Function.comp]
        ring
    rw [e2]
    field_simp

theorem shape_round_moms (g : Gauss) (row col g1 g2 : ℝ) (h : HasShape g row col g1 g2 (g.irr + g.icc)) :
    (0.5 * (g.irr + g.icc) * ((1 - (g1 ^ 2 + g2 ^ 2)) / (1 + (g1 ^ 2 + g2 ^ 2)))) ^ 2 = g.irr * g.icc - g.irc * g.irc := by
  obtain ⟨-, -, -, h4, h5⟩ := h
  have h1 : g.irr = ((g.irr + g.icc) - (g.irr + g.icc) * (2 * g1 / (1 + (g1 ^ 2 + g2 ^ 2)))) / 2 := by linarith
  have h2 : g.icc = ((g.irr + g.icc) + (g.irr + g.icc) * (2 * g1 / (1 + (g1 ^ 2 + g2 ^ 2)))) / 2 := by linarith
  have h3 : g.irc = ((g.irr + g.icc) * (2 * g2 / (1 + (g1 ^ 2 + g2 ^ 2)))) / 2 := by linarith
  have hp : 1 + (g1 ^ 2 + g2 ^ 2) ≠ 0 := by positivity
  generalize g.irr + g.icc = T at h1 h2 h3 ⊢
  rw [h1, h2, h3]
  generalize hP : 1 + (g1 ^ 2 + g2 ^ 2) = P at hp ⊢
  have hQ : 1 - (g1 ^ 2 + g2 ^ 2) = 2 - P := by linarith
  have hR : g2 ^ 2 = P - 1 - g1 ^ 2 := by linarith
  rw [hQ]
  field_simp
  rw [hR]
  ring

/-- C116.  When all gaussians have the same centre and shape (any sizes and fluxes), `make_round` without `preserve_size` takes
the size of each to `T (1-g^2)/(1+g^2)` and its shape to zero, and the determinants stored with them, which it does not
update, are right all the same; shearing the round mixture by the shape gives the mixture back (positive sizes). -/
theorem C116_one_shape (gm : List Gauss) (row col g1 g2 T : ℝ) (hg : InDisk g1 g2) (h : OneShape gm row col g1 g2)
    (hd : ∀ g ∈ gm, DetCurrent g) (hT : gmGetT gm = some T) (hT0 : T ≠ 0) :
    ∃ gm', makeRound gm false = some (.ok gm') ∧ (∀ g ∈ gm', DetCurrent g) ∧
      List.Forall₂ (fun g g' => g'.p = g.p ∧
        HasShape g' row col 0 0 ((g.irr + g.icc) * ((1 - (g1 ^ 2 + g2 ^ 2)) / (1 + (g1 ^ 2 + g2 ^ 2))))) gm gm' ∧
      ((∀ g ∈ gm, 0 < g.irr + g.icc) → shearData g1 g2 gm' = .ok (NormsUnset gm)) := by
  have hG := oneShape_g1g2T gm row col g1 g2 T hg h hT hT0
  have hr : makeRound gm false = some (.ok (roundData ((1 - (g1 ^ 2 + g2 ^ 2)) / (1 + (g1 ^ 2 + g2 ^ 2))) gm)) := by
    simp [makeRound, roundFactorOf, hG, getRoundFactor, Except.map]
  have hF : 0 < (1 - (g1 ^ 2 + g2 ^ 2)) / (1 + (g1 ^ 2 + g2 ^ 2)) := by
    unfold InDisk at hg
    exact div_pos (by linarith) (by positivity)
  refine ⟨_, hr, ?_, ?_, ?_⟩
  · intro g hg'
    obtain ⟨x, hx, rfl⟩ := List.mem_map.1 hg'
    have h1 := shape_round_moms x row col g1 g2 (h x hx)
    have h2 := hd x hx
    unfold DetCurrent at h2 ⊢
    simp only
    rw [h2, ← h1]
    ring
  · unfold roundData
    rw [List.forall₂_map_right_iff, List.forall₂_same]
    intro x hx
    obtain ⟨h1, h2, -⟩ := h x hx
    refine ⟨rfl, h1, h2, ?_, ?_, ?_⟩ <;> simp only <;> ring
  · intro hpos
    rw [shearData_ok g1 g2 hg]
    · unfold NormsUnset roundData
      rw [List.map_map]
      congr 1
      apply List.map_congr_left
      intro x hx
      obtain ⟨-, -, -, h4, h5⟩ := h x hx
      have h2 := hd x hx
      unfold DetCurrent at h2
      have hk : 1 - (g1 ^ 2 + g2 ^ 2) ≠ 0 := by unfold InDisk at hg; linarith
      have hp : 1 + (g1 ^ 2 + g2 ^ 2) ≠ 0 := by positivity
      have e1 : x.irr = (x.irr + x.icc) / 2 * (1 - 2 * g1 / (1 + (g1 ^ 2 + g2 ^ 2))) := by linarith
      have e2 : x.icc = (x.irr + x.icc) / 2 * (1 + 2 * g1 / (1 + (g1 ^ 2 + g2 ^ 2))) := by linarith
      have e3 : x.irc = (x.irr + x.icc) / 2 * (2 * g2 / (1 + (g1 ^ 2 + g2 ^ 2))) := by linarith
      have key : shearedMoms g1 g2 (0.5 * (x.irr + x.icc) * ((1 - (g1 ^ 2 + g2 ^ 2)) / (1 + (g1 ^ 2 + g2 ^ 2)))) 0
          (0.5 * (x.irr + x.icc) * ((1 - (g1 ^ 2 + g2 ^ 2)) / (1 + (g1 ^ 2 + g2 ^ 2)))) = (x.irr, x.irc, x.icc) := by
        simp only [shearedMoms, Prod.mk.injEq]
        have h05 : (0.5 : ℝ) = 1 / 2 := by norm_num
        rw [h05]
        generalize hS : x.irr + x.icc = S at e1 e2 e3 ⊢
        rw [e1, e2, e3]
        clear e1 e2 e3 h4 h5 h2 hr hG hF hT
        generalize 1 - (g1 ^ 2 + g2 ^ 2) = K at hk ⊢
        generalize hP : 1 + (g1 ^ 2 + g2 ^ 2) = P at hp ⊢
        have hR : g2 ^ 2 = P - 1 - g1 ^ 2 := by linarith
        refine ⟨?_, ?_, ?_⟩
        · field_simp
          rw [hR]
          ring
        · field_simp
          ring
        · field_simp
          linear_combination S * K * hR
      simp only [Function.comp, shearedG, key]
      rw [← h2]
    · intro g hg'
      obtain ⟨x, hx, rfl⟩ := List.mem_map.1 hg'
      have := mul_pos (hpos x hx) hF
      have h0 : 0 < 0.5 * (x.irr + x.icc) * ((1 - (g1 ^ 2 + g2 ^ 2)) / (1 + (g1 ^ 2 + g2 ^ 2))) := by
        rw [mul_assoc]
        norm_num
        exact this
      exact ⟨h0, h0, by simp only; nlinarith [mul_pos h0 h0]⟩

/-- C116.  The round version of a simple model has the gaussians of the same model with no shape and the size of the round
version. -/
theorem C116_model (name : String) (fvals pvals : List ℝ) (h : (name, fvals, pvals) ∈ simpleTables)
    (row col g1 g2 T F : ℝ) (hg : InDisk g1 g2) (hT : T ≠ 0) (hF : F ≠ 0) :
    ∃ o o' r, makeGmixModel [row, col, g1, g2, T, F] (.str name) = .ok o ∧
      makeGmixModel [row, col, 0, 0, T * ((1 - (g1 ^ 2 + g2 ^ 2)) / (1 + (g1 ^ 2 + g2 ^ 2))), F] (.str name) = .ok o' ∧
      makeRoundObj o false = .ok (some r) ∧ r.data = o'.data := by
  obtain ⟨-, -, hm⟩ := C22_model name fvals pvals h row col g1 g2 T F
  obtain ⟨o, ho, -, -, -, h4⟩ := hm hg
  obtain ⟨-, T', -, -, hG⟩ := h4 hF
  obtain ⟨-, -, m3⟩ := make_simple name fvals pvals h row col g1 g2 T F
  have hfill : fillSimple fvals pvals row col g1 g2 T F =
      .ok ((fvals.zip pvals).map fun fp => coGauss (F * fp.2) row col (0.5 * T * fp.1)
        (2 * g1 / (1 + (g1 ^ 2 + g2 ^ 2))) (2 * g2 / (1 + (g1 ^ 2 + g2 ^ 2)))) := by
    simp only [fillSimple, g1g2ToE1E2nb_closed hg, Except.map]
  obtain ⟨o1, ho1, hd, -, -⟩ := m3 _ hfill
  rw [ho] at ho1
  simp only [Except.ok.injEq] at ho1
  subst ho1
  obtain ⟨-, -, m3'⟩ := make_simple name fvals pvals h row col 0 0 (T * ((1 - (g1 ^ 2 + g2 ^ 2)) / (1 + (g1 ^ 2 + g2 ^ 2)))) F
  have hfill' : fillSimple fvals pvals row col 0 0 (T * ((1 - (g1 ^ 2 + g2 ^ 2)) / (1 + (g1 ^ 2 + g2 ^ 2)))) F =
      .ok ((fvals.zip pvals).map fun fp => coGauss (F * fp.2) row col
        (0.5 * (T * ((1 - (g1 ^ 2 + g2 ^ 2)) / (1 + (g1 ^ 2 + g2 ^ 2)))) * fp.1) 0 0) := by
    simp only [fillSimple, g1g2ToE1E2nb_closed (show InDisk 0 0 by norm_num [InDisk]), Except.map]
    norm_num
  obtain ⟨o', ho', hd', -, -⟩ := m3' _ hfill'
  have hround : makeRound o.data false = some (.ok (roundData (getRoundFactor g1 g2) o.data)) := by
    simp only [makeRound, roundFactorOf, hG hT, Bool.false_eq_true, if_false, Option.map_some, Except.map]
  have hreach : ModelReach o := by
    simp only [simpleTables, List.mem_cons, Prod.mk.injEq, List.not_mem_nil, or_false] at h
    rcases h with ⟨rfl, -, -⟩ | ⟨rfl, -, -⟩ | ⟨rfl, -, -⟩ | ⟨rfl, -, -⟩
    · exact .make [row, col, g1, g2, T, F] (.num 1) o (by rw [← ho]; simp [makeGmixModel, num_facts, Except.bind])
    · exact .make [row, col, g1, g2, T, F] (.num 2) o (by rw [← ho]; simp [makeGmixModel, num_facts, Except.bind])
    · exact .make [row, col, g1, g2, T, F] (.num 3) o (by rw [← ho]; simp [makeGmixModel, num_facts, Except.bind])
    · exact .make [row, col, g1, g2, T, F] (.num 4) o (by rw [← ho]; simp [makeGmixModel, num_facts, Except.bind])
  obtain ⟨r, hr, hrd, -⟩ := (C24_make_round o hreach false).2.2 _ hround
  refine ⟨o, o', r, ho, ho', hr, ?_⟩
  rw [hrd, hd, hd']
  unfold roundData
  rw [List.map_map]
  apply List.map_congr_left
  intro fp _
  have hp : 1 + (g1 ^ 2 + g2 ^ 2) ≠ 0 := by positivity
  simp only [Function.comp, coGauss, gauss2dSet, getRoundFactor]
  have h05 : (0.5 : ℝ) = 1 / 2 := by norm_num
  rw [h05]
  congr 1
  · ring
  · ring
  · ring
  · generalize hP : 1 + (g1 ^ 2 + g2 ^ 2) = P at hp ⊢
    have hQ : 1 - (g1 ^ 2 + g2 ^ 2) = 2 - P := by linarith
    have hR : g2 ^ 2 = P - 1 - g1 ^ 2 := by linarith
    rw [hQ]
    field_simp
    rw [hR]
    ring

/-- C116 (violation).  For model mixtures the shear of the round version is the shear of the mixture as it was, not of its
round version: `get_sheared` works on a copy, which is made of the parameters. -/
theorem C116_model_forgets (o : GMixObj) (h : ModelReach o) (preserve : Bool) (r : GMixObj)
    (hr : makeRoundObj o preserve = .ok (some r)) (s1 s2 : ℝ) (again : Bool) :
    getShearedObj r s1 s2 = getShearedObj o s1 s2 ∧ makeRoundObj r again = makeRoundObj o again := by
  obtain ⟨k1, k2, k3⟩ := C24_make_round o h preserve
  have hc := C24_copy o h
  have hcr : copyGMix r = .ok o := by
    rcases hx : makeRound o.data preserve with _ | (e | gm)
    · rw [k1 hx] at hr; cases hr
    · rw [k2 e hx] at hr; cases hr
    · obtain ⟨r', hr', -, -, -, -, hcr⟩ := k3 gm hx
      rw [hr'] at hr
      simp only [Except.ok.injEq, Option.some.injEq] at hr
      rw [← hr]
      exact hcr
  unfold getShearedObj makeRoundObj
  rw [hcr, hc]
  exact ⟨rfl, rfl⟩

/-! ### Several centres -/

/-- Two gaussians at either side of the origin. -/
def pairGM : List Gauss := [gauss2dSet 1 0 (-1) 1 0 3, gauss2dSet 1 0 1 1 0 3]

theorem pair_moms (a c : ℝ) (gm : List Gauss) (x y : Gauss) (h : gm = [x, y]) (hx : x.p = 1 ∧ x.row = 0 ∧ x.col = -1 ∧ x.irr = a ∧ x.irc = 0 ∧ x.icc = c)
    (hy : y.p = 1 ∧ y.row = 0 ∧ y.col = 1 ∧ y.irr = a ∧ y.irc = 0 ∧ y.icc = c) : SecondMoments gm a 0 (c + 1) := by
  obtain ⟨a1, a2, a3, a4, a5, a6⟩ := hx
  obtain ⟨b1, b2, b3, b4, b5, b6⟩ := hy
  subst h
  refine ⟨0, 0, ⟨?_, ?_, ?_⟩, ?_, ?_, ?_⟩ <;> simp [Flux, a1, a2, a3, a4, a5, a6, b1, b2, b3, b4, b5, b6] <;> ring

theorem pair_round (preserve : Bool) : makeRound pairGM preserve = some (.ok (roundData (if preserve then 8 / 5 else 4 / 5) pairGM)) := by
  have hm : SecondMoments pairGM 1 0 (3 + 1) :=
    pair_moms 1 3 pairGM _ _ rfl ⟨rfl, rfl, rfl, rfl, rfl, rfl⟩ ⟨rfl, rfl, rfl, rfl, rfl, rfl⟩
  have hE := (C18_size_and_shape _ _ _ _ hm).2 (by norm_num)
  cases preserve
  · have hG : gmGetG1g2T pairGM = some (.ok (1 / 3, 0, 5)) := by
      rw [gmGetG1g2T, hE]
      simp only [Option.map_some]
      rw [e1e2ToG1G2_closed (by norm_num [InDisk])]
      have : (1 - (((3 + 1 - 1) / (1 + (3 + 1))) ^ 2 + (2 * 0 / (1 + (3 + 1))) ^ 2) : ℝ) = (4 / 5) ^ 2 := by norm_num
      rw [this, Real.sqrt_sq (by norm_num)]
      norm_num [Except.map]
    simp only [makeRound, roundFactorOf, hG, Bool.false_eq_true, if_false, Option.map_some, Except.map, getRoundFactor]
    norm_num
  · simp only [makeRound, roundFactorOf, hE, if_true, Option.map_some, Except.map]
    have : maxEig (e2mom ((3 + 1 - 1) / (1 + (3 + 1))) (2 * 0 / (1 + (3 + 1))) (1 + (3 + 1))).1
        (e2mom ((3 + 1 - 1) / (1 + (3 + 1))) (2 * 0 / (1 + (3 + 1))) (1 + (3 + 1))).2.1
        (e2mom ((3 + 1 - 1) / (1 + (3 + 1))) (2 * 0 / (1 + (3 + 1))) (1 + (3 + 1))).2.2 / ((1 + (3 + 1)) / 2) = 8 / 5 := by
      simp only [maxEig, e2mom]
      have : (((1 - (3 + 1 - 1) / (1 + (3 + 1))) * (1 + (3 + 1)) / 2 - (1 + (3 + 1 - 1) / (1 + (3 + 1))) * (1 + (3 + 1)) / 2) / 2) ^ 2 +
          (2 * 0 / (1 + (3 + 1)) * (1 + (3 + 1)) / 2) ^ 2 = ((3 / 2 : ℝ)) ^ 2 := by norm_num
      rw [this, Real.sqrt_sq (by norm_num)]
      norm_num
    rw [this]

/-- C116 (violation).  The centres are not set to the common mean, as the documentation says: with gaussians at different
places the "round" version has a shape, its size is not `T (1-g^2)/(1+g^2)` (here 4), with `preserve_size` it is smaller than
the mixture along one direction (here the columns' extent 4 becomes 21/5 but that of the rows is 16/5), and rounding again
changes it. -/
theorem C116_centres :
    ∃ gm' gm'', makeRound pairGM false = some (.ok gm') ∧ makeRound pairGM true = some (.ok gm'') ∧
      (gm'.map fun g => g.col) = [-1, 1] ∧ gmGetG1g2T pairGM = some (.ok (1 / 3, 0, 5)) ∧
      gmGetE1e2T gm' = some (5 / 21, 0, 21 / 5) ∧ gmGetE1e2T gm'' = some (5 / 37, 0, 37 / 5) ∧
      SecondMoments pairGM 1 0 4 ∧ SecondMoments gm'' (16 / 5) 0 (21 / 5) ∧
      ∃ g3, makeRound gm'' true = some (.ok g3) ∧ g3 ≠ gm'' := by
  have hm : SecondMoments pairGM 1 0 (3 + 1) :=
    pair_moms 1 3 pairGM _ _ rfl ⟨rfl, rfl, rfl, rfl, rfl, rfl⟩ ⟨rfl, rfl, rfl, rfl, rfl, rfl⟩
  have hE := (C18_size_and_shape _ _ _ _ hm).2 (by norm_num)
  have h1 : SecondMoments (roundData (4 / 5) pairGM) (8 / 5) 0 (8 / 5 + 1) := by
    refine pair_moms (8 / 5) (8 / 5) _ _ _ rfl ⟨rfl, rfl, rfl, ?_, rfl, ?_⟩ ⟨rfl, rfl, rfl, ?_, rfl, ?_⟩ <;>
      norm_num [gauss2dSet]
  have h2 : SecondMoments (roundData (8 / 5) pairGM) (16 / 5) 0 (16 / 5 + 1) := by
    refine pair_moms (16 / 5) (16 / 5) _ _ _ rfl ⟨rfl, rfl, rfl, ?_, rfl, ?_⟩ ⟨rfl, rfl, rfl, ?_, rfl, ?_⟩ <;>
      norm_num [gauss2dSet]
  have E1 := (C18_size_and_shape _ _ _ _ h1).2 (by norm_num)
  have E2 := (C18_size_and_shape _ _ _ _ h2).2 (by norm_num)
  refine ⟨_, _, pair_round false, pair_round true, ?_, ?_, ?_, ?_, ?_, ?_, ?_⟩
  · simp [roundData, pairGM, gauss2dSet]
  · rw [gmGetG1g2T, hE]
    simp only [Option.map_some]
    rw [e1e2ToG1G2_closed (by norm_num [InDisk])]
    have : (1 - (((3 + 1 - 1) / (1 + (3 + 1))) ^ 2 + (2 * 0 / (1 + (3 + 1))) ^ 2) : ℝ) = (4 / 5) ^ 2 := by norm_num
    rw [this, Real.sqrt_sq (by norm_num)]
    norm_num [Except.map]
  · simp only [Bool.false_eq_true, if_false, E1]
    norm_num
  · simp only [if_true, E2]
    norm_num
  · have : (3 : ℝ) + 1 = 4 := by norm_num
    rw [this] at hm
    exact hm
  · have : (16 / 5 : ℝ) + 1 = 21 / 5 := by norm_num
    rw [this] at h2
    exact h2
  · have hx : 1 < maxEig (e2mom ((16 / 5 + 1 - 16 / 5) / (16 / 5 + (16 / 5 + 1))) (2 * 0 / (16 / 5 + (16 / 5 + 1))) (16 / 5 + (16 / 5 + 1))).1
        (e2mom ((16 / 5 + 1 - 16 / 5) / (16 / 5 + (16 / 5 + 1))) (2 * 0 / (16 / 5 + (16 / 5 + 1))) (16 / 5 + (16 / 5 + 1))).2.1
        (e2mom ((16 / 5 + 1 - 16 / 5) / (16 / 5 + (16 / 5 + 1))) (2 * 0 / (16 / 5 + (16 / 5 + 1))) (16 / 5 + (16 / 5 + 1))).2.2 /
        ((16 / 5 + (16 / 5 + 1)) / 2) := by
      rw [lt_div_iff₀ (by norm_num)]
      simp only [maxEig, e2mom]
      have : 0 < Real.sqrt ((((1 - (16 / 5 + 1 - 16 / 5) / (16 / 5 + (16 / 5 + 1))) * (16 / 5 + (16 / 5 + 1)) / 2 -
        (1 + (16 / 5 + 1 - 16 / 5) / (16 / 5 + (16 / 5 + 1))) * (16 / 5 + (16 / 5 + 1)) / 2) / 2) ^ 2 +
        (2 * 0 / (16 / 5 + (16 / 5 + 1)) * (16 / 5 + (16 / 5 + 1)) / 2) ^ 2) := Real.sqrt_pos.2 (by norm_num)
      linarith
    generalize hF : maxEig (e2mom ((16 / 5 + 1 - 16 / 5) / (16 / 5 + (16 / 5 + 1))) (2 * 0 / (16 / 5 + (16 / 5 + 1))) (16 / 5 + (16 / 5 + 1))).1
        (e2mom ((16 / 5 + 1 - 16 / 5) / (16 / 5 + (16 / 5 + 1))) (2 * 0 / (16 / 5 + (16 / 5 + 1))) (16 / 5 + (16 / 5 + 1))).2.1
        (e2mom ((16 / 5 + 1 - 16 / 5) / (16 / 5 + (16 / 5 + 1))) (2 * 0 / (16 / 5 + (16 / 5 + 1))) (16 / 5 + (16 / 5 + 1))).2.2 /
        ((16 / 5 + (16 / 5 + 1)) / 2) = F at hx
    refine ⟨roundData F (roundData (8 / 5) pairGM), ?_, ?_⟩
    · simp only [if_true, makeRound, roundFactorOf, E2, Option.map_some, Except.map, hF]
    · intro he
      have h3 := congrArg (fun l : List Gauss => (l.map fun g => g.irr).sum) he
      simp only [roundData, pairGM, gauss2dSet, if_true, List.map_cons, List.map_nil, List.sum_cons, List.sum_nil] at h3
      norm_num at h3
      linarith

/-- C116 (violation).  With gaussians of different shapes the determinants are wrong after `make_round` also without
`preserve_size`: here both covariances become 2, 0, 2, and the norms are those of a determinant of 3. -/
theorem C116_stale :
    ∃ gm', makeRound [gauss2dSet 1 0 0 1 0 3, gauss2dSet 1 0 0 3 0 1] false = some (.ok gm') ∧
      (gmixSetNorms gm').2 = .ok () ∧
      ∀ g ∈ gm', g.irr = 2 ∧ g.irc = 0 ∧ g.icc = 2 ∧ g.det = 3 ∧ ¬ DetCurrent g := by
  have hm : SecondMoments [gauss2dSet 1 0 0 1 0 3, gauss2dSet 1 0 0 3 0 1] 2 0 2 := by
    refine ⟨0, 0, ⟨?_, ?_, ?_⟩, ?_, ?_, ?_⟩ <;> norm_num [Flux, gauss2dSet]
  have hE := (C18_size_and_shape _ _ _ _ hm).2 (by norm_num)
  have hG : gmGetG1g2T [gauss2dSet 1 0 0 1 0 3, gauss2dSet 1 0 0 3 0 1] = some (.ok (0, 0, 4)) := by
    rw [gmGetG1g2T, hE]
    simp only [Option.map_some]
    rw [e1e2ToG1G2_closed (by norm_num [InDisk])]
    norm_num [Except.map]
  refine ⟨roundData 1 [gauss2dSet 1 0 0 1 0 3, gauss2dSet 1 0 0 3 0 1], ?_, ?_, ?_⟩
  · simp only [makeRound, roundFactorOf, hG, Bool.false_eq_true, if_false, Option.map_some, Except.map, getRoundFactor]
    norm_num
  · have h1 : ¬ ((3:ℝ) < gmixLowDetval) := by norm_num [gmixLowDetval]
    have h2 : ¬ ((4:ℝ) ≤ gmixLowDetval) := by norm_num [gmixLowDetval]
    simp only [roundData, gauss2dSet, List.map_cons, List.map_nil, gmixSetNorms, gauss2dSetNorm]
    norm_num [h1, h2]
  · intro g hg
    simp only [roundData, gauss2dSet, List.map_cons, List.map_nil, List.mem_cons, List.not_mem_nil, or_false] at hg
    rcases hg with rfl | rfl <;> norm_num [DetCurrent]

/-! ### Cases -/

/-- A mixture of two shapes at one centre. -/
example : ∃ gm', makeRound [gauss2dSet 1 2 3 1 0 3, gauss2dSet 2 2 3 4 1 1] true = some (.ok gm') ∧
    makeRound gm' false = some (.ok gm') := by
  have hm : SecondMoments [gauss2dSet 1 2 3 1 0 3, gauss2dSet 2 2 3 4 1 1] 3 (2 / 3) (5 / 3) := by
    refine ⟨2, 3, ⟨?_, ?_, ?_⟩, ?_, ?_, ?_⟩ <;> norm_num [Flux, gauss2dSet]
  obtain ⟨gm', T', h1, -, -, -, -, -, -, -, -, h2⟩ := C116_round _ 2 3 _ _ _ (by
    intro g hg
    simp only [List.mem_cons, List.not_mem_nil, or_false] at hg
    rcases hg with rfl | rfl <;> exact ⟨rfl, rfl⟩) hm (by norm_num [PosDef2]) true
  exact ⟨gm', h1, h2 false⟩

/-- An exponential model of shape (0.1, -0.3) is rounded and then sheared back. -/
example : ∃ o gm', makeGmixModel [1, 2, 0.1, -0.3, 4, 100] (.str "exp") = .ok o ∧ makeRound o.data false = some (.ok gm') ∧
    shearData 0.1 (-0.3) gm' = .ok (NormsUnset o.data) := by
  obtain ⟨-, -, hm⟩ := C22_model "exp" fvalsExp pvalsExp (by simp [simpleTables]) 1 2 0.1 (-0.3) 4 100
  obtain ⟨o, ho, -, -, -, h4⟩ := hm (by norm_num [InDisk])
  obtain ⟨-, T', hT, hTT, -⟩ := h4 (by norm_num)
  obtain ⟨-, -, m3⟩ := make_simple "exp" fvalsExp pvalsExp (by simp [simpleTables]) 1 2 0.1 (-0.3) 4 100
  obtain ⟨gm, hgm, hall⟩ := (C22_fill_simple fvalsExp pvalsExp 1 2 0.1 (-0.3) 4 100).2 (by norm_num [InDisk])
  obtain ⟨o1, ho1, hd, -, -⟩ := m3 gm hgm
  rw [ho] at ho1
  simp only [Except.ok.injEq] at ho1
  subst ho1
  obtain ⟨-, -, -, t3, -⟩ := C22_tables "exp" fvalsExp pvalsExp (by simp [simpleTables])
  have hget := List.forall₂_iff_get.1 hall
  have hall' : ∀ g ∈ o.data, DetCurrent g ∧ HasShape g 1 2 0.1 (-0.3) (g.irr + g.icc) ∧ 0 < g.irr + g.icc := by
    rw [hd]
    intro g hg
    obtain ⟨i, hi, rfl⟩ := List.getElem_of_mem hg
    have hi' : i < (fvalsExp.zip pvalsExp).length := by rw [hget.1]; exact hi
    obtain ⟨-, a2, a3, -⟩ := hget.2 i hi' hi
    have hsum := a2.2.2.1
    have hmem : (fvalsExp.zip pvalsExp)[i].1 ∈ fvalsExp := (List.of_mem_zip (List.getElem_mem hi')).1
    have hpos := t3 _ hmem
    simp only [List.get_eq_getElem] at a2 a3 hsum
    refine ⟨a3, by rw [hsum]; exact a2, ?_⟩
    rw [hsum]
    linarith
  obtain ⟨gm', h1, -, -, h2⟩ := C116_one_shape o.data 1 2 0.1 (-0.3) T' (by norm_num [InDisk]) (fun g hg => (hall' g hg).2.1)
    (fun g hg => (hall' g hg).1) hT (by
      rintro rfl
      norm_num at hTT)
  exact ⟨o, gm', ho, h1, h2 fun g hg => (hall' g hg).2.2⟩

end

end Ngmix.Props
