import Verif.Spec.WSums
import Verif.Props.Density
import Verif.Props.Norms
import Verif.Proof.ExceptLemmas

/-!
# C65: weighted sums
-/

namespace Ngmix.Props

open Ngmix Ngmix.Spec

noncomputable section

theorem norm_offset (vcen ucen : ℝ) (px : Pixel) :
    ‖offset vcen ucen px‖ ^ 2 = (px.u - ucen) * (px.u - ucen) + (px.v - vcen) * (px.v - vcen) := by
  rw [Complex.sq_norm, Complex.normSq_apply]; rfl

/-- The list the code makes is the list of moments. -/
theorem moments_eq (higher : Bool) (vcen ucen : ℝ) (px : Pixel) (i : ℕ) (hi : i < nMom higher) :
    (wsF higher vcen ucen px).getD i 0 = momentOf vcen ucen px i := by
  have hn := norm_offset vcen ucen px
  have h4 : ‖offset vcen ucen px‖ ^ 4 = (‖offset vcen ucen px‖ ^ 2) ^ 2 := by ring
  have h6 : ‖offset vcen ucen px‖ ^ 6 = (‖offset vcen ucen px‖ ^ 2) ^ 3 := by ring
  have h8 : ‖offset vcen ucen px‖ ^ 8 = (‖offset vcen ucen px‖ ^ 2) ^ 4 := by ring
  have one : (1.0 : ℝ) = 1 := by norm_num
  cases higher
  · unfold nMom at hi
    simp only [Bool.false_eq_true, if_false] at hi
    interval_cases i <;>
      simp only [wsF, wsF6, momentOf, hn, Bool.false_eq_true, if_false, List.getD_cons_zero, List.getD_cons_succ, one] <;>
      simp [offset, pow_two, Complex.mul_re, Complex.mul_im] <;> ring
  · unfold nMom at hi
    simp only [if_true] at hi
    interval_cases i <;>
      simp only [wsF, wsF17, momentOf, h4, h6, h8, hn, if_true, List.getD_cons_zero, List.getD_cons_succ, one] <;>
      simp [offset, pow_succ, Complex.mul_re, Complex.mul_im] <;> ring

theorem pixSum_cons (px : Pixel) (pxs : List Pixel) (f : Pixel → ℝ) : pixSum (px :: pxs) f = f px + pixSum pxs f := by
  simp [pixSum]

theorem within_cons (v u m : ℝ) (px : Pixel) (pxs : List Pixel) :
    within v u m (px :: pxs) =
      open Classical in if ‖offset v u px‖ ^ 2 < m then px :: within v u m pxs else within v u m pxs := by
  classical
  unfold within
  rw [List.filter_cons]
  by_cases h : ‖offset v u px‖ ^ 2 < m <;> simp [h]

theorem loop_sums (higher : Bool) (g : Gauss) (wt : List Gauss) (m : ℝ) (W : Pixel → ℝ)
    (hW : ∀ px, gmixEval wt px.v px.u px.area = some (W px)) : ∀ (pixels : List Pixel) (n : ℕ) (a : WAcc),
    ((∃ px ∈ within g.row g.col m pixels, px.ierr = 0) → wsLoop higher g wt (some m) pixels ⟨n, some a⟩ = .error .zeroDiv) ∧
    ((∀ px ∈ within g.row g.col m pixels, px.ierr ≠ 0) → ∃ a', wsLoop higher g wt (some m) pixels ⟨n, some a⟩ =
      .ok ⟨n + (within g.row g.col m pixels).length, some a'⟩ ∧
      AddedSums (nMom higher) g.row g.col W (within g.row g.col m pixels) a a') := by
  classical
  intro pixels
  induction pixels with
  | nil =>
      intro n a
      refine ⟨?_, fun _ => ⟨a, rfl, ?_, ?_, ?_⟩⟩
      · rintro ⟨px, hpx, -⟩; simp [within] at hpx
      all_goals simp [within, pixSum]
  | cons px pxs ih =>
      intro n a
      rw [within_cons, wsLoop]
      have hcond : (∃ m' ∈ (some m : Option ℝ), (px.u - g.col) * (px.u - g.col) + (px.v - g.row) * (px.v - g.row) < m') ↔
          ‖offset g.row g.col px‖ ^ 2 < m := by
        rw [norm_offset]
        constructor
        · rintro ⟨m', hm, h⟩; cases hm; exact h
        · intro h; exact ⟨m, rfl, h⟩
      by_cases hin : ‖offset g.row g.col px‖ ^ 2 < m
      · simp only [hcond, if_pos hin]
        by_cases hz : px.ierr = 0
        · simp only [hz, mul_zero, if_true]
          refine ⟨fun _ => trivial, fun h => absurd hz (h px List.mem_cons_self)⟩
        · rw [if_neg (mul_self_ne_zero.2 hz), hW px]
          obtain ⟨h1, h2⟩ := ih (n + 1) (wsStep (wsF higher g.row g.col px) px (W px) a)
          constructor
          · rintro ⟨q, hq, h0⟩
            rcases List.mem_cons.1 hq with rfl | hq
            · exact absurd h0 hz
            · exact h1 ⟨q, hq, h0⟩
          · intro hall
            obtain ⟨a', he, hs⟩ := h2 fun q hq => hall q (List.mem_cons_of_mem _ hq)
            refine ⟨a', ?_, ?_, ?_, ?_⟩
            · simp only [Option.bind_some, Option.map_some]
              rw [he, List.length_cons]
              congr 2; omega
            · rw [hs.wsum, pixSum_cons]
              simp only [wsStep]; ring
            · intro i hi
              rw [hs.sums i hi, pixSum_cons]
              simp only [wsStep, moments_eq higher _ _ _ i hi]; ring
            · intro i hi j hj
              rw [hs.cov i hi j hj, pixSum_cons]
              simp only [wsStep, moments_eq higher _ _ _ i hi, moments_eq higher _ _ _ j hj]
              have : (1.0 : ℝ) = 1 := by norm_num
              rw [this, pow_two]; ring
      · simp only [hcond, if_neg hin]
        exact ih n a

/-- A mixture whose norms are current has a value everywhere. -/
theorem eval_current (gm : List Gauss) (h : ∀ g ∈ gm, NormsCurrent g) (px : Pixel) :
    ∃ w, gmixEval gm px.v px.u px.area = some w := by
  have key : ∀ (gm : List Gauss), (∀ g ∈ gm, NormsCurrent g) → ∀ a : ℝ, ∃ w,
      gm.foldl (fun acc g => acc.bind fun a => (gaussEval g px.v px.u px.area).map fun b => a + b) (some a) = some w := by
    intro gm
    induction gm with
    | nil => intro _ a; exact ⟨a, rfl⟩
    | cons g gm ih =>
        intro h a
        obtain ⟨d, hd, -⟩ := h g List.mem_cons_self
        simp only [List.foldl_cons, gaussEval, hd, Option.map_some, Option.bind_some]
        exact ih (fun g hg => h g (List.mem_cons_of_mem _ hg)) _
  exact key gm h 0

/-- The squared radius inside which pixels count: the caller's, or a hundred times the width of the weight. -/
def RadiusSq (data : List Gauss) (maxrad : Option ℝ) (m : ℝ) : Prop :=
  (∀ r, maxrad = some r → m = r ^ 2) ∧
  (maxrad = none → ∃ T, gmGetT data = some T ∧ 0 ≤ T ∧ m = 100 ^ 2 * (T / 2))

theorem radius_eq {data : List Gauss} {maxrad : Option ℝ} {m : ℝ} (h : RadiusSq data maxrad m) :
    wsMaxrad2 data maxrad = some m := by
  cases maxrad with
  | some r => rw [h.1 r rfl]; rfl
  | none =>
      obtain ⟨T, hT, h0, rfl⟩ := h.2 rfl
      have h2 : 0 ≤ T / 2 := by linarith
      unfold wsMaxrad2
      rw [hT]
      simp only [Option.bind_some]
      rw [if_neg (not_lt.2 h2), mul_pow, Real.sq_sqrt h2]

/-- C65.  With a weight whose gaussians can be normalised, the sums over the pixels within the radius of weight times value
times moment are added to the record, and the covariance sums are those of the linear combinations for independent pixels of
variance `1 / ierr ^ 2`; a pixel of zero weight within the radius raises ZeroDivisionError. -/
theorem C65_sums (data data' : List Gauss) (g : Gauss) (gs : List Gauss) (hreach : GmReach data)
    (hn : setNormsIfNeeded data = (data', .ok ())) (hd : data' = g :: gs) (pixels : List Pixel) (maxrad : Option ℝ) (m : ℝ)
    (hm : RadiusSq data' maxrad m) (higher : Bool) (n0 : ℕ) (a0 : WAcc) :
    ∃ W : Pixel → ℝ, (∀ px, gmixEval data' px.v px.u px.area = some (W px)) ∧
      ((∃ px ∈ within g.row g.col m pixels, px.ierr = 0) →
        getWeightedSums data pixels maxrad higher ⟨n0, some a0⟩ = (data', .error .zeroDiv)) ∧
      ((∀ px ∈ within g.row g.col m pixels, px.ierr ≠ 0) →
        ∃ a, getWeightedSums data pixels maxrad higher ⟨n0, some a0⟩ =
            (data', .ok ⟨n0 + (within g.row g.col m pixels).length, some a⟩) ∧
          AddedSums (nMom higher) g.row g.col W (within g.row g.col m pixels) a0 a) := by
  have hcur : ∀ g ∈ data', NormsCurrent g := by
    have := C20_use_is_current data hreach (by rw [hn])
    rwa [hn] at this
  choose W hW using fun px => eval_current data' hcur px
  refine ⟨W, hW, ?_, ?_⟩
  all_goals
    intro hz
    subst hd
    unfold getWeightedSums
    rw [hn]
    simp only [radius_eq hm]
  · rw [(loop_sums higher g (g :: gs) m W hW pixels n0 a0).1 hz]
  · obtain ⟨a, ha, hs⟩ := (loop_sums higher g (g :: gs) m W hW pixels n0 a0).2 hz
    exact ⟨a, by rw [ha], hs⟩

/-- Pixels are simply accumulated. -/
theorem wsLoop_append (higher : Bool) (g : Gauss) (wt : List Gauss) (m : Option ℝ) (p q : List Pixel) (r : WRes) :
    wsLoop higher g wt m (p ++ q) r = (wsLoop higher g wt m p r).bind (wsLoop higher g wt m q) := by
  classical
  induction p generalizing r with
  | nil => rfl
  | cons px p ih =>
      rw [List.cons_append, wsLoop, wsLoop]
      split_ifs with h1 h2
      · rfl
      · exact ih _
      · exact ih _

theorem pixSum_add (l : List Pixel) (f h : Pixel → ℝ) : pixSum l (fun p => f p + h p) = pixSum l f + pixSum l h := by
  induction l with
  | nil => simp [pixSum]
  | cons p l ih => rw [pixSum_cons, pixSum_cons, pixSum_cons, ih]; ring

theorem pixSum_mul (l : List Pixel) (c : ℝ) (f : Pixel → ℝ) : pixSum l (fun p => c * f p) = c * pixSum l f := by
  induction l with
  | nil => simp [pixSum]
  | cons p l ih => rw [pixSum_cons, pixSum_cons, ih]; ring

theorem pixSum_congr (l : List Pixel) (f h : Pixel → ℝ) (e : ∀ p ∈ l, f p = h p) : pixSum l f = pixSum l h := by
  unfold pixSum
  congr 1
  exact List.map_congr_left e

/-- C65.  The covariance sums are symmetric and positive semidefinite, whatever the weights and the pixels. -/
theorem C65_covariance (n : ℕ) (v u : ℝ) (W : Pixel → ℝ) (pixels : List Pixel) (a : WAcc)
    (h : AddedSums n v u W pixels ⟨0, fun _ => 0, fun _ _ => 0⟩ a) :
    (∀ i < n, ∀ j < n, a.cov i j = a.cov j i) ∧
    (∀ x : ℕ → ℝ, 0 ≤ ∑ i ∈ Finset.range n, ∑ j ∈ Finset.range n, x i * x j * a.cov i j) := by
  constructor
  · intro i hi j hj
    rw [h.cov i hi j hj, h.cov j hj i hi]
    simp only [zero_add]
    exact pixSum_congr _ _ _ fun p _ => by ring
  · intro x
    have key : ∑ i ∈ Finset.range n, ∑ j ∈ Finset.range n, x i * x j * a.cov i j =
        pixSum pixels fun px => (1 / px.ierr ^ 2) * (∑ i ∈ Finset.range n, x i * (W px * momentOf v u px i)) ^ 2 := by
      have e : ∀ i ∈ Finset.range n, ∀ j ∈ Finset.range n, x i * x j * a.cov i j = pixSum pixels fun px =>
          (1 / px.ierr ^ 2) * ((x i * (W px * momentOf v u px i)) * (x j * (W px * momentOf v u px j))) := by
        intro i hi j hj
        rw [h.cov i (Finset.mem_range.1 hi) j (Finset.mem_range.1 hj)]
        simp only [zero_add]
        rw [← pixSum_mul]
        exact pixSum_congr _ _ _ fun p _ => by ring
      rw [Finset.sum_congr rfl fun i hi => Finset.sum_congr rfl fun j hj => e i hi j hj]
      clear e h
      induction pixels with
      | nil => simp [pixSum]
      | cons p l ih =>
          simp only [pixSum_cons, Finset.sum_add_distrib]
          rw [ih, sq (∑ i ∈ Finset.range n, x i * (W p * momentOf v u p i)), Finset.sum_mul_sum, Finset.mul_sum]
          congr 1
          exact Finset.sum_congr rfl fun i _ => by rw [Finset.mul_sum]
    rw [key]
    unfold pixSum
    refine List.sum_nonneg ?_
    intro y hy
    obtain ⟨px, -, rfl⟩ := List.mem_map.1 hy
    positivity

theorem within_withVals (v u m : ℝ) (f : Pixel → ℝ) (pixels : List Pixel) :
    within v u m (withVals f pixels) = withVals f (within v u m pixels) := by
  classical
  induction pixels with
  | nil => rfl
  | cons p l ih =>
      have : withVals f (p :: l) = { p with val := f p } :: withVals f l := rfl
      rw [this, within_cons, within_cons, ih]
      have ho : offset v u { p with val := f p } = offset v u p := rfl
      rw [ho]
      split_ifs <;> rfl

theorem pixSum_withVals (l : List Pixel) (f : Pixel → ℝ) (F : Pixel → ℝ) :
    pixSum (withVals f l) F = pixSum l fun p => F { p with val := f p } := by
  unfold pixSum withVals
  rw [List.map_map]; rfl

/-- The sums are linear in the pixel values and the sums of weights and covariances do not depend on them. -/
theorem wsLoop_linear (higher : Bool) (g : Gauss) (wt : List Gauss) (m : ℝ) (W : Pixel → ℝ)
    (hW : ∀ px, gmixEval wt px.v px.u px.area = some (W px)) (pixels : List Pixel)
    (hz : ∀ px ∈ within g.row g.col m pixels, px.ierr ≠ 0) (f h : Pixel → ℝ) (s t : ℝ) :
    ∃ n a b c, wsLoop higher g wt (some m) (withVals f pixels) WRes.zero = .ok ⟨n, some a⟩ ∧
      wsLoop higher g wt (some m) (withVals h pixels) WRes.zero = .ok ⟨n, some b⟩ ∧
      wsLoop higher g wt (some m) (withVals (fun p => s * f p + t * h p) pixels) WRes.zero = .ok ⟨n, some c⟩ ∧
      (∀ i < nMom higher, c.sums i = s * a.sums i + t * b.sums i) ∧
      a.wsum = c.wsum ∧ b.wsum = c.wsum ∧
      (∀ i < nMom higher, ∀ j < nMom higher, a.cov i j = c.cov i j ∧ b.cov i j = c.cov i j) := by
  have hWv : ∀ (p : Pixel) (y : ℝ), W { p with val := y } = W p := by
    intro p y
    have h1 := hW { p with val := y }
    have h2 := hW p
    simp only at h1
    rw [h2] at h1
    exact (Option.some.inj h1).symm
  have run : ∀ f : Pixel → ℝ, ∃ a, wsLoop higher g wt (some m) (withVals f pixels) WRes.zero =
      .ok ⟨(within g.row g.col m pixels).length, some a⟩ ∧
      (a.wsum = pixSum (within g.row g.col m pixels) W) ∧
      (∀ i < nMom higher, a.sums i = pixSum (within g.row g.col m pixels) fun px => W px * f px * momentOf g.row g.col px i) ∧
      (∀ i < nMom higher, ∀ j < nMom higher, a.cov i j = pixSum (within g.row g.col m pixels) fun px =>
        (W px * momentOf g.row g.col px i) * (W px * momentOf g.row g.col px j) * (1 / px.ierr ^ 2)) := by
    intro f
    have hz' : ∀ px ∈ within g.row g.col m (withVals f pixels), px.ierr ≠ 0 := by
      rw [within_withVals]
      intro px hpx
      obtain ⟨q, hq, rfl⟩ := List.mem_map.1 hpx
      exact hz q hq
    obtain ⟨a, ha, hs⟩ := (loop_sums higher g wt m W hW (withVals f pixels) 0 ⟨0, fun _ => 0, fun _ _ => 0⟩).2 hz'
    refine ⟨a, ?_, ?_, ?_, ?_⟩
    · rw [WRes.zero, ha, within_withVals]
      simp [withVals]
    · rw [hs.wsum, within_withVals, pixSum_withVals]
      simp only [zero_add]
      exact pixSum_congr _ _ _ fun p _ => hWv p _
    · intro i hi
      rw [hs.sums i hi, within_withVals, pixSum_withVals]
      simp only [zero_add]
      exact pixSum_congr _ _ _ fun p _ => by rw [hWv]; rfl
    · intro i hi j hj
      rw [hs.cov i hi j hj, within_withVals, pixSum_withVals]
      simp only [zero_add]
      exact pixSum_congr _ _ _ fun p _ => by rw [hWv]; rfl
  obtain ⟨a, ha, a1, a2, a3⟩ := run f
  obtain ⟨b, hb, b1, b2, b3⟩ := run h
  obtain ⟨c, hc, c1, c2, c3⟩ := run fun p => s * f p + t * h p
  refine ⟨_, a, b, c, ha, hb, hc, ?_, ?_, ?_, ?_⟩
  · intro i hi
    rw [c2 i hi, a2 i hi, b2 i hi, ← pixSum_mul, ← pixSum_mul, ← pixSum_add]
    exact pixSum_congr _ _ _ fun p _ => by ring
  · rw [a1, c1]
  · rw [b1, c1]
  · intro i hi j hj
    exact ⟨by rw [a3 i hi j hj, c3 i hi j hj], by rw [b3 i hi j hj, c3 i hi j hj]⟩

theorem norms_set_again {data data' : List Gauss} (h : setNormsIfNeeded data = (data', .ok ())) :
    setNormsIfNeeded data' = (data', .ok ()) := by
  rcases data with _ | ⟨g, gs⟩
  · cases h; rfl
  have hdef : ∀ (g : Gauss) gs, setNormsIfNeeded (g :: gs) =
      if g.normSet then (g :: gs, .ok ()) else gmixSetNorms (g :: gs) := fun _ _ => rfl
  rw [hdef] at h
  by_cases hg : g.normSet = true
  · rw [if_pos hg] at h
    cases h
    rw [hdef, if_pos hg]
  · rw [if_neg hg] at h
    unfold gmixSetNorms at h
    rcases hn : gauss2dSetNorm g with ⟨g', e | u⟩
    · rw [hn] at h; simp at h
    · rw [hn] at h
      simp only at h
      have hg' : g'.normSet = true := by
        unfold gauss2dSetNorm at hn
        simp only at hn
        split_ifs at hn
        all_goals (cases hn; first | rfl | done)
      rcases hrest : gmixSetNorms gs with ⟨gs', r⟩
      rw [hrest] at h
      simp only [Prod.mk.injEq] at h
      rw [← h.1, hdef, if_pos hg']

/-- C65.  Pixels are simply accumulated: the pixels of two lists together give what the second gives on top of the first. -/
theorem C65_append (data : List Gauss) (p q : List Pixel) (maxrad : Option ℝ) (higher : Bool) (r : WRes) :
    (∀ d e, getWeightedSums data p maxrad higher r = (d, .error e) →
      getWeightedSums data (p ++ q) maxrad higher r = (d, .error e)) ∧
    (∀ d r', getWeightedSums data p maxrad higher r = (d, .ok r') →
      getWeightedSums data (p ++ q) maxrad higher r = getWeightedSums d q maxrad higher r') := by
  unfold getWeightedSums
  rcases hs : setNormsIfNeeded data with ⟨data', e | u⟩
  · exact ⟨fun d e h => h, fun d r' h => by simp at h⟩
  · have hs2 := norms_set_again hs
    rcases data' with _ | ⟨g, gs⟩
    · exact ⟨fun d e h => h, fun d r' h => by simp at h⟩
    · dsimp only
      rw [wsLoop_append]
      rcases hl : wsLoop higher g (g :: gs) (wsMaxrad2 (g :: gs) maxrad) p r with e | r1
      · exact ⟨fun d e h => h, fun d r' h => by simp at h⟩
      · refine ⟨fun d e h => by simp at h, fun d r' h => ?_⟩
        simp only [Prod.mk.injEq, Except.ok.injEq] at h
        obtain ⟨rfl, rfl⟩ := h
        rw [hs2]
        rfl

/-- C65.  The sums are linear in the pixel values, and the sums of weights and the covariances do not depend on them. -/
theorem C65_linear (data data' : List Gauss) (g : Gauss) (gs : List Gauss) (hreach : GmReach data)
    (hn : setNormsIfNeeded data = (data', .ok ())) (hd : data' = g :: gs) (pixels : List Pixel) (maxrad : Option ℝ) (m : ℝ)
    (hm : RadiusSq data' maxrad m) (higher : Bool) (hz : ∀ px ∈ within g.row g.col m pixels, px.ierr ≠ 0)
    (f h : Pixel → ℝ) (s t : ℝ) :
    ∃ n a b c, getWeightedSums data (withVals f pixels) maxrad higher WRes.zero = (data', .ok ⟨n, some a⟩) ∧
      getWeightedSums data (withVals h pixels) maxrad higher WRes.zero = (data', .ok ⟨n, some b⟩) ∧
      getWeightedSums data (withVals (fun p => s * f p + t * h p) pixels) maxrad higher WRes.zero =
        (data', .ok ⟨n, some c⟩) ∧
      (∀ i < nMom higher, c.sums i = s * a.sums i + t * b.sums i) ∧
      a.wsum = c.wsum ∧ b.wsum = c.wsum ∧
      (∀ i < nMom higher, ∀ j < nMom higher, a.cov i j = c.cov i j ∧ b.cov i j = c.cov i j) := by
  obtain ⟨W, hW, -⟩ := C65_sums data data' g gs hreach hn hd pixels maxrad m hm higher 0 ⟨0, fun _ => 0, fun _ _ => 0⟩
  subst hd
  obtain ⟨n, a, b, c, h1, h2, h3, h4⟩ := wsLoop_linear higher g (g :: gs) m W hW pixels hz f h s t
  refine ⟨n, a, b, c, ?_, ?_, ?_, h4⟩
  all_goals
    unfold getWeightedSums
    rw [hn]
    simp only [radius_eq hm]
  · rw [h1]
  · rw [h2]
  · rw [h3]

/-- C65.  The first six of the seventeen sums, and their covariances, are the six. -/
theorem C65_first_six (data data' : List Gauss) (g : Gauss) (gs : List Gauss) (hreach : GmReach data)
    (hn : setNormsIfNeeded data = (data', .ok ())) (hd : data' = g :: gs) (pixels : List Pixel) (maxrad : Option ℝ) (m : ℝ)
    (hm : RadiusSq data' maxrad m) (hz : ∀ px ∈ within g.row g.col m pixels, px.ierr ≠ 0) :
    ∃ n a b, getWeightedSums data pixels maxrad true WRes.zero = (data', .ok ⟨n, some a⟩) ∧
      getWeightedSums data pixels maxrad false WRes.zero = (data', .ok ⟨n, some b⟩) ∧ a.wsum = b.wsum ∧
      ∀ i < 6, a.sums i = b.sums i ∧ ∀ j < 6, a.cov i j = b.cov i j := by
  obtain ⟨W, hW, -, ok⟩ := C65_sums data data' g gs hreach hn hd pixels maxrad m hm true 0 ⟨0, fun _ => 0, fun _ _ => 0⟩
  obtain ⟨W', hW', -, ok'⟩ := C65_sums data data' g gs hreach hn hd pixels maxrad m hm false 0 ⟨0, fun _ => 0, fun _ _ => 0⟩
  have hWW : W' = W := funext fun px => Option.some.inj ((hW' px).symm.trans (hW px))
  obtain ⟨a, ha, sa⟩ := ok hz
  obtain ⟨b, hb, sb⟩ := ok' hz
  rw [hWW] at sb
  refine ⟨_, a, b, ha, hb, by rw [sa.wsum, sb.wsum], fun i hi => ⟨?_, fun j hj => ?_⟩⟩
  · rw [sa.sums i (by simp [nMom]; omega), sb.sums i (by simpa [nMom] using hi)]
  · rw [sa.cov i (by simp [nMom]; omega) j (by simp [nMom]; omega),
      sb.cov i (by simpa [nMom] using hi) j (by simpa [nMom] using hj)]

end

end Ngmix.Props
