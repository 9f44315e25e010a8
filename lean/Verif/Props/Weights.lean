import Verif.Proof.Weights
import Verif.Props.Masked

/-! C105: the same pixels with other weights. -/

namespace Ngmix.Props

open Ngmix Ngmix.Spec Classical

/-! ### Gaussian weighted moments -/

/-- Accumulated numbers that differ in the covariance only. -/
def AccSigns : Option WAcc → Option WAcc → Prop
  | some a, some a' => a'.wsum = a.wsum ∧ a'.sums = a.sums ∧
      ∀ i, 0 ≤ a.cov i i ∧ 0 ≤ a'.cov i i ∧ (0 < a'.cov i i ↔ 0 < a.cov i i)
  | none, none => True
  | _, _ => False

/-- Relation of outcomes of the loop. -/
def LoopSigns : Except PyErr WRes → Except PyErr WRes → Prop
  | .ok r, .ok r' => r'.npix = r.npix ∧ AccSigns r.acc r'.acc
  | .error e, .error e' => e = e'
  | _, _ => False

theorem add_var_signs {x x' w f i i' : ℝ} (hi : i ≠ 0) (hi' : i' ≠ 0) (h : 0 ≤ x ∧ 0 ≤ x' ∧ (0 < x' ↔ 0 < x)) :
    0 ≤ x + w * w * (1.0 / (i * i)) * f * f ∧ 0 ≤ x' + w * w * (1.0 / (i' * i')) * f * f ∧
      (0 < x' + w * w * (1.0 / (i' * i')) * f * f ↔ 0 < x + w * w * (1.0 / (i * i)) * f * f) := by
  have e : ∀ j : ℝ, w * w * (1.0 / (j * j)) * f * f = (w * f / j) ^ 2 := by
    intro j
    rw [show (1.0 : ℝ) = 1 by norm_num]
    rw [div_pow, mul_pow, pow_two, pow_two, pow_two, mul_one_div]
    ring
  rw [e, e]
  obtain ⟨h1, h2, h3⟩ := h
  refine ⟨by positivity, by positivity, ?_⟩
  have key : ∀ j : ℝ, j ≠ 0 → (0 < (w * f / j) ^ 2 ↔ w * f ≠ 0) := by
    intro j hj
    rw [sq_pos_iff, ne_eq, div_eq_zero_iff, not_or]
    exact ⟨fun h => h.1, fun h => ⟨h, hj⟩⟩
  have split : ∀ a b : ℝ, 0 ≤ a → 0 ≤ b → (0 < a + b ↔ 0 < a ∨ 0 < b) := by
    intro a b ha hb
    constructor
    · intro hab
      by_contra hn
      rw [not_or, not_lt, not_lt] at hn
      linarith
    · rintro (h | h) <;> linarith
  rw [split _ _ h2 (sq_nonneg _), split _ _ h1 (sq_nonneg _), h3, key _ hi, key _ hi']

theorem wsLoop_signs (higher : Bool) (g : Gauss) (wt : List Gauss) (m : Option ℝ) :
    ∀ {px px' : List Pixel} (_ : List.Forall₂ Reweighted px px') (r r' : WRes), r'.npix = r.npix → AccSigns r.acc r'.acc →
    LoopSigns (wsLoop higher g wt m px r) (wsLoop higher g wt m px' r')
  | _, _, .nil, r, r', h1, h2 => ⟨h1, h2⟩
  | _, _, @List.Forall₂.cons _ _ _ p p' ps ps' hp hps, r, r', h1, h2 => by
    obtain ⟨e1, e2, e3, e4, e5, -⟩ := hp
    unfold wsLoop
    have hF : wsF higher g.row g.col p' = wsF higher g.row g.col p := by
      cases higher <;> simp only [wsF, wsF6, wsF17, e1, e2, Bool.false_eq_true, if_false, if_true]
    simp only [e1, e2, e3, mul_self_eq_zero, e5, hF]
    split_ifs with c1 c2
    · rfl
    · refine wsLoop_signs higher g wt m hps _ _ (by simp only [h1]) ?_
      rcases gmixEval wt p.v p.u p.area with _ | w
      · trivial
      · revert h2
        rcases r.acc with _ | a <;> rcases r'.acc with _ | a' <;> intro h2
        · trivial
        · exact h2.elim
        · exact h2.elim
        · obtain ⟨q1, q2, q3⟩ := h2
          refine ⟨?_, ?_, fun i => ?_⟩
          · simp only [wsStep, q1]
          · simp only [wsStep, q2, e4]
          · simp only [wsStep]
            exact add_var_signs c2 (fun h => c2 (e5.1 h)) (q3 i)
    · exact wsLoop_signs higher g wt m hps r r' h1 h2

theorem accSigns_res (higher : Bool) {a a' : Option WAcc} (h : AccSigns a a') :
    wsSums higher a' = wsSums higher a ∧ wsWsum a' = wsWsum a ∧ SameSigns (wsSums higher a) (wsCov higher a) (wsCov higher a') := by
  rcases a with _ | a <;> rcases a' with _ | a'
  · refine ⟨rfl, rfl, rfl, rfl, fun i => Iff.rfl, fun i j => ?_⟩
    rcases getRatioError ((wsSums higher none).getD i .nan) ((wsSums higher none).getD j .nan) ((wsCov higher none).get i i)
      ((wsCov higher none).get j j) ((wsCov higher none).get i j) with e | e
    · rfl
    · exact Iff.rfl
  · exact h.elim
  · exact h.elim
  · obtain ⟨h1, h2, h3⟩ := h
    refine ⟨by simp only [wsSums, h2], by simp only [wsWsum, h1], ?_⟩
    exact sameSigns_fin a.sums (nMom higher) (nMom higher) a.cov a'.cov fun i => (h3 i).2.2

/-- C105.  Gaussian weighted moments do not depend on the weights of the observation, as long as the same pixels are masked:
flags, flux, size, shape, centroid sums, named moments, number of pixels, the weight left behind and exceptions are the same.
Only errors, covariances and signal to noise depend on the weights. -/
theorem C105_gauss (weight : List Gauss) (higher : Bool) (px px' : List Pixel) (area : ℝ)
    (h : List.Forall₂ Reweighted px px') :
    (gaussMomGo weight higher (.obs px' area)).1 = (gaussMomGo weight higher (.obs px area)).1 ∧
    SameEstimates (gaussMomGo weight higher (.obs px area)).2 (gaussMomGo weight higher (.obs px' area)).2 := by
  unfold gaussMomGo getWeightedMoments getWeightedSums
  rcases setNormsIfNeeded weight with ⟨d, e | _⟩
  · exact ⟨rfl, rfl⟩
  rcases d with _ | ⟨g, gs⟩
  · exact ⟨rfl, rfl⟩
  simp only
  have hl := wsLoop_signs higher g (g :: gs) (wsMaxrad2 (g :: gs) none) h WRes.zero WRes.zero rfl
    ⟨rfl, rfl, fun i => ⟨le_rfl, le_rfl, Iff.rfl⟩⟩
  revert hl
  rcases wsLoop higher g (g :: gs) (wsMaxrad2 (g :: gs) none) px WRes.zero with e | r <;>
    rcases wsLoop higher g (g :: gs) (wsMaxrad2 (g :: gs) none) px' WRes.zero with e' | r' <;> intro hl
  · exact ⟨rfl, hl⟩
  · exact hl.elim
  · exact hl.elim
  · obtain ⟨hn, ha⟩ := hl
    obtain ⟨e1, e2, e3⟩ := accSigns_res higher ha
    have hm := makeMomResult_signs e3 (some (wsWsum r.acc))
    simp only [weightedStats, e1, e2]
    revert hm
    rcases makeMomResult (wsSums higher r.acc) (wsCov higher r.acc) (some (wsWsum r.acc)) with e | w <;>
      rcases makeMomResult (wsSums higher r.acc) (wsCov higher r'.acc) (some (wsWsum r.acc)) with e' | w' <;> intro hm
    · exact ⟨rfl, hm⟩
    · exact hm.elim
    · exact hm.elim
    · refine ⟨rfl, ?_⟩
      obtain ⟨q1, q2, q3, q4, q5, q6, q7, q8, q9, q10, q11⟩ := hm
      simp only [Except.map, q1]
      split_ifs
      · exact ⟨⟨q1, q2, q3, q4, q5, q6, q7, q8, q9, q10, q11⟩, rfl, hn⟩
      · refine ⟨⟨q1, q2, q3, ?_, q5, q6, q7, ?_, ?_, ?_, q11⟩, rfl, hn⟩
        · simp only [gaussMomScale, q4]
        · simp only [gaussMomScale, q8]
        · simp only [gaussMomScale, q9]
        · simp only [gaussMomScale, q10]

theorem scale_right' {c : ℝ} (hc : 0 < c) (a b : Fl) : (.fin c * a) * b = .fin c * (a * b) := by
  have := Fl.scale_mul hc one_pos a b
  rwa [Fl.one_scale, mul_one] at this

/-- Accumulated numbers of pixels with inverse errors `k` times as large. -/
noncomputable def accTighter (k : ℝ) (r : WRes) : WRes :=
  ⟨r.npix, r.acc.map fun a => ⟨a.wsum, a.sums, fun i j => (1 / k) ^ 2 * a.cov i j⟩⟩

theorem var_tighter {k : ℝ} (i : ℝ) : (1.0 : ℝ) / (k * i * (k * i)) = (1 / k) ^ 2 * (1.0 / (i * i)) := by
  rw [show (1.0 : ℝ) = 1 by norm_num, one_div_pow, one_div_mul_one_div]
  congr 1
  ring

theorem wsLoop_tighter {k : ℝ} (hk : 0 < k) (higher : Bool) (g : Gauss) (wt : List Gauss) (m : Option ℝ) :
    ∀ (px : List Pixel) (r : WRes), wsLoop higher g wt m (px.map (tighter k)) (accTighter k r) =
      (wsLoop higher g wt m px r).map (accTighter k)
  | [], r => rfl
  | p :: ps, r => by
    rw [List.map_cons]
    unfold wsLoop
    have e1 : (tighter k p).v = p.v := rfl
    have e2 : (tighter k p).u = p.u := rfl
    have e3 : (tighter k p).area = p.area := rfl
    have hF : wsF higher g.row g.col (tighter k p) = wsF higher g.row g.col p := by cases higher <;> rfl
    have hz : (tighter k p).ierr * (tighter k p).ierr = 0 ↔ p.ierr * p.ierr = 0 := by simp [tighter, hk.ne']
    simp only [e1, e2, e3, hz, hF]
    split_ifs
    · rfl
    · rw [← wsLoop_tighter hk higher g wt m ps]
      congr 1
      unfold accTighter
      simp only [WRes.mk.injEq, true_and]
      rcases gmixEval wt p.v p.u p.area with _ | w
      · rfl
      · rcases r.acc with _ | a
        · rfl
        · simp only [Option.bind_some, Option.map_some, wsStep, tighter, Option.some.injEq, WAcc.mk.injEq, true_and]
          funext i j
          rw [var_tighter]
          generalize (1.0 : ℝ) / (p.ierr * p.ierr) = q
          generalize (1 / k : ℝ) = z
          ring
    · exact wsLoop_tighter hk higher g wt m ps r

theorem wsCov_tighter (k : ℝ) (higher : Bool) (r : WRes) :
    wsCov higher (accTighter k r).acc = covTimes (1 / k) (wsCov higher r.acc) := by
  unfold accTighter
  rcases r.acc with _ | a <;> rfl

/-- C105.  With all weights of the observation `k²` times as large, Gaussian weighted moments have errors `1/k` times,
covariances `1/k²` times and signal to noise `k` times as large, and are otherwise the same. -/
theorem C105_gauss_errors (weight : List Gauss) (higher : Bool) (px : List Pixel) (area k : ℝ) (hk : 0 < k) :
    gaussMomGo weight higher (.obs (px.map (tighter k)) area) =
      ((gaussMomGo weight higher (.obs px area)).1,
        (gaussMomGo weight higher (.obs px area)).2.map fun w => { w with res := errorsTimes (1 / k) w.res }) := by
  have hc : 0 < 1 / k := one_div_pos.2 hk
  unfold gaussMomGo getWeightedMoments getWeightedSums
  rcases setNormsIfNeeded weight with ⟨d, e | _⟩
  · rfl
  rcases d with _ | ⟨g, gs⟩
  · rfl
  simp only
  have hl := wsLoop_tighter hk higher g (g :: gs) (wsMaxrad2 (g :: gs) none) px WRes.zero
  rw [show accTighter k WRes.zero = WRes.zero by simp [accTighter, WRes.zero]] at hl
  rw [hl]
  rcases wsLoop higher g (g :: gs) (wsMaxrad2 (g :: gs) none) px WRes.zero with e | r
  · rfl
  · simp only [Except.map, weightedStats, wsCov_tighter]
    have hs : wsSums higher (accTighter k r).acc = wsSums higher r.acc := by
      unfold accTighter; rcases r.acc with _ | a <;> rfl
    have hw : wsWsum (accTighter k r).acc = wsWsum r.acc := by
      unfold accTighter; rcases r.acc with _ | a <;> rfl
    rw [hs, hw, makeMomResult_times hc]
    rcases makeMomResult (wsSums higher r.acc) (wsCov higher r.acc) (some (wsWsum r.acc)) with e | w
    · rfl
    · simp only [Except.map, show (errorsTimes (1 / k) w).flags = w.flags from rfl,
        show (accTighter k r).npix = r.npix from rfl]
      split_ifs
      · rfl
      · simp only [gaussMomScale, errorsTimes, scale_right' hc, scale_right' (pow_pos hc 2), List.map_map, Function.comp_def]

/-! ### Adaptive moments -/

/-- Records that differ in the covariance only. -/
def AMSigns (r r' : AMRes) : Prop :=
  r'.flags = r.flags ∧ r'.numiter = r.numiter ∧ r'.npix = r.npix ∧ r'.wsum = r.wsum ∧ r'.sums = r.sums ∧ r'.pars = r.pars ∧
    r'.rho4 = r.rho4 ∧ ∀ i, 0 ≤ r.sumsCov i i ∧ 0 ≤ r'.sumsCov i i ∧ (0 < r'.sumsCov i i ↔ 0 < r.sumsCov i i)

theorem amSigns_clear {r r' : AMRes} (h : AMSigns r r') : AMSigns (amClear r) (amClear r') := by
  obtain ⟨h1, h2, h3, h4, h5, h6, h7, h8⟩ := h
  exact ⟨h1, h2, rfl, rfl, rfl, rfl, rfl, fun i => ⟨le_rfl, le_rfl, Iff.rfl⟩⟩

theorem amSigns_cen (w : AMWt) : ∀ {px px' : List Pixel} (_ : List.Forall₂ Reweighted px px') (r r' : AMRes), AMSigns r r' →
    AMSigns (amCensums w px r) (amCensums w px' r')
  | _, _, .nil, _, _, h => h
  | _, _, @List.Forall₂.cons _ _ _ p p' ps ps' hp hps, r, r', h => by
    unfold amCensums
    rw [List.foldl_cons, List.foldl_cons]
    refine amSigns_cen w hps _ _ ?_
    obtain ⟨e1, e2, e3, e4, -, -⟩ := hp
    obtain ⟨h1, h2, h3, h4, h5, h6, h7, h8⟩ := h
    unfold cenStep
    exact ⟨h1, h2, by simp only [h3], h4, by simp only [h5, e1, e2, e3, e4], h6, h7, h8⟩

/-- Relation of outcomes of the sums. -/
def AMLoopSigns : Except PyErr AMRes → Except PyErr AMRes → Prop
  | .ok r, .ok r' => AMSigns r r'
  | .error e, .error e' => e = e'
  | _, _ => False

theorem amSigns_mom (w : AMWt) : ∀ {px px' : List Pixel} (_ : List.Forall₂ Reweighted px px') (r r' : AMRes), AMSigns r r' →
    AMLoopSigns (amMomsums w px r) (amMomsums w px' r')
  | _, _, .nil, _, _, h => h
  | _, _, @List.Forall₂.cons _ _ _ p p' ps ps' hp hps, r, r', h => by
    unfold amMomsums
    obtain ⟨e1, e2, e3, e4, e5, -⟩ := hp
    simp only [mul_self_eq_zero, e5]
    split_ifs with c
    · rfl
    · refine amSigns_mom w hps _ _ ?_
      obtain ⟨h1, h2, h3, h4, h5, h6, h7, h8⟩ := h
      have hF : amF w.g p' = amF w.g p := by simp only [amF, e1, e2]
      unfold momStep
      refine ⟨h1, h2, by simp only [h3], by simp only [h4, e1, e2, e3], by simp only [h5, e1, e2, e3, e4, hF], h6, h7,
        fun i => ?_⟩
      simp only [e1, e2, e3, hF]
      exact add_var_signs c (fun h => c (e5.1 h)) (h8 i)

theorem amSigns_decide (conf : AMConf) (w : AMWt) {r r' : AMRes} (old : Option (ℝ × ℝ × ℝ)) (h : AMSigns r r') :
    (amDecide conf w r' old).1 = (amDecide conf w r old).1 ∧ AMSigns (amDecide conf w r old).2.1 (amDecide conf w r' old).2.1 ∧
    (amDecide conf w r' old).2.2 = (amDecide conf w r old).2.2 := by
  obtain ⟨h1, h2, h3, h4, h5, h6, h7, h8⟩ := h
  unfold amDecide
  simp only [h5]
  split_ifs
  · exact ⟨rfl, ⟨rfl, h2, h3, h4, rfl, h6, h7, h8⟩, rfl⟩
  · exact ⟨rfl, ⟨rfl, h2, h3, h4, rfl, h6, h7, h8⟩, rfl⟩
  · exact ⟨rfl, ⟨h1, h2, h3, h4, rfl, rfl, rfl, h8⟩, rfl⟩
  · exact ⟨rfl, ⟨h1, h2, h3, h4, h5, h6, h7, h8⟩, rfl⟩
  · split
    · exact ⟨rfl, ⟨h1, h2, h3, h4, h5, h6, h7, h8⟩, rfl⟩
    · exact ⟨rfl, ⟨rfl, h2, h3, h4, rfl, h6, h7, h8⟩, rfl⟩

theorem amSigns_pass (conf : AMConf) (orig : ℝ × ℝ) {px px' : List Pixel} (hp : List.Forall₂ Reweighted px px') (w : AMWt)
    {r r' : AMRes} (old : Option (ℝ × ℝ × ℝ)) (h : AMSigns r r') :
    (amPass conf orig px' w r' old).1 = (amPass conf orig px w r old).1 ∧
    AMSigns (amPass conf orig px w r old).2.1 (amPass conf orig px' w r' old).2.1 ∧
    (amPass conf orig px' w r' old).2.2 = (amPass conf orig px w r old).2.2 := by
  have hc := amSigns_cen w hp _ _ (amSigns_clear h)
  unfold amPass
  have hs : (amCensums w px' (amClear r')).sums = (amCensums w px (amClear r)).sums := hc.2.2.2.2.1
  simp only [hs]
  split_ifs
  · obtain ⟨h1, h2, h3, h4, h5, h6, h7, h8⟩ := hc
    exact ⟨rfl, ⟨rfl, h2, h3, h4, rfl, h6, h7, h8⟩, rfl⟩
  · obtain ⟨h1, h2, h3, h4, h5, h6, h7, h8⟩ := hc
    exact ⟨rfl, ⟨rfl, h2, h3, h4, rfl, h6, h7, h8⟩, rfl⟩
  · generalize ({ g := { w.g with row := _, col := _ }, rest := w.rest } : AMWt) = w'
    have hm := amSigns_mom w' hp _ _ (amSigns_clear hc)
    revert hm
    rcases amMomsums w' px (amClear (amCensums w px (amClear r))) with e | q <;>
      rcases amMomsums w' px' (amClear (amCensums w px' (amClear r'))) with e' | q' <;> intro hm
    · exact ⟨rfl, hc, by rw [show e = e' from hm]⟩
    · exact hm.elim
    · exact hm.elim
    · obtain ⟨d1, d2, d3⟩ := amSigns_decide conf w' old hm
      exact ⟨d1, d2, by simp only [d3]⟩

theorem amSigns_iter (conf : AMConf) (orig : ℝ × ℝ) {px px' : List Pixel} (hp : List.Forall₂ Reweighted px px') (w : AMWt)
    {r r' : AMRes} (old : Option (ℝ × ℝ × ℝ)) (h : AMSigns r r') :
    (amIter conf orig px' w r' old).1 = (amIter conf orig px w r old).1 ∧
    AMSigns (amIter conf orig px w r old).2.1 (amIter conf orig px' w r' old).2.1 ∧
    (amIter conf orig px' w r' old).2.2 = (amIter conf orig px w r old).2.2 := by
  unfold amIter
  split_ifs
  · obtain ⟨h1, h2, h3, h4, h5, h6, h7, h8⟩ := h
    exact ⟨rfl, ⟨rfl, h2, h3, h4, h5, h6, h7, h8⟩, rfl⟩
  · rcases amSetNorms w with ⟨w', e | _⟩
    · exact ⟨rfl, h, rfl⟩
    · exact amSigns_pass conf orig hp w' old h

theorem amSigns_loop (conf : AMConf) (orig : ℝ × ℝ) {px px' : List Pixel} (hp : List.Forall₂ Reweighted px px') :
    ∀ (k i : ℕ) (w : AMWt) (r r' : AMRes) (old : Option (ℝ × ℝ × ℝ)), AMSigns r r' →
    (amLoop conf orig px' k i w r' old).1 = (amLoop conf orig px k i w r old).1 ∧
    AMSigns (amLoop conf orig px k i w r old).2.1 (amLoop conf orig px' k i w r' old).2.1 ∧
    (amLoop conf orig px' k i w r' old).2.2 = (amLoop conf orig px k i w r old).2.2
  | 0, _, _, _, _, _, h => ⟨rfl, h, rfl⟩
  | k + 1, i, w, r, r', old, h => by
    unfold amLoop
    have hi := amSigns_iter conf orig hp w old h
    revert hi
    rcases amIter conf orig px w r old with ⟨w1, r1, n1⟩
    rcases amIter conf orig px' w r' old with ⟨w2, r2, n2⟩
    rintro ⟨a1, a2, a3⟩
    simp only at a1 a2 a3
    subst a1 a3
    rcases n2 with e | _ | ⟨e1, e2, T⟩
    · exact ⟨rfl, a2, rfl⟩
    · exact ⟨rfl, a2, rfl⟩
    · exact amSigns_loop conf orig hp k (i + 1) w2 r1 r2 _ a2

/-- Result dictionaries that differ in errors only. -/
def OutSigns (o o' : AMOut) : Prop := SameAdmom o o' ∧ ∀ i, 0 < o'.sumsCov i i ↔ 0 < o.sumsCov i i

theorem outSigns_base {r r' : AMRes} (h : AMSigns r r') : OutSigns (amBase r) (amBase r') := by
  obtain ⟨h1, h2, h3, h4, h5, h6, h7, h8⟩ := h
  unfold amBase
  simp only [h1, h2, h3, h4, h5, h6, h7]
  exact ⟨⟨rfl, rfl, rfl, rfl, rfl, rfl, rfl, rfl, rfl, rfl, rfl, rfl, rfl, rfl, rfl⟩, fun i => (h8 i).2.2⟩

theorem outSigns_flux (area : ℝ) (n : Fl) {o o' : AMOut} (h : OutSigns o o') :
    OutSigns (amFlux area n o) (amFlux area n o') := by
  obtain ⟨⟨q1, q2, q3, q4, q5, q6, q7, q8, q9, q10, q11, q12, q13, q14, q15⟩, hc⟩ := h
  unfold amFlux
  simp only [q1, q7, q8, q12, gt_iff_lt, hc]
  split_ifs
  · exact ⟨⟨rfl, q2, q3, q4, q5, q6, rfl, rfl, q9, rfl, q11, rfl, q13, q14, q15⟩, hc⟩
  · exact ⟨⟨rfl, q2, q3, rfl, q5, q6, rfl, rfl, q9, rfl, q11, rfl, q13, q14, q15⟩, hc⟩
  · exact ⟨⟨rfl, q2, q3, rfl, q5, q6, rfl, rfl, q9, q10, q11, rfl, q13, q14, q15⟩, hc⟩
  · exact ⟨⟨rfl, q2, q3, rfl, q5, q6, rfl, rfl, q9, q10, q11, rfl, q13, q14, q15⟩, hc⟩

theorem outSigns_ratio {o o' : AMOut} (h : OutSigns o o') (i j : Fin 7) (hj : o.sums j ≠ 0) :
    ∃ e e', sumsRatioError o i j = .ok e ∧ sumsRatioError o' i j = .ok e' ∧ (e.isFinite ↔ e'.isFinite) := by
  unfold sumsRatioError
  rw [h.1.sums]
  obtain ⟨e, h1, h2⟩ := ratioError_finite (o.sums i) (o.sums j) (o.sumsCov i i) (o.sumsCov j j) (o.sumsCov i j) hj
  obtain ⟨e', h1', h2'⟩ := ratioError_finite (o.sums i) (o.sums j) (o'.sumsCov i i) (o'.sumsCov j j) (o'.sumsCov i j) hj
  exact ⟨e, e', h1, h1', h2.trans h2'.symm⟩

/-- Relation of outcomes. -/
def OutcomeSigns : Except PyErr AMOut → Except PyErr AMOut → Prop
  | .ok o, .ok o' => OutSigns o o'
  | .error e, .error e' => e = e'
  | _, _ => False

theorem outSigns_T {o o' : AMOut} (h : OutSigns o o') : OutcomeSigns (amT o) (amT o') := by
  have hr := outSigns_ratio h 4 5
  obtain ⟨⟨q1, q2, q3, q4, q5, q6, q7, q8, q9, q10, q11, q12, q13, q14, q15⟩, hc⟩ := h
  unfold amT
  simp only [q1, q8, gt_iff_lt, hc]
  split_ifs with c1 c2 c3
  · obtain ⟨e, e', h1, h2, -⟩ := hr c3.ne'
    rw [h1, h2]
    exact ⟨by constructor <;> first | rfl | assumption, hc⟩
  · exact ⟨by constructor <;> first | rfl | assumption, hc⟩
  · exact ⟨by constructor <;> first | rfl | assumption, hc⟩
  · exact ⟨by constructor <;> first | rfl | assumption, hc⟩

theorem outSigns_rho4 {o o' : AMOut} (h : OutSigns o o') : OutcomeSigns (amRho4 o) (amRho4 o') := by
  have hr := outSigns_ratio h 6 5
  obtain ⟨⟨q1, q2, q3, q4, q5, q6, q7, q8, q9, q10, q11, q12, q13, q14, q15⟩, hc⟩ := h
  unfold amRho4
  simp only [q1, q8, gt_iff_lt, hc]
  split_ifs with c1 c2 c3
  · obtain ⟨e, e', h1, h2, -⟩ := hr c3.ne'
    rw [h1, h2]
    exact ⟨by constructor <;> first | rfl | assumption, hc⟩
  · exact ⟨by constructor <;> first | rfl | assumption, hc⟩
  · exact ⟨by constructor <;> first | rfl | assumption, hc⟩
  · exact ⟨by constructor <;> first | rfl | assumption, hc⟩

theorem outSigns_var {o o' : AMOut} (h : OutSigns o o') : OutSigns (amVarFlag o) (amVarFlag o') := by
  obtain ⟨⟨q1, q2, q3, q4, q5, q6, q7, q8, q9, q10, q11, q12, q13, q14, q15⟩, hc⟩ := h
  unfold amVarFlag
  simp only [gt_iff_lt, hc]
  split_ifs
  · exact ⟨⟨q1, q2, q3, q4, q5, q6, q7, q8, q9, q10, q11, q12, q13, q14, q15⟩, hc⟩
  · exact ⟨⟨by simp only [q1], q2, q3, q4, q5, q6, q7, q8, q9, q10, q11, q12, q13, q14, q15⟩, hc⟩

theorem outSigns_shape {o o' : AMOut} (h : OutSigns o o') : OutcomeSigns (amShape o) (amShape o') := by
  have hr1 := outSigns_ratio h 2 4
  have hr2 := outSigns_ratio h 3 4
  obtain ⟨⟨q1, q2, q3, q4, q5, q6, q7, q8, q9, q10, q11, q12, q13, q14, q15⟩, hc⟩ := h
  unfold amShape
  simp only [q1, q8, q9, q12, gt_iff_lt]
  split_ifs with c1 c2 c3
  · by_cases h4 : o.sums 4 = 0
    · have he : ∀ x : AMOut, x.sums = o.sums → ∀ i, sumsRatioError x i 4 = .error .value := by
        intro x hx i
        unfold sumsRatioError getRatioError getRatioVar
        rw [if_pos (by rw [hx]; simpa using h4)]; rfl
      rw [he o rfl, he o' q8]
      rfl
    · obtain ⟨e, e', h1, h2, h3⟩ := hr1 h4
      obtain ⟨f, f', h1', h2', h3'⟩ := hr2 h4
      rw [h1, h2, h1', h2']
      simp only [Except.bind, Except.map, OutcomeSigns]
      unfold amShapeErr
      simp only [Fl.scale_isFinite two_pos, h3, h3']
      split_ifs
      · exact ⟨⟨by simp only [q1], q2, q3, q4, q5, q6, q7, q8, q9, q10, q11, q12, q13, rfl, rfl⟩, hc⟩
      · exact ⟨⟨q1, q2, q3, q4, q5, q6, q7, q8, q9, q10, q11, q12, q13, rfl, rfl⟩, hc⟩
  · exact ⟨⟨rfl, q2, q3, q4, q5, q6, q7, rfl, rfl, q10, q11, rfl, q13, q14, q15⟩, hc⟩
  · exact ⟨⟨rfl, q2, q3, q4, q5, q6, q7, rfl, rfl, q10, q11, rfl, q13, q14, q15⟩, hc⟩
  · exact ⟨⟨q1, q2, q3, q4, q5, q6, q7, q8, q9, q10, q11, q12, q13, q14, q15⟩, hc⟩

theorem outSigns_result {r r' : AMRes} (h : AMSigns r r') (area : ℝ) (n : Fl) :
    SameAdmomOutcome (amGetResult r area n) (amGetResult r' area n) := by
  unfold amGetResult
  have h1 := outSigns_T (outSigns_flux area n (outSigns_base h))
  revert h1
  rcases amT (amFlux area n (amBase r)) with e | o1 <;> rcases amT (amFlux area n (amBase r')) with e' | o1' <;> intro h1
  · exact h1
  · exact h1.elim
  · exact h1.elim
  · simp only [Except.bind]
    have h2 := outSigns_rho4 h1
    revert h2
    rcases amRho4 o1 with e | o2 <;> rcases amRho4 o1' with e' | o2' <;> intro h2
    · exact h2
    · exact h2.elim
    · exact h2.elim
    · simp only
      have h3 := outSigns_shape (outSigns_var h2)
      revert h3
      rcases amShape (amVarFlag o2) with e | o3 <;> rcases amShape (amVarFlag o2') with e' | o3' <;> intro h3
      · exact h3
      · exact h3.elim
      · exact h3.elim
      · exact h3.1

/-- C105.  Adaptive moments do not depend on the weights of the observation, as long as the same pixels are masked: the
weight function the run ends with, flags, number of iterations, sums, parameters, flux, size, shape and fourth moment, and
exceptions, are the same. -/
theorem C105_admom (conf : AMConf) (px px' : List Pixel) (area : ℝ) (guess : AMWt) (h : List.Forall₂ Reweighted px px') :
    (admomGo conf px' area guess).1 = (admomGo conf px area guess).1 ∧
    SameAdmomOutcome (admomGo conf px area guess).2 (admomGo conf px' area guess).2 := by
  have h0 : AMSigns AMRes.zero AMRes.zero :=
    ⟨rfl, rfl, rfl, rfl, rfl, rfl, rfl, fun i => ⟨le_rfl, le_rfl, Iff.rfl⟩⟩
  unfold admomGo admomNb
  by_cases hm : conf.maxiter ≤ 0
  · rw [if_pos hm, if_pos hm]; exact ⟨rfl, rfl⟩
  rw [if_neg hm, if_neg hm]
  have hl := amSigns_loop conf (guess.g.row, guess.g.col) h conf.maxiter.toNat 0 guess _ _ none h0
  revert hl
  rcases amLoop conf (guess.g.row, guess.g.col) px conf.maxiter.toNat 0 guess AMRes.zero none with ⟨w, r, n⟩
  rcases amLoop conf (guess.g.row, guess.g.col) px' conf.maxiter.toNat 0 guess AMRes.zero none with ⟨w', r', n'⟩
  rintro ⟨a1, a2, a3⟩
  simp only at a1 a2 a3
  subst a1 a3
  obtain ⟨h1, h2, h3, h4, h5, h6, h7, h8⟩ := a2
  rcases n' with e | n
  · cases e
    case gmixRange =>
      have : AMSigns { r with flags := Flags.GMIX_RANGE_ERROR } { r' with flags := Flags.GMIX_RANGE_ERROR } :=
        ⟨rfl, h2, h3, h4, h5, h6, h7, h8⟩
      exact ⟨rfl, outSigns_result this _ _⟩
    all_goals exact ⟨rfl, rfl⟩
  · refine ⟨rfl, outSigns_result ?_ _ _⟩
    unfold amFinish
    dsimp only
    split_ifs
    · exact ⟨rfl, rfl, h3, h4, h5, h6, h7, h8⟩
    · exact ⟨h1, rfl, h3, h4, h5, h6, h7, h8⟩

/-- The record of pixels with inverse errors `k` times as large. -/
noncomputable def amTighter (k : ℝ) (r : AMRes) : AMRes := { r with sumsCov := fun i j => (1 / k) ^ 2 * r.sumsCov i j }

theorem amCensums_tighter (k : ℝ) (w : AMWt) : ∀ (px : List Pixel) (r : AMRes),
    amCensums w (px.map (tighter k)) (amTighter k r) = amTighter k (amCensums w px r)
  | [], _ => rfl
  | p :: ps, r => amCensums_tighter k w ps (cenStep w r p)

theorem amMomsums_tighter {k : ℝ} (hk : 0 < k) (w : AMWt) : ∀ (px : List Pixel) (r : AMRes),
    amMomsums w (px.map (tighter k)) (amTighter k r) = (amMomsums w px r).map (amTighter k)
  | [], _ => rfl
  | p :: ps, r => by
    rw [List.map_cons]
    unfold amMomsums
    have hz : (tighter k p).ierr * (tighter k p).ierr = 0 ↔ p.ierr * p.ierr = 0 := by simp [tighter, hk.ne']
    simp only [hz]
    split_ifs
    · rfl
    · rw [← amMomsums_tighter hk w ps]
      congr 1
      unfold momStep amTighter
      have hF : amF w.g (tighter k p) = amF w.g p := rfl
      simp only [hF, AMRes.mk.injEq, true_and, tighter, and_true]
      refine ⟨rfl, ?_⟩
      funext i j
      change _ + _ * (1.0 / (k * p.ierr * (k * p.ierr))) * amF w.g p i * amF w.g p j = _
      rw [var_tighter]
      generalize (1.0 : ℝ) / (p.ierr * p.ierr) = q
      generalize (1 / k : ℝ) = z
      ring

theorem amDecide_tighter (k : ℝ) (conf : AMConf) (w : AMWt) (r : AMRes) (old : Option (ℝ × ℝ × ℝ)) :
    amDecide conf w (amTighter k r) old =
      ((amDecide conf w r old).1, amTighter k (amDecide conf w r old).2.1, (amDecide conf w r old).2.2) := by
  unfold amDecide
  have hs : (amTighter k r).sums = r.sums := rfl
  simp only [hs]
  split_ifs <;> first | rfl | (split <;> rfl)

theorem amClear_tighter (k : ℝ) (r : AMRes) : amClear (amTighter k r) = amTighter k (amClear r) := by
  unfold amClear amTighter
  simp

theorem amPass_tighter {k : ℝ} (hk : 0 < k) (conf : AMConf) (orig : ℝ × ℝ) (px : List Pixel) (w : AMWt) (r : AMRes)
    (old : Option (ℝ × ℝ × ℝ)) :
    amPass conf orig (px.map (tighter k)) w (amTighter k r) old =
      ((amPass conf orig px w r old).1, amTighter k (amPass conf orig px w r old).2.1, (amPass conf orig px w r old).2.2) := by
  unfold amPass
  rw [amClear_tighter, amCensums_tighter]
  have hs : (amTighter k (amCensums w px (amClear r))).sums = (amCensums w px (amClear r)).sums := rfl
  simp only [hs]
  split_ifs
  · rfl
  · rfl
  · rw [amClear_tighter, amMomsums_tighter hk]
    generalize ({ g := { w.g with row := _, col := _ }, rest := w.rest } : AMWt) = w'
    rcases amMomsums w' px (amClear (amCensums w px (amClear r))) with e | q
    · rfl
    · simp only [Except.map, amDecide_tighter]

theorem amIter_tighter {k : ℝ} (hk : 0 < k) (conf : AMConf) (orig : ℝ × ℝ) (px : List Pixel) (w : AMWt) (r : AMRes)
    (old : Option (ℝ × ℝ × ℝ)) :
    amIter conf orig (px.map (tighter k)) w (amTighter k r) old =
      ((amIter conf orig px w r old).1, amTighter k (amIter conf orig px w r old).2.1, (amIter conf orig px w r old).2.2) := by
  unfold amIter
  split_ifs
  · rfl
  · rcases amSetNorms w with ⟨w', e | _⟩
    · rfl
    · exact amPass_tighter hk conf orig px w' r old

theorem amLoop_tighter {k : ℝ} (hk : 0 < k) (conf : AMConf) (orig : ℝ × ℝ) (px : List Pixel) :
    ∀ (n i : ℕ) (w : AMWt) (r : AMRes) (old : Option (ℝ × ℝ × ℝ)),
    amLoop conf orig (px.map (tighter k)) n i w (amTighter k r) old =
      ((amLoop conf orig px n i w r old).1, amTighter k (amLoop conf orig px n i w r old).2.1,
        (amLoop conf orig px n i w r old).2.2)
  | 0, _, _, _, _ => rfl
  | n + 1, i, w, r, old => by
    unfold amLoop
    rw [amIter_tighter hk]
    rcases amIter conf orig px w r old with ⟨w1, r1, e | _ | ⟨e1, e2, T⟩⟩
    · rfl
    · rfl
    · exact amLoop_tighter hk conf orig px n (i + 1) w1 r1 _

theorem sumsRatio_times {c : ℝ} (hc : 0 < c) (o : AMOut) (i j : Fin 7) :
    sumsRatioError (admomErrorsTimes c o) i j = (sumsRatioError o i j).map fun x => .fin c * x := by
  unfold sumsRatioError
  have := ratioError_times hc (.fin (o.sums i)) (.fin (o.sums j)) (.fin (o.sumsCov i i)) (.fin (o.sumsCov j j))
    (.fin (o.sumsCov i j))
  simp only [Fl.fin_mul] at this
  exact this

theorem covPos_times {c : ℝ} (hc : 0 < c) (x : ℝ) : c ^ 2 * x > 0 ↔ x > 0 :=
  ⟨fun h => (pos_iff_pos_of_mul_pos h).1 (pow_pos hc 2), fun h => mul_pos (pow_pos hc 2) h⟩

theorem amFlux_times {c : ℝ} (hc : 0 < c) (area : ℝ) (n : Fl) (o : AMOut) :
    amFlux area n (admomErrorsTimes c o) = admomErrorsTimes c (amFlux area n o) := by
  unfold amFlux
  have e1 : (admomErrorsTimes c o).flags = o.flags := rfl
  have e2 : (admomErrorsTimes c o).T = o.T := rfl
  have e3 : (admomErrorsTimes c o).sumsCov 5 5 = c ^ 2 * o.sumsCov 5 5 := rfl
  simp only [e1, e2, e3, covPos_times hc]
  split_ifs
  · have hs : (Fl.fin (c ^ 2 * o.sumsCov 5 5)).sqrt = .fin c * (Fl.fin (o.sumsCov 5 5)).sqrt := by
      rw [← Fl.scale_sqrt hc]; rfl
    simp only [hs, Fl.scale_div_left hc, Fl.scale_div_right hc]
    rfl
  · rfl
  · rfl
  · rfl

theorem amT_times {c : ℝ} (hc : 0 < c) (o : AMOut) :
    amT (admomErrorsTimes c o) = (amT o).map (admomErrorsTimes c) := by
  unfold amT
  have e1 : (admomErrorsTimes c o).flags = o.flags := rfl
  have e2 : (admomErrorsTimes c o).sums = o.sums := rfl
  have e3 : ∀ i, (admomErrorsTimes c o).sumsCov i i = c ^ 2 * o.sumsCov i i := fun _ => rfl
  simp only [e1, e2, e3, covPos_times hc, sumsRatio_times hc]
  split_ifs
  · rcases sumsRatioError o 4 5 with e | x
    · rfl
    · simp only [Except.map, Fl.mul_scale hc]
      rfl
  · rfl
  · rfl
  · rfl

theorem amRho4_times {c : ℝ} (hc : 0 < c) (o : AMOut) :
    amRho4 (admomErrorsTimes c o) = (amRho4 o).map (admomErrorsTimes c) := by
  unfold amRho4
  have e1 : (admomErrorsTimes c o).flags = o.flags := rfl
  have e2 : (admomErrorsTimes c o).sums = o.sums := rfl
  have e3 : ∀ i, (admomErrorsTimes c o).sumsCov i i = c ^ 2 * o.sumsCov i i := fun _ => rfl
  simp only [e1, e2, e3, covPos_times hc, sumsRatio_times hc]
  split_ifs
  · rcases sumsRatioError o 6 5 with e | x
    · rfl
    · simp only [Except.map, Fl.mul_scale hc]
      rfl
  · rfl
  · rfl
  · rfl

theorem amVarFlag_times {c : ℝ} (hc : 0 < c) (o : AMOut) :
    amVarFlag (admomErrorsTimes c o) = admomErrorsTimes c (amVarFlag o) := by
  unfold amVarFlag
  have e3 : ∀ i, (admomErrorsTimes c o).sumsCov i i = c ^ 2 * o.sumsCov i i := fun _ => rfl
  simp only [e3, covPos_times hc]
  split_ifs <;> rfl

theorem amShape_times {c : ℝ} (hc : 0 < c) (o : AMOut) :
    amShape (admomErrorsTimes c o) = (amShape o).map (admomErrorsTimes c) := by
  unfold amShape
  have e1 : (admomErrorsTimes c o).flags = o.flags := rfl
  have e2 : (admomErrorsTimes c o).sums = o.sums := rfl
  have e3 : (admomErrorsTimes c o).T = o.T := rfl
  have e4 : (admomErrorsTimes c o).pars = o.pars := rfl
  simp only [e1, e2, e3, e4, sumsRatio_times hc]
  split_ifs
  · rcases sumsRatioError o 2 4 with e | x
    · rfl
    · rcases sumsRatioError o 3 4 with e | y
      · rfl
      · simp only [Except.map, Except.bind, Fl.mul_scale hc]
        unfold amShapeErr
        simp only [Fl.scale_isFinite hc]
        split_ifs <;> rfl
  · rfl
  · rfl
  · rfl

theorem amBase_tighter (k : ℝ) (r : AMRes) : amBase (amTighter k r) = admomErrorsTimes (1 / k) (amBase r) := rfl

theorem amGetResult_tighter {k : ℝ} (hk : 0 < k) (r : AMRes) (area : ℝ) (n : Fl) :
    amGetResult (amTighter k r) area n = (amGetResult r area n).map (admomErrorsTimes (1 / k)) := by
  have hc : 0 < 1 / k := one_div_pos.2 hk
  unfold amGetResult
  rw [amBase_tighter, amFlux_times hc, amT_times hc]
  rcases amT (amFlux area n (amBase r)) with e | o
  · rfl
  · simp only [Except.map, Except.bind]
    rw [amRho4_times hc]
    rcases amRho4 o with e | o
    · rfl
    · simp only [Except.map]
      rw [amVarFlag_times hc, amShape_times hc]
      rfl

/-- C105.  With all weights of the observation `k²` times as large, adaptive moments have errors `1/k` times, covariances
`1/k²` times and signal to noise `k` times as large, and are otherwise the same. -/
theorem C105_admom_errors (conf : AMConf) (px : List Pixel) (area : ℝ) (guess : AMWt) (k : ℝ) (hk : 0 < k) :
    admomGo conf (px.map (tighter k)) area guess =
      ((admomGo conf px area guess).1, (admomGo conf px area guess).2.map (admomErrorsTimes (1 / k))) := by
  have h0 : amTighter k AMRes.zero = AMRes.zero := by simp [amTighter, AMRes.zero]
  unfold admomGo admomNb
  by_cases hm : conf.maxiter ≤ 0
  · rw [if_pos hm, if_pos hm]; rfl
  rw [if_neg hm, if_neg hm]
  have hl := amLoop_tighter hk conf (guess.g.row, guess.g.col) px conf.maxiter.toNat 0 guess AMRes.zero none
  rw [h0] at hl
  rw [hl]
  rcases amLoop conf (guess.g.row, guess.g.col) px conf.maxiter.toNat 0 guess AMRes.zero none with ⟨w, r, e | n⟩
  · cases e
    case gmixRange =>
      have := amGetResult_tighter hk { r with flags := Flags.GMIX_RANGE_ERROR } area (amNorm w.g)
      simp only
      rw [← this]
      rfl
    all_goals rfl
  · have := amGetResult_tighter hk (amFinish conf r n) area (amNorm w.g)
    simp only
    rw [← this]
    congr 2
    unfold amFinish
    have hf : (amTighter k r).flags = r.flags := rfl
    dsimp only
    split_ifs <;> rfl

/-! ### EM -/

theorem emPix_scratch {p p' : Pixel} (h : Reweighted p p') (npsf : ℕ) (sums : List EMSums) (conv : List (Gauss × Fl × Fl)) :
    doScratchSums npsf p' sums conv = doScratchSums npsf p sums conv := by
  obtain ⟨e1, e2, e3, -, -, -⟩ := h
  have hg : scratchGauss p' = scratchGauss p := by
    funext acc gt
    simp only [scratchGauss, emChi2, e1, e2, e3]
  have ha : ∀ (sums : List EMSums) (conv : List (Gauss × Fl × Fl)) (g : ℝ) (l : Fl),
      scratchAll npsf p' sums conv g l = scratchAll npsf p sums conv g l := by
    intro sums
    induction sums with
    | nil => intro conv g l; rfl
    | cons s ss ih => intro conv g l; simp only [scratchAll, hg, ih]
  unfold doScratchSums
  simp only [ha]

theorem emPix_loop (npsf : ℕ) (conv : List (Gauss × Fl × Fl)) (sky : ℝ) :
    ∀ {px px' : List Pixel} (_ : List.Forall₂ Reweighted px px') (st : List EMSums × Fl × ℝ),
    pixelLoop npsf conv sky px' st = pixelLoop npsf conv sky px st
  | _, _, .nil, _ => rfl
  | _, _, @List.Forall₂.cons _ _ _ p p' ps ps' hp hps, st => by
    unfold pixelLoop
    have hd : ∀ g s, doSums p' g s = doSums p g s := by intro g s; unfold doSums; rw [hp.2.2.2.1]
    simp only [emPix_scratch hp, hd, hp.2.2.2.1, emPix_loop npsf conv sky hps]

theorem emPix_fill (conv : List Gauss) (sky : ℝ) : ∀ {px px' : List Pixel} (_ : List.Forall₂ Reweighted px px'),
    List.Forall₂ Reweighted (fillZeroWeight conv sky px) (fillZeroWeight conv sky px')
  | _, _, .nil => .nil
  | _, _, @List.Forall₂.cons _ _ _ p p' ps ps' hp hps => by
    refine .cons ?_ (emPix_fill conv sky hps)
    obtain ⟨e1, e2, e3, e4, e5, e6⟩ := hp
    have hle : p'.ierr ≤ 0 ↔ p.ierr ≤ 0 := by rw [← not_lt, ← not_lt, e6]
    simp only [hle]
    split_ifs
    · exact ⟨e1, e2, e3, by simp only [e1, e2, e3], e5, e6⟩
    · exact ⟨e1, e2, e3, e4, e5, e6⟩

/-- States that differ in the weights of the pixels only. -/
def EMPix (s s' : EMState) : Prop :=
  List.Forall₂ Reweighted s.pixels s'.pixels ∧ s' = { s with pixels := s'.pixels }

theorem emPix_test (kind : EMKind) (conf : EMConf) (n : ℤ) {s s' : EMState} (h : EMPix s s') (cur : Fl) :
    match emTest kind conf n s cur, emTest kind conf n s' cur with
    | .ok (t, b), .ok (t', b') => EMPix t t' ∧ b' = b
    | .error e, .error e' => e = e'
    | _, _ => False := by
  obtain ⟨h1, h2⟩ := h
  have hlast : s'.last = s.last := by rw [h2]
  unfold emTest
  by_cases hm : n ≥ conf.miniter
  · rw [if_pos hm, if_pos hm, hlast]
    rcases emFrac kind cur s.last with e | f
    · rfl
    · simp only [Except.map]
      split_ifs
      · exact ⟨⟨h1, by rw [h2]⟩, rfl⟩
      · exact ⟨⟨h1, by rw [h2]⟩, rfl⟩
  · rw [if_neg hm, if_neg hm]
    exact ⟨⟨h1, by rw [h2]⟩, rfl⟩

theorem emPix_iter (kind : EMKind) (conf : EMConf) (psf : List Gauss) (fill : Bool) (n : ℤ) {s s' : EMState} (h : EMPix s s') :
    match emIter kind conf psf fill n s, emIter kind conf psf fill n s' with
    | .ok (t, b), .ok (t', b') => EMPix t t' ∧ b' = b
    | .error e, .error e' => e = e'
    | _, _ => False := by
  obtain ⟨h1, h2⟩ := h
  have hp : List.Forall₂ Reweighted (if fill then fillZeroWeight s.conv s.sky s.pixels else s.pixels)
      (if fill then fillZeroWeight s'.conv s'.sky s'.pixels else s'.pixels) := by
    have a1 : s'.conv = s.conv := by rw [h2]
    have a2 : s'.sky = s.sky := by rw [h2]
    rw [a1, a2]
    cases fill
    · exact h1
    · exact emPix_fill _ _ h1
  have a1 : s'.conv = s.conv := by rw [h2]
  have a2 : s'.sky = s.sky := by rw [h2]
  have a3 : s'.sums = s.sums := by rw [h2]
  have a4 : s'.gmix = s.gmix := by rw [h2]
  have a5 : s'.last = s.last := by rw [h2]
  have a6 : s'.frac = s.frac := by rw [h2]
  unfold emIter
  simp only
  generalize (if fill then fillZeroWeight s.conv s.sky s.pixels else s.pixels) = q at hp
  generalize (if fill then fillZeroWeight s'.conv s'.sky s'.pixels else s'.pixels) = q' at hp
  rw [a1, a2, a3, a4, a5, a6, emPix_loop psf.length _ _ hp, ← hp.length_eq]
  rcases pixelLoop psf.length (s.conv.zip (logtauLogdet s.conv)) s.sky q (clearSums s.sums, .fin 0, 0) with e | r
  · rfl
  simp only [Except.bind]
  rcases setFromSums kind s.gmix psf r.1 with e | gm
  · rfl
  simp only
  rcases emNewSky conf.varySky q.length r.2.2 s.sky with e | sky
  · rfl
  exact emPix_test kind conf n ⟨hp, rfl⟩ _

theorem emPix_emLoop (kind : EMKind) (conf : EMConf) (psf : List Gauss) (fill : Bool) :
    ∀ (k i : ℕ) {s s' : EMState} (_ : EMPix s s'),
    match emLoop kind conf psf fill k i s, emLoop kind conf psf fill k i s' with
    | .ok (t, n), .ok (t', n') => EMPix t t' ∧ n' = n
    | .error e, .error e' => e = e'
    | _, _ => False
  | 0, _, _, _, h => ⟨h, rfl⟩
  | k + 1, i, s, s', h => by
    unfold emLoop
    have hi := emPix_iter kind conf psf fill ((i : ℤ) + 1) h
    revert hi
    rcases emIter kind conf psf fill ((i : ℤ) + 1) s with e | ⟨t, b⟩ <;>
      rcases emIter kind conf psf fill ((i : ℤ) + 1) s' with e' | ⟨t', b'⟩ <;> intro hi
    · exact hi
    · exact hi.elim
    · exact hi.elim
    · obtain ⟨h1, rfl⟩ := hi
      simp only [Except.bind]
      split_ifs
      · exact ⟨h1, rfl⟩
      · exact emPix_emLoop kind conf psf fill k (i + 1) h1

theorem emPix_map (m : ℤ) (kind : EMKind) (conf : EMConf) (psf : List Gauss) (fill : Bool) (k : ℕ) {s s' : EMState}
    (h : EMPix s s') :
    emFinish m ((emLoop kind conf psf fill k 0 s').map fun r =>
        ⟨r.2, r.1.frac, r.1.sky, r.1.gmix.map fun g => { g with normSet := false }, r.1.conv, r.1.pixels⟩) =
      emFinish m ((emLoop kind conf psf fill k 0 s).map fun r =>
        ⟨r.2, r.1.frac, r.1.sky, r.1.gmix.map fun g => { g with normSet := false }, r.1.conv, r.1.pixels⟩) := by
  have hl := emPix_emLoop kind conf psf fill k 0 h
  revert hl
  rcases emLoop kind conf psf fill k 0 s with e | ⟨t, n⟩ <;> rcases emLoop kind conf psf fill k 0 s' with e' | ⟨t', n'⟩ <;>
    intro hl
  · rw [show e = e' from hl]
  · exact hl.elim
  · exact hl.elim
  · obtain ⟨⟨-, h2⟩, rfl⟩ := hl
    rw [h2]
    simp only [emFinish, Except.map, Except.bind]
    generalize newGMix none (some (getFullPars t.conv)) = y
    generalize newGMix none (some (getFullPars (List.map _ t.gmix))) = x
    rcases x with e | x
    · cases e <;> rfl
    · rcases y with e | y
      · cases e <;> rfl
      · rfl

theorem emPix_finish (m : ℤ) (kind : EMKind) (conf : EMConf) {px px' : List Pixel} (h : List.Forall₂ Reweighted px px')
    (gmix psf conv : List Gauss) (fill : Bool) :
    emFinish m (emRun kind conf px' gmix psf conv fill) = emFinish m (emRun kind conf px gmix psf conv fill) := by
  unfold emRun
  rcases gmixSetNorms conv with ⟨conv', _ | _⟩
  · rfl
  simp only
  split_ifs
  · rfl
  exact emPix_map m kind conf psf fill conf.maxiter.toNat ⟨h, rfl⟩

/-- C105.  EM uses the weights of an observation only to see which pixels are masked: with other weights and the same masked
pixels the result is the same in every respect, with a starting sky or without. -/
theorem C105_em (f : EMFitter) (o o' : EMObs) (guess : GMixObj) (sky : Option ℝ) (h : ReweightedEM o o') :
    emGo f o' guess sky = emGo f o guess sky := by
  obtain ⟨h0, h1, h2, h3⟩ := h
  rcases sky with _ | sky
  · have : emStart o' none = emStart o none := by unfold emStart prepObs; rw [h0, h1, h2]
    unfold emGo
    rw [this]
  · have hp : emPsf o' = emPsf o := by unfold emPsf; rw [h2]
    unfold emGo emStart
    simp only [hp]
    revert h3
    rcases o.pixels with _ | px <;> rcases o'.pixels with _ | px' <;> intro h3
    · rfl
    · exact h3.elim
    · exact h3.elim
    · have hz : anyZeroWeight px' = anyZeroWeight px := by
        unfold anyZeroWeight
        clear hp
        induction h3 with
        | nil => rfl
        | cons a _ ih =>
          rw [List.any_cons, List.any_cons, ih]
          congr 1
          exact decide_eq_decide.2 (by rw [← not_lt, ← not_lt, a.2.2.2.2.2])
      simp only [hz, emPix_finish f.maxiter f.kind _ h3]

/-! ### Model fits -/

variable {k : ℝ}

theorem tight_loglikeLoop (gm : List Gauss) (px : List Pixel) :
    loglikeLoop gm (px.map (tighter k)) =
      ⟨k ^ 2 * (loglikeLoop gm px).loglike, k ^ 2 * (loglikeLoop gm px).numer, k ^ 2 * (loglikeLoop gm px).denom,
        (loglikeLoop gm px).npix⟩ := by
  have H : ∀ (px : List Pixel) (a : LogLike),
      (px.map (tighter k)).foldl (fun (a : LogLike) px =>
        let model := gmixEvalFast gm px.v px.u px.area
        let ivar := px.ierr * px.ierr
        let diff := model - px.val
        ⟨a.loglike + diff * diff * ivar, a.numer + px.val * model * ivar, a.denom + model * model * ivar, a.npix + 1⟩)
        ⟨k ^ 2 * a.loglike, k ^ 2 * a.numer, k ^ 2 * a.denom, a.npix⟩ =
      (fun b : LogLike => (⟨k ^ 2 * b.loglike, k ^ 2 * b.numer, k ^ 2 * b.denom, b.npix⟩ : LogLike))
        (px.foldl (fun (a : LogLike) px =>
        let model := gmixEvalFast gm px.v px.u px.area
        let ivar := px.ierr * px.ierr
        let diff := model - px.val
        ⟨a.loglike + diff * diff * ivar, a.numer + px.val * model * ivar, a.denom + model * model * ivar, a.npix + 1⟩) a) := by
    intro px
    induction px with
    | nil => intro a; rfl
    | cons p ps ih =>
      intro a
      rw [List.map_cons, List.foldl_cons, List.foldl_cons, ← ih]
      congr 1
      simp only [tighter, LogLike.mk.injEq, and_true]
      refine ⟨?_, ?_, ?_⟩ <;> ring
  have := H px ⟨0, 0, 0, 0⟩
  simp only [mul_zero] at this
  exact this

theorem tight_getLoglike (gm : List Gauss) (px : List Pixel) :
    getLoglike gm (px.map (tighter k)) = ((getLoglike gm px).1, (getLoglike gm px).2.map fun b =>
      ⟨k ^ 2 * b.loglike, k ^ 2 * b.numer, k ^ 2 * b.denom, b.npix⟩) := by
  unfold getLoglike
  rcases setNormsIfNeeded gm with ⟨gm', _ | _⟩
  · rfl
  · simp only [tight_loglikeLoop, Except.map, Prod.mk.injEq, Except.ok.injEq, LogLike.mk.injEq, true_and, and_true]
    ring

theorem tight_fdiffLoop (gm : List Gauss) (px : List Pixel) (start : ℕ) (l : List Fl) :
    fdiffLoopFl gm (px.map (tighter k)) start (l.map fun x => .fin k * x) =
      (fdiffLoopFl gm px start l).map fun x => .fin k * x := by
  unfold fdiffLoopFl
  have H : ∀ (px : List Pixel) (st : ℕ × List Fl),
      (px.map (tighter k)).foldl (fun (st : ℕ × List Fl) px =>
        let model := gmixEvalFast gm px.v px.u px.area
        (st.1 + 1, st.2.set (start + st.1) (.fin ((model - px.val) * px.ierr)))) (st.1, st.2.map fun x => .fin k * x) =
      (fun q : ℕ × List Fl => (q.1, q.2.map fun x => .fin k * x)) (px.foldl (fun (st : ℕ × List Fl) px =>
        let model := gmixEvalFast gm px.v px.u px.area
        (st.1 + 1, st.2.set (start + st.1) (.fin ((model - px.val) * px.ierr)))) st) := by
    intro px
    induction px with
    | nil => intro st; rfl
    | cons p ps ih =>
      intro st
      rw [List.map_cons, List.foldl_cons, List.foldl_cons, ← ih]
      congr 1
      simp only [tighter, Prod.mk.injEq, true_and, List.map_set, Fl.fin_mul]
      congr 2
      ring
  exact congrArg Prod.snd (H px (0, l))

theorem tight_fillFdiff (gm : List Gauss) (px : List Pixel) (start : ℕ) (l : List Fl) :
    fillFdiffFl gm (px.map (tighter k)) start (l.map fun x => .fin k * x) =
      ((fillFdiffFl gm px start l).1, (fillFdiffFl gm px start l).2.map (List.map fun x => .fin k * x)) := by
  unfold fillFdiffFl
  rcases setNormsIfNeeded gm with ⟨gm', _ | _⟩
  · rfl
  · simp only [tight_fdiffLoop, Except.map]

/-- One image with all weights `k²` times as large. -/
noncomputable def tighterImg (k : ℝ) (i : Img) : Img := { i with pixels := i.pixels.map (tighter k) }

theorem tight_fillBand (dopsf : Bool) (bp : List ℝ) : ∀ (is : List Img) (gs : List (GMixObj × GMixObj)),
    fillBand dopsf bp (is.map (tighterImg k)) gs = fillBand dopsf bp is gs
  | [], _ => rfl
  | _ :: _, [] => rfl
  | i :: is, g :: gs => by
    rw [List.map_cons]
    unfold fillBand
    rw [tight_fillBand dopsf bp is gs]
    rfl

theorem tight_fillAll (kind : FMKind) (dopsf : Bool) (pars : List ℝ) : ∀ (b : ℕ) (obs : List (List Img)) (st : FMState),
    fillAll kind dopsf pars b (tighterObs k obs) st = fillAll kind dopsf pars b obs st
  | _, [], _ => rfl
  | _, _ :: _, [] => rfl
  | b, is :: obs, gs :: st => by
    show fillAll kind dopsf pars b (is.map (tighterImg k) :: tighterObs k obs) (gs :: st) = _
    unfold fillAll
    simp only [tight_fillBand, tight_fillAll kind dopsf pars (b + 1) obs]

theorem tight_fdiffBand : ∀ (is : List Img) (gs : List (GMixObj × GMixObj)) (l : List Fl) (start : ℕ),
    fdiffBand (is.map (tighterImg k)) gs (l.map fun x => .fin k * x) start =
      ((fdiffBand is gs l start).1, (fdiffBand is gs l start).2.map fun x => (x.1.map fun x => .fin k * x, x.2))
  | [], _, _, _ => rfl
  | _ :: _, [], _, _ => rfl
  | i :: is, g :: gs, l, start => by
    rw [List.map_cons]
    unfold fdiffBand
    have h1 : (tighterImg k i).pixels = i.pixels.map (tighter k) := rfl
    rw [h1, tight_fillFdiff, List.length_map]
    rcases fillFdiffFl g.2.data i.pixels start l with ⟨d, e | l'⟩
    · rfl
    · simp only [Except.map, tight_fdiffBand is gs l' (start + i.pixels.length)]

theorem tight_fdiffAll : ∀ (obs : List (List Img)) (st : FMState) (l : List Fl) (start : ℕ),
    fdiffAll (tighterObs k obs) st (l.map fun x => .fin k * x) start =
      ((fdiffAll obs st l start).1, (fdiffAll obs st l start).2.map fun x => (x.1.map fun x => .fin k * x, x.2))
  | [], _, _, _ => rfl
  | _ :: _, [], _, _ => rfl
  | is :: obs, gs :: st, l, start => by
    show fdiffAll (is.map (tighterImg k) :: tighterObs k obs) (gs :: st) _ _ = _
    unfold fdiffAll
    rw [tight_fdiffBand]
    rcases fdiffBand is gs l start with ⟨gs', e | ⟨l', start'⟩⟩
    · rfl
    · simp only [Except.map, tight_fdiffAll obs st l' start']

theorem tight_loglikeBand : ∀ (is : List Img) (gs : List (GMixObj × GMixObj)) (a : LogLike),
    loglikeBand (is.map (tighterImg k)) gs ⟨k ^ 2 * a.loglike, k ^ 2 * a.numer, k ^ 2 * a.denom, a.npix⟩ =
      ((loglikeBand is gs a).1, (loglikeBand is gs a).2.map fun b =>
        ⟨k ^ 2 * b.loglike, k ^ 2 * b.numer, k ^ 2 * b.denom, b.npix⟩)
  | [], _, _ => rfl
  | _ :: _, [], _ => rfl
  | i :: is, g :: gs, a => by
    rw [List.map_cons]
    unfold loglikeBand
    have h1 : (tighterImg k i).pixels = i.pixels.map (tighter k) := rfl
    rw [h1, tight_getLoglike]
    rcases getLoglike g.2.data i.pixels with ⟨d, e | r⟩
    · rfl
    · simp only [Except.map, ← mul_add]
      rw [tight_loglikeBand is gs ⟨a.loglike + r.loglike, a.numer + r.numer, a.denom + r.denom, a.npix + r.npix⟩]
      rfl

theorem tight_loglikeAll : ∀ (obs : List (List Img)) (st : FMState) (a : LogLike),
    loglikeAll (tighterObs k obs) st ⟨k ^ 2 * a.loglike, k ^ 2 * a.numer, k ^ 2 * a.denom, a.npix⟩ =
      ((loglikeAll obs st a).1, (loglikeAll obs st a).2.map fun b =>
        ⟨k ^ 2 * b.loglike, k ^ 2 * b.numer, k ^ 2 * b.denom, b.npix⟩)
  | [], _, _ => rfl
  | _ :: _, [], _ => rfl
  | is :: obs, gs :: st, a => by
    show loglikeAll (is.map (tighterImg k) :: tighterObs k obs) (gs :: st) _ = _
    unfold loglikeAll
    rw [tight_loglikeBand]
    rcases loglikeBand is gs a with ⟨gs', e | a'⟩
    · rfl
    · simp only [Except.map, tight_loglikeAll obs st a']

theorem tight_totpix : ∀ (obs : List (List Img)), (((tighterObs k obs).flatten).map fun i => i.pixels.length).sum =
    ((obs.flatten).map fun i => i.pixels.length).sum
  | [] => rfl
  | is :: obs => by
    show (((is.map (tighterImg k) :: tighterObs k obs).flatten).map fun i => i.pixels.length).sum = _
    rw [List.flatten_cons, List.flatten_cons, List.map_append, List.map_append, List.sum_append, List.sum_append,
      tight_totpix obs, List.map_map]
    congr 2
    refine List.map_congr_left fun i _ => ?_
    simp [tighterImg]

theorem tight_size (kind : FMKind) (obs : List (List Img)) (dopsf : Bool) :
    FitModel.fdiffSize ⟨kind, none, tighterObs k obs, dopsf⟩ = FitModel.fdiffSize ⟨kind, none, obs, dopsf⟩ := by
  unfold FitModel.fdiffSize FitModel.totpix
  have hl : (tighterObs k obs).length = obs.length := by simp [tighterObs]
  simp only [tight_totpix, hl]

/-- C105.  A model fit without prior, with all weights `k²` times as large: at any parameters and after any history the
residuals are `k` times as large, infinite where they were, the log likelihood and the sums of the signal to noise are `k²`
times as large, and the same exceptions are raised. -/
theorem C105_fit (hk : 0 < k) (kind : FMKind) (obs : List (List Img)) (dopsf : Bool) (st : FMState) (pars : List ℝ) :
    calcFdiff ⟨kind, none, tighterObs k obs, dopsf⟩ st pars =
      ((calcFdiff ⟨kind, none, obs, dopsf⟩ st pars).1,
        (calcFdiff ⟨kind, none, obs, dopsf⟩ st pars).2.map (List.map fun x => .fin k * x)) ∧
    (calcLnprob ⟨kind, none, tighterObs k obs, dopsf⟩ st pars).1 = (calcLnprob ⟨kind, none, obs, dopsf⟩ st pars).1 ∧
    TighterLnprob k (calcLnprob ⟨kind, none, obs, dopsf⟩ st pars).2
      (calcLnprob ⟨kind, none, tighterObs k obs, dopsf⟩ st pars).2 := by
  constructor
  · unfold calcFdiff calcFdiffTry
    simp only [tight_size, tight_fillAll, fillPriors]
    rcases fillAll kind dopsf pars 0 obs st with ⟨st1, e | _⟩
    · cases e
      case gmixRange => simp only [Except.map, List.map_replicate, Fl.scale_ninf hk]
      all_goals rfl
    · simp only
      have h := tight_fdiffAll (k := k) obs st1
        (List.replicate (FitModel.fdiffSize ⟨kind, none, obs, dopsf⟩) (.fin 0)) 0
      rw [List.map_replicate, Fl.fin_mul, mul_zero] at h
      rw [h]
      rcases fdiffAll obs st1 (List.replicate (FitModel.fdiffSize ⟨kind, none, obs, dopsf⟩) (.fin 0)) 0 with ⟨st2, e | ⟨l, s⟩⟩
      · cases e
        case gmixRange => simp only [Except.map, List.map_replicate, Fl.scale_ninf hk]
        all_goals rfl
      · rfl
  · have hk2 : 0 < k ^ 2 := pow_pos hk 2
    have hout : TighterLnprob k (.ok ⟨.ninf, 0, 9999.0e47, 0⟩) (.ok ⟨.ninf, 0, 9999.0e47, 0⟩) :=
      ⟨(Fl.scale_ninf hk2).symm, (mul_zero _).symm, rfl, Or.inr ⟨rfl, rfl, rfl⟩⟩
    unfold calcLnprob calcLnprobTry
    simp only [tight_fillAll, getPriors]
    rcases fillAll kind dopsf pars 0 obs st with ⟨st1, e | _⟩
    · cases e
      case gmixRange => exact ⟨rfl, hout⟩
      all_goals exact ⟨rfl, rfl⟩
    · simp only
      have h := tight_loglikeAll (k := k) obs st1 ⟨0, 0, 0, 0⟩
      simp only [mul_zero] at h
      rw [h]
      rcases loglikeAll obs st1 ⟨0, 0, 0, 0⟩ with ⟨st2, e | a⟩
      · cases e
        case gmixRange => exact ⟨rfl, hout⟩
        all_goals exact ⟨rfl, rfl⟩
      · refine ⟨rfl, ?_, rfl, rfl, Or.inl rfl⟩
        simp only [Fl.fin_add, Fl.fin_mul, add_zero]

/-- C105.  The set up of a fit does not depend on the weights at all. -/
theorem C105_setup (kind : FMKind) (prior : Option JointPrior) (obs : List (List Img)) (guess : List ℝ) :
    newFitModel kind prior (tighterObs k obs) guess =
      (newFitModel kind prior obs guess).map fun x => ({ x.1 with obs := tighterObs k obs }, x.2) := by
  have hl : (tighterObs k obs).length = obs.length := by simp [tighterObs]
  have hb : ∀ (dopsf : Bool) (bp : List ℝ) (is : List Img),
      initBand kind dopsf bp (is.map (tighterImg k)) = initBand kind dopsf bp is := by
    intro dopsf bp is
    induction is with
    | nil => rfl
    | cons i is ih =>
      rw [List.map_cons]
      unfold initBand
      rw [ih]
      rfl
  have ha : ∀ (dopsf : Bool) (pars : List ℝ) (obs : List (List Img)) (b : ℕ),
      initAll kind dopsf pars b (tighterObs k obs) = initAll kind dopsf pars b obs := by
    intro dopsf pars obs
    induction obs with
    | nil => intro b; rfl
    | cons is obs ih =>
      intro b
      show initAll kind dopsf pars b (is.map (tighterImg k) :: tighterObs k obs) = _
      unfold initAll
      simp only [hb, ih]
  unfold newFitModel
  rw [hl]
  rcases kind.npars obs.length with _ | npars
  · rfl
  rcases kind.nPriorPars prior obs.length with _ | _
  · rfl
  simp only [Except.bind]
  by_cases hg : guess.length ≠ npars
  · rw [if_pos hg, if_pos hg]; rfl
  rw [if_neg hg, if_neg hg]
  rcases obs with _ | ⟨_ | ⟨i, is⟩, obs⟩
  · rfl
  · rfl
  · have := ha i.hasPsfGmix guess ((i :: is) :: obs) 0
    show (match initAll kind i.hasPsfGmix guess 0 (tighterObs k ((i :: is) :: obs)) with
      | .ok st => _
      | .error .zeroDiv => _
      | .error e => _) = _
    rw [this]
    dsimp only
    rcases initAll kind i.hasPsfGmix guess 0 ((i :: is) :: obs) with e | st
    · cases e <;> rfl
    · rfl

/-! ### Examples -/

/-- Two pixels. -/
noncomputable def exWPix : List Pixel := [⟨0, 0, 1, 2, 1⟩, ⟨1, 0, 1, 1, 1 / 2⟩]

/-- Other weights. -/
noncomputable def exWPix' : List Pixel := [⟨0, 0, 1, 2, 3⟩, ⟨1, 0, 1, 1, 7⟩]

example : List.Forall₂ Reweighted exWPix exWPix' := by
  unfold exWPix exWPix'
  refine .cons ?_ (.cons ?_ .nil) <;> exact ⟨rfl, rfl, rfl, rfl, by norm_num, by norm_num⟩

/-- All weights four times as large are other weights with the same masked pixels. -/
example (px : List Pixel) (k : ℝ) (hk : 0 < k) : List.Forall₂ Reweighted px (px.map (tighter k)) := by
  rw [List.forall₂_map_right_iff, List.forall₂_same]
  exact fun p _ => ⟨rfl, rfl, rfl, rfl, by simp [tighter, hk.ne'], by simp [tighter, hk]⟩

end Ngmix.Props
