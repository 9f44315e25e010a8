import Verif.Model.Priors
import Mathlib.Tactic.Linarith

/-!
# Rejection samplers (C45)
-/

namespace Ngmix.Props

open Ngmix

variable {α : Type}

/-- Spec: the draws made by the first `m` passes, in order, when pass `k` asks for `sizes k` values. -/
def drawn (draws : ℕ → ℕ → List α) (sizes : ℕ → ℕ) (m : ℕ) : List α :=
  (List.range m).flatMap fun k : ℕ => draws k (sizes k)

/-- Invariant of the loop. -/
def RejInv (accept : α → Bool) (zero : α) (n : ℕ) (draws : ℕ → ℕ → List α) (sizes : ℕ → ℕ) (k : ℕ)
    (s : RejState α) : Prop :=
  s.ngood + s.nleft = n ∧
  s.vals = (drawn draws sizes k).filter accept ++ List.replicate s.nleft zero ∧
  s.ngood = ((drawn draws sizes k).filter accept).length

theorem rejInv_init (accept : α → Bool) (zero : α) (n : ℕ) (draws : ℕ → ℕ → List α) (sizes : ℕ → ℕ) :
    RejInv accept zero n draws sizes 0 (rejInit zero n) := by
  simp [RejInv, rejInit, drawn]

theorem drawn_succ (draws : ℕ → ℕ → List α) (sizes : ℕ → ℕ) (k : ℕ) :
    drawn draws sizes (k + 1) = drawn draws sizes k ++ draws k (sizes k) := by
  simp [drawn, List.range_succ, List.flatMap_append]

theorem rejStep_inv (accept : α → Bool) (zero : α) (n : ℕ) (draws : ℕ → ℕ → List α) (sizes : ℕ → ℕ)
    (hd : ∀ k m, (draws k m).length = m) (k : ℕ) (s : RejState α)
    (h : RejInv accept zero n draws sizes k s) (hsz : sizes k = s.nleft) :
    RejInv accept zero n draws sizes (k + 1) (rejStep accept s (draws k s.nleft)) := by
  obtain ⟨h1, h2, h3⟩ := h
  have hw : ((draws k s.nleft).filter accept).length ≤ s.nleft :=
    le_trans (List.length_filter_le _ _) (by rw [hd])
  unfold rejStep
  simp only
  split_ifs with hpos
  · refine ⟨by simp only; omega, ?_, ?_⟩
    · rw [drawn_succ, List.filter_append, hsz]
      simp only [sliceSet]
      rw [h2, h3, List.take_left' rfl, List.append_assoc, List.append_assoc,
        List.drop_append]
      congr 1
      rw [show ((drawn draws sizes k).filter accept).drop (((drawn draws sizes k).filter accept).length +
          ((draws k s.nleft).filter accept).length) = [] by
        apply List.drop_eq_nil_of_le; omega]
      simp
    · rw [drawn_succ, List.filter_append, hsz, List.length_append, ← h3]
  · have h0 : (draws k s.nleft).filter accept = [] := List.length_eq_zero_iff.mp (by omega)
    refine ⟨h1, ?_, ?_⟩
    · rw [drawn_succ, List.filter_append, hsz, h0, List.append_nil, h2]
    · rw [drawn_succ, List.filter_append, hsz, h0, List.append_nil, h3]

theorem drawn_congr (draws : ℕ → ℕ → List α) (s1 s2 : ℕ → ℕ) (k : ℕ) (h : ∀ i < k, s1 i = s2 i) :
    drawn draws s1 k = drawn draws s2 k := by
  unfold drawn
  apply List.flatMap_congr
  intro i hi
  rw [h i (List.mem_range.mp hi)]

theorem rejLoop_spec (accept : α → Bool) (zero : α) (n : ℕ) (draws : ℕ → ℕ → List α)
    (hd : ∀ k m, (draws k m).length = m) (fuel : ℕ) :
    ∀ (k : ℕ) (s : RejState α) (sizes : ℕ → ℕ),
      RejInv accept zero n draws sizes k s →
      (∀ j < k, sizes j + ((drawn draws sizes j).filter accept).length = n) →
      ∃ (m : ℕ) (sizes' : ℕ → ℕ), m ≤ k + fuel ∧ k ≤ m ∧
        (∀ j < m, sizes' j + ((drawn draws sizes' j).filter accept).length = n ∧ (k ≤ j → 0 < sizes' j)) ∧
        (rejLoop accept n draws fuel k s = some ((drawn draws sizes' m).filter accept) ∧
            ((drawn draws sizes' m).filter accept).length = n ∨
         rejLoop accept n draws fuel k s = none ∧ m = k + fuel ∧
            ((drawn draws sizes' m).filter accept).length < n) := by
  induction fuel with
  | zero =>
    intro k s sizes h hs
    refine ⟨k, sizes, by omega, le_refl _, fun j hj => ⟨hs j hj, fun h => by omega⟩, ?_⟩
    obtain ⟨h1, h2, h3⟩ := h
    simp only [rejLoop]
    split_ifs with hlt
    · right; exact ⟨rfl, by omega, by omega⟩
    · left
      have hn : s.nleft = 0 := by omega
      rw [h2, hn]
      simp only [List.replicate_zero, List.append_nil]
      exact ⟨trivial, by omega⟩
  | succ fuel ih =>
    intro k s sizes h hs
    simp only [rejLoop]
    split_ifs with hlt
    · set sizes2 : ℕ → ℕ := fun i => if i = k then s.nleft else sizes i with hs2
      have hag : ∀ j ≤ k, ∀ i < j, sizes i = sizes2 i := by
        intro j hj i hi
        simp only [hs2]; rw [if_neg (by omega)]
      have hinv : RejInv accept zero n draws sizes2 k s := by
        obtain ⟨h1, h2, h3⟩ := h
        refine ⟨h1, ?_, ?_⟩
        · rw [← drawn_congr draws sizes sizes2 k (hag k le_rfl)]; exact h2
        · rw [← drawn_congr draws sizes sizes2 k (hag k le_rfl)]; exact h3
      have hk : sizes2 k = s.nleft := by simp [hs2]
      have hstep := rejStep_inv accept zero n draws sizes2 hd k s hinv hk
      obtain ⟨m, sizes', hm1, hm2, hsz, hres⟩ := ih (k + 1) _ sizes2 hstep (by
        intro j hj
        rcases Nat.lt_succ_iff_lt_or_eq.mp hj with hj | rfl
        · rw [← drawn_congr draws sizes sizes2 j (hag j hj.le), ← hag k le_rfl j hj]
          exact hs j hj
        · obtain ⟨h1, -, h3⟩ := hinv
          rw [hk, ← h3]; omega)
      -- positivity of the size asked for in this pass
      have hposk : 0 < sizes' k := by
        by_contra hc
        obtain ⟨e, -⟩ := hsz k (by omega)
        -- the sizes below agree by strong induction
        have hrec : ∀ i ≤ k, sizes' i = sizes2 i := by
          intro i
          induction i using Nat.strong_induction_on with
          | _ i ihh =>
            intro hi
            have e1 := (hsz i (by omega)).1
            have hcong := drawn_congr draws sizes' sizes2 i (fun j hj => ihh j hj (by omega))
            rw [hcong] at e1
            have e2 : sizes2 i + ((drawn draws sizes2 i).filter accept).length = n := by
              rcases hi.lt_or_eq with hi | rfl
              · rw [← drawn_congr draws sizes sizes2 i (hag i hi.le), ← hag k le_rfl i hi]
                exact hs i hi
              · obtain ⟨h1, -, h3⟩ := hinv
                rw [hk, ← h3]; omega
            omega
        have := hrec k le_rfl
        rw [hk] at this
        have h1 := hinv.1
        omega
      refine ⟨m, sizes', by omega, by omega, ?_, ?_⟩
      · intro j hj
        refine ⟨(hsz j hj).1, fun hkj => ?_⟩
        rcases hkj.lt_or_eq with h | rfl
        · exact (hsz j hj).2 h
        · exact hposk
      · rcases hres with h | ⟨h1, h2, h3⟩
        · left; exact h
        · right; exact ⟨h1, by omega, h3⟩
    · refine ⟨k, sizes, by omega, le_refl _, fun j hj => ⟨hs j hj, fun h => by omega⟩, ?_⟩
      obtain ⟨h1, h2, h3⟩ := h
      left
      have hn : s.nleft = 0 := by omega
      rw [h2, hn]
      simp only [List.replicate_zero, List.append_nil]
      exact ⟨trivial, by omega⟩

/-- C45: for every random stream, when the loop ends it returns exactly `n` values, which are the accepted
draws of the passes it made, in the order drawn and with none left out; every pass asks for exactly the
number still missing. -/
theorem C45_rejection (accept : α → Bool) (zero : α) (n : ℕ) (draws : ℕ → ℕ → List α)
    (hd : ∀ k m, (draws k m).length = m) (fuel : ℕ) (l : List α)
    (h : rejLoop accept n draws fuel 0 (rejInit zero n) = some l) :
    l.length = n ∧ (∀ x ∈ l, accept x = true) ∧
    ∃ (m : ℕ) (sizes : ℕ → ℕ), m ≤ fuel ∧ l = (drawn draws sizes m).filter accept ∧
      (∀ j < m, 0 < sizes j ∧ sizes j + ((drawn draws sizes j).filter accept).length = n) := by
  obtain ⟨m, sizes, hm, -, hsz, hres⟩ := rejLoop_spec accept zero n draws hd fuel 0 (rejInit zero n)
    (fun _ => 0) (rejInv_init accept zero n draws _) (by simp)
  rcases hres with ⟨h1, h2⟩ | ⟨h1, -, -⟩
  · rw [h] at h1; injection h1 with h1; subst h1
    refine ⟨h2, fun x hx => (List.mem_filter.mp hx).2, m, sizes, by omega, rfl, ?_⟩
    intro j hj
    exact ⟨(hsz j hj).2 (by omega), (hsz j hj).1⟩
  · rw [h] at h1; exact absurd h1 (by simp)

/-- C45: the loop fails to end within `fuel` passes only when those passes accepted fewer than `n` values;
so it ends as soon as enough draws are accepted. -/
theorem C45_not_ended (accept : α → Bool) (zero : α) (n : ℕ) (draws : ℕ → ℕ → List α)
    (hd : ∀ k m, (draws k m).length = m) (fuel : ℕ)
    (h : rejLoop accept n draws fuel 0 (rejInit zero n) = none) :
    ∃ sizes : ℕ → ℕ, (∀ j < fuel, 0 < sizes j) ∧ ((drawn draws sizes fuel).filter accept).length < n := by
  obtain ⟨m, sizes, hm, -, hsz, hres⟩ := rejLoop_spec accept zero n draws hd fuel 0 (rejInit zero n)
    (fun _ => 0) (rejInv_init accept zero n draws _) (by simp)
  rcases hres with ⟨h1, -⟩ | ⟨-, h2, h3⟩
  · rw [h] at h1; exact absurd h1 (by simp)
  · obtain rfl : m = fuel := by omega
    exact ⟨sizes, fun j hj => (hsz j hj).2 (by omega), h3⟩

/-- C45: when every pass accepts at least one value the loop ends within `n` passes. -/
theorem C45_ends (accept : α → Bool) (zero : α) (n : ℕ) (draws : ℕ → ℕ → List α)
    (hd : ∀ k m, (draws k m).length = m)
    (hacc : ∀ k m, 0 < m → ∃ x ∈ draws k m, accept x = true) :
    ∃ l, rejLoop accept n draws n 0 (rejInit zero n) = some l := by
  rcases hl : rejLoop accept n draws n 0 (rejInit zero n) with _ | l
  · obtain ⟨sizes, hpos, hlt⟩ := C45_not_ended accept zero n draws hd n hl
    exfalso
    have : ∀ j ≤ n, j ≤ ((drawn draws sizes j).filter accept).length := by
      intro j
      induction j with
      | zero => simp
      | succ j ih =>
        intro hj
        rw [drawn_succ, List.filter_append, List.length_append]
        obtain ⟨x, hx, hax⟩ := hacc j (sizes j) (hpos j (by omega))
        have : 0 < ((draws j (sizes j)).filter accept).length :=
          List.length_pos_of_mem (List.mem_filter.mpr ⟨hx, hax⟩)
        have := ih (by omega)
        omega
    have := this n le_rfl
    omega
  · exact ⟨l, rfl⟩

/-- C45, `Bounded1D` and `TruncatedGaussian`: all `n` returned values lie strictly between the bounds. -/
theorem C45_interval (lo hi : ℝ) (n : ℕ) (draws : ℕ → ℕ → List ℝ) (hd : ∀ k m, (draws k m).length = m)
    (fuel : ℕ) (l : List ℝ)
    (h : open Classical in
      rejLoop (fun x : ℝ => decide (x > lo ∧ x < hi)) n draws fuel 0 (rejInit 0 n) = some l) :
    l.length = n ∧ ∀ x ∈ l, lo < x ∧ x < hi := by
  classical
  obtain ⟨h1, h2, -⟩ := C45_rejection _ _ n draws hd fuel l h
  refine ⟨h1, fun x hx => ?_⟩
  have := h2 x hx
  simpa using this

/-- C45, polar draws: the modulus of the shape is the drawn `|g|`, so a modulus below one gives a valid
shape. -/
theorem C45_polar (g u : ℝ) (hg : 0 ≤ g) (hg1 : g < 1) :
    (polarDraw g u).1 ^ 2 + (polarDraw g u).2 ^ 2 = g ^ 2 ∧
    (polarDraw g u).1 ^ 2 + (polarDraw g u).2 ^ 2 < 1 := by
  have h : (polarDraw g u).1 ^ 2 + (polarDraw g u).2 ^ 2 = g ^ 2 := by
    simp only [polarDraw]
    have := Real.cos_sq_add_sin_sq (2 * (u * 2 * Real.pi))
    calc _ = g ^ 2 * (Real.cos (2 * (u * 2 * Real.pi)) ^ 2 + Real.sin (2 * (u * 2 * Real.pi)) ^ 2) := by ring
      _ = g ^ 2 := by rw [this, mul_one]
  refine ⟨h, ?_⟩
  rw [h]; nlinarith

/-- C45, shape priors: for every stream of uniforms, whatever the shape of the 1-d probability, `sample2d`
returns exactly `n` valid shapes, of modulus at most `1 - 1e-4`. -/
theorem C45_shapes (prob1d : ℝ → ℝ) (maxval1d : ℝ) (n : ℕ) (draws : ℕ → ℕ → List (ℝ × ℝ))
    (hd : ∀ k m, (draws k m).length = m) (hu : ∀ k m, ∀ d ∈ draws k m, 0 ≤ d.1 ∧ d.1 < 1) (us : List ℝ)
    (hus : us.length = n) (fuel : ℕ) (l : List (ℝ × ℝ))
    (h : sample2d prob1d maxval1d n draws us fuel = some l) :
    l.length = n ∧ ∀ g ∈ l, g.1 ^ 2 + g.2 ^ 2 < (1 - 1.0e-4) ^ 2 := by
  classical
  unfold sample2d sample1d at h
  rw [Option.map_map, Option.map_eq_some_iff] at h
  obtain ⟨l0, h0, rfl⟩ := h
  obtain ⟨hl, -, m, sizes, -, e, -⟩ := C45_rejection _ _ n draws hd fuel l0 h0
  refine ⟨by simp [hl, hus], ?_⟩
  intro g hg
  simp only [Function.comp] at hg
  rw [← List.map_uncurry_zip_eq_zipWith, List.mem_map] at hg
  obtain ⟨⟨x, u⟩, hxu, rfl⟩ := hg
  obtain ⟨hx, -⟩ := List.of_mem_zip hxu
  rw [List.mem_map] at hx
  obtain ⟨d, hdm, rfl⟩ := hx
  rw [e] at hdm
  have hdm := (List.mem_filter.mp hdm).1
  simp only [drawn, List.mem_flatMap] at hdm
  obtain ⟨k, -, hk⟩ := hdm
  obtain ⟨h1, h2⟩ := hu _ _ d hk
  have := (C45_polar ((1 - 1.0e-4) * d.1) u (by norm_num; linarith) (by norm_num; linarith)).1
  simp only [Function.uncurry]
  rw [this]
  norm_num
  nlinarith

/-- C45, `ZDisk2D`: for uniforms in `[0, 1)` the point lies strictly inside the disk, where the prior is
defined. -/
theorem C45_disk (radius u1 u2 : ℝ) (hr : radius ≠ 0) (h0 : 0 ≤ u1) (h1 : u1 < 1) :
    (diskDraw radius u1 u2).1 ^ 2 + (diskDraw radius u1 u2).2 ^ 2 < radius ^ 2 ∧
    (PriorG.disk radius).lnprob (diskDraw radius u1 u2).1 (diskDraw radius u1 u2).2 = .ok (.fin 0) := by
  have hr2 : 0 < radius ^ 2 := by positivity
  have h : (diskDraw radius u1 u2).1 ^ 2 + (diskDraw radius u1 u2).2 ^ 2 = radius ^ 2 * u1 := by
    simp only [diskDraw]
    have := Real.cos_sq_add_sin_sq (2 * Real.pi * u2)
    calc _ = Real.sqrt (radius ^ 2 * u1) ^ 2 *
          (Real.cos (2 * Real.pi * u2) ^ 2 + Real.sin (2 * Real.pi * u2) ^ 2) := by ring
      _ = radius ^ 2 * u1 := by rw [this, mul_one, Real.sq_sqrt (by positivity)]
  have hlt : (diskDraw radius u1 u2).1 ^ 2 + (diskDraw radius u1 u2).2 ^ 2 < radius ^ 2 := by
    rw [h]; nlinarith
  refine ⟨hlt, ?_⟩
  simp only [PriorG.lnprob]
  rw [if_neg (not_le.mpr hlt)]

/-- C45, `FlatPrior`: for a uniform in `[0, 1)` the value lies in the interval, where the prior is defined. -/
theorem C45_flat (lo hi u : ℝ) (h : lo ≤ hi) (h0 : 0 ≤ u) (h1 : u < 1) :
    lo ≤ flatDraw lo hi u ∧ flatDraw lo hi u ≤ hi ∧
    (Prior1.flat lo hi).lnprob (flatDraw lo hi u) = .ok (.fin 0) := by
  have a : lo ≤ flatDraw lo hi u := by unfold flatDraw; nlinarith
  have b : flatDraw lo hi u ≤ hi := by unfold flatDraw; nlinarith
  refine ⟨a, b, ?_⟩
  simp only [Prior1.lnprob]
  rw [if_neg (by push Not; exact ⟨a, b⟩)]

/-- C45, `LogNormal`: every sample is strictly above the shift, where the prior is defined. -/
theorem C45_lognormal (mean sigma z : ℝ) (shift : Option ℝ) :
    shift.getD 0 < lognormalDraw mean sigma shift z ∧
    (Prior1.lognormal mean sigma shift).lnprob (lognormalDraw mean sigma shift z) ≠ .error .gmixRange := by
  have h : shift.getD 0 < lognormalDraw mean sigma shift z := by
    cases shift <;> simp [lognormalDraw, Real.exp_pos]
  refine ⟨h, ?_⟩
  cases shift with
  | none =>
    simp only [Prior1.lnprob, Prior1.lognormalLnprob]
    rw [if_neg (not_le.mpr (by simpa using h))]
    simp
  | some s =>
    simp only [Prior1.lnprob, Prior1.lognormalLnprob]
    rw [if_neg (not_le.mpr (by have : s < _ := h; linarith))]
    simp

/-- A run of three passes meeting the hypotheses: even numbers are accepted out of batches `k, k+1, ...`. -/
example : rejLoop (fun x : ℕ => x % 2 == 0) 3 (fun k m => (List.range m).map fun i : ℕ => i + k) 4 0
    (rejInit 0 3) = some [0, 2, 2] := by decide

end Ngmix.Props
