import Verif.Model.PriorFit
import Verif.Props.PriorArrays
import Verif.Props.Samplers

/-!
# Sizes of samples, the brute force sampler and the fit of a log normal (C85)
-/

namespace Ngmix.Props

open Ngmix Ngmix.Spec

/-- Spec: a sampler gives one number when no size is asked for and an array of `n` numbers for size `n`; the `i`th
number is made from the `i`th deviate only, so that a single value is the first of any array. -/
def SizedSampler (draw : ℝ → ℝ) (sample : Option ℕ → (ℕ → ℝ) → Except PyErr Sample) : Prop :=
  (∀ us, sample none us = .ok (.one (draw (us 0)))) ∧
  (∀ n us, ∃ l, sample (some n) us = .ok (.many l) ∧ l.length = n ∧ ∀ i (h : i < l.length), l[i] = draw (us i))

theorem sized_sampler (f : ℝ → ℝ) : SizedSampler f fun n us => .ok (sized f n us) := by
  refine ⟨fun us => rfl, fun n us => ⟨_, rfl, by simp, ?_⟩⟩
  intro i h; simp

/-- C85: sizes of the samples of `FlatPrior`, `LMBounds`, `Sinh`, `LogNormal` and (for a width that is not negative)
`Normal`. -/
theorem C85_sizes (a b mean sigma : ℝ) (shift : Option ℝ) :
    SizedSampler (fun u => a + (b - a) * u) (flatSample a b) ∧
    SizedSampler (fun u => a + (b - a) * u) (fun n us => .ok (lmSample a b n us)) ∧
    SizedSampler (fun u => mean - sigma + 2 * sigma * u) (sinhSample mean sigma) ∧
    SizedSampler (lognormalDraw mean sigma shift) (fun n zs => .ok (lognormalSample mean sigma shift n zs)) ∧
    (0 ≤ sigma → SizedSampler (fun z => mean + sigma * z) (fun n zs => normalSample mean sigma n none zs)) := by
  refine ⟨?_, sized_sampler _, ?_, sized_sampler _, ?_⟩
  · refine ⟨fun us => ?_, fun n us => ⟨_, rfl, by simp, ?_⟩⟩
    · simp [flatSample, firstOf, List.range_succ, Except.map]
    · intro i h; simp
  · refine ⟨fun us => ?_, fun n us => ⟨_, rfl, by simp, ?_⟩⟩
    · simp [sinhSample, firstOf, List.range_succ, Except.map]
      left; ring
    · intro i h; simp
      left; ring
  · intro hs
    refine ⟨fun us => ?_, fun n us => ⟨(List.range n).map fun i => mean + sigma * us i, ?_, by simp, ?_⟩⟩
    · simp [normalSample, not_lt.mpr hs, sized]
    · simp [normalSample, not_lt.mpr hs, sized]
    · intro i h; simp

/-- C85, `Normal`: `size` is used when given, `nrand` otherwise. -/
theorem C85_normal_size (mean sigma : ℝ) (nrand : Option ℕ) (zs : ℕ → ℝ) :
    (∀ n, normalSample mean sigma nrand (some n) zs = normalSample mean sigma (some n) none zs) ∧
    normalSample mean sigma none nrand zs = normalSample mean sigma nrand none zs := by
  refine ⟨fun n => ?_, ?_⟩
  · simp [normalSample]
  · cases nrand <;> simp [normalSample]

/-- C85 (limitation of the unchanged code): a negative width is accepted by the constructor, but no value can be
drawn. -/
theorem C85_normal_negative (mean sigma : ℝ) (hs : sigma < 0) (nrand size : Option ℕ) (zs : ℕ → ℝ) :
    (∃ p, Prior1.mkNormal mean sigma none = .ok p) ∧ normalSample mean sigma nrand size zs = .error .value := by
  refine ⟨⟨.normal mean sigma none, by simp [Prior1.mkNormal, hs.ne]⟩, ?_⟩
  simp [normalSample, hs]

/-- C85: samples of `LMBounds` are inside its bounds; the residual of a sample of `Sinh` is at most `sinh 1` in
size. -/
theorem C85_supports (lo hi mean scale u : ℝ) (hlo : lo ≤ hi) (hs : 0 < scale) (h0 : 0 ≤ u) (h1 : u < 1) :
    (lo ≤ lo + (hi - lo) * u ∧ lo + (hi - lo) * u ≤ hi) ∧
    ∃ d, (Prior1.sinh mean scale).fdiff (mean - scale + 2 * scale * u) = .ok (.fin d) ∧ |d| ≤ Real.sinh 1 := by
  refine ⟨⟨by nlinarith, by nlinarith⟩, ?_⟩
  obtain ⟨d, hd, he, -⟩ := (C44_sinh mean scale hs).1 (mean - scale + 2 * scale * u)
  refine ⟨d, hd, ?_⟩
  have : (mean - scale + 2 * scale * u - mean) / scale = 2 * u - 1 := by field_simp; ring
  rw [he, this, abs_le, ← Real.sinh_neg]
  exact ⟨Real.sinh_le_sinh.mpr (by linarith), Real.sinh_le_sinh.mpr (by linarith)⟩

/-! ### The brute force sampler -/

/-- Spec: the trial `d` is kept: its height is below the probability of its value. -/
def BruteKept (mean sigma : ℝ) (shift : Option ℝ) (maxval : ℝ) (d : ℝ × ℝ) : Prop :=
  ∃ P, (Prior1.lognormal mean sigma shift).prob (shift.getD 0 + maxval * d.1) = .ok (.fin P) ∧ d.2 < P

theorem bruteVal_eq (maxval : ℝ) (shift : Option ℝ) (u : ℝ) :
    bruteVal maxval shift u = shift.getD 0 + maxval * u := by
  cases shift <;> simp [bruteVal, add_comm]

theorem bruteStep_eq (mean sigma : ℝ) (hm : 0 < mean) (hs : sigma ≠ 0) (shift : Option ℝ) (maxval : ℝ)
    (s : RejState (ℝ × ℝ)) (batch : List (ℝ × ℝ)) (hpos : ∀ d ∈ batch, 0 < maxval * d.1) :
    bruteStep mean sigma shift maxval ⟨s.vals.map fun d => bruteVal maxval shift d.1, s.ngood, s.nleft⟩ batch =
      .ok (let s' := rejStep (fun d => open Classical in decide (BruteKept mean sigma shift maxval d)) s batch
        ⟨s'.vals.map fun d => bruteVal maxval shift d.1, s'.ngood, s'.nleft⟩) := by
  classical
  have hg : ∀ v ∈ batch.map (fun d => bruteVal maxval shift d.1), ¬ (v - shift.getD 0 ≤ 0) := by
    intro v hv
    obtain ⟨d, hd, rfl⟩ := List.mem_map.mp hv
    rw [bruteVal_eq]
    have := hpos d hd
    push Not; linarith
  unfold bruteStep
  dsimp only
  rw [(lognormal_array mean sigma shift _).2 hg]
  have hw : ∀ (b : List (ℝ × ℝ)), (∀ d ∈ b, 0 < maxval * d.1) →
      ((((b.map fun d => bruteVal maxval shift d.1).zip (b.zip (((b.map fun d => bruteVal maxval shift d.1).map fun v =>
        let logval := Real.log (v - shift.getD 0)
        Fl.fin (-0.5) * (Prior1.lnLogivar mean sigma * .fin ((logval - Prior1.lnLogmean mean sigma) ^ 2)) -
          .fin logval - Prior1.lnProbMax mean sigma).map expFl))).filter fun t =>
          decide (Fl.lt (.fin t.2.1.2) t.2.2)).map Prod.fst) =
      (b.filter fun d => decide (BruteKept mean sigma shift maxval d)).map fun d => bruteVal maxval shift d.1 := by
    intro b
    induction b with
    | nil => intro _; rfl
    | cons d b ih =>
      intro hb
      have hd := hb d (by simp)
      have ih' := ih (fun d hd => hb d (by simp [hd]))
      have hiff : Fl.lt (.fin d.2) (expFl (
          let logval := Real.log (bruteVal maxval shift d.1 - shift.getD 0)
          Fl.fin (-0.5) * (Prior1.lnLogivar mean sigma * .fin ((logval - Prior1.lnLogmean mean sigma) ^ 2)) -
          .fin logval - Prior1.lnProbMax mean sigma)) ↔ BruteKept mean sigma shift maxval d := by
        obtain ⟨⟨h1, -⟩, -⟩ := C44_lognormal mean sigma hs shift (.lognormal mean sigma shift) (by
          simp [Prior1.mkLogNormal, not_le.mpr hm])
        obtain ⟨L, hL, -⟩ := h1 (bruteVal maxval shift d.1) (by rw [bruteVal_eq]; linarith)
        simp only [Prior1.lnprob] at hL
        have hsc := lognormal_scalar mean sigma shift (bruteVal maxval shift d.1)
        rw [if_neg (by rw [bruteVal_eq]; push Not; linarith), hL] at hsc
        injection hsc with hsc
        unfold BruteKept
        rw [← bruteVal_eq]
        simp only [Prior1.prob, hL, Except.map]
        rw [← hsc]
        simp only [expFl, Fl.lt]
        constructor
        · intro h; exact ⟨_, rfl, h⟩
        · rintro ⟨P, hP, h⟩
          injection hP with hP; injection hP with hP
          rw [hP]; exact h
      simp only [List.map_cons, List.zip_cons_cons, List.filter_cons]
      by_cases hk : BruteKept mean sigma shift maxval d
      · rw [if_pos (by simpa using hiff.mpr hk), if_pos (by simpa using hk), List.map_cons, List.map_cons, ih']
      · rw [if_neg (by simpa using fun hc => hk (hiff.mp hc)), if_neg (by simpa using hk), ih']
  simp only [Except.map, hw batch hpos, rejStep, List.length_map]
  congr 1
  split_ifs with h
  · simp [sliceSet, List.map_take, List.map_drop]
  · rfl

/-- C85: when every trial is at a value where the prior is defined, the brute force sampler, if it ends, gives the
number of values asked for, all of them values of trials kept by the comparison with the probability, inside the
interval `(shift, shift + maxval)`; it does not raise. -/
theorem C85_brute (mean sigma : ℝ) (hm : 0 < mean) (hs : sigma ≠ 0) (shift maxval : Option ℝ) (n : ℕ)
    (hmax : 0 < maxval.getD (mean + 10 * sigma)) (draws : ℕ → ℕ → List (ℝ × ℝ))
    (hd : ∀ k m, (draws k m).length = m) (hu : ∀ k m, ∀ d ∈ draws k m, 0 < d.1 ∧ d.1 < 1) (fuel : ℕ)
    (r : Except PyErr (List ℝ)) (h : sampleBrute mean sigma shift maxval n draws fuel = some r) :
    ∃ ds : List (ℝ × ℝ), r = .ok (ds.map fun d => shift.getD 0 + maxval.getD (mean + 10 * sigma) * d.1) ∧
      ds.length = n ∧
      (∀ d ∈ ds, BruteKept mean sigma shift (maxval.getD (mean + 10 * sigma)) d) ∧
      (∀ d ∈ ds, ∃ k m, d ∈ draws k m) ∧
      ∀ d ∈ ds, shift.getD 0 < shift.getD 0 + maxval.getD (mean + 10 * sigma) * d.1 ∧
        shift.getD 0 + maxval.getD (mean + 10 * sigma) * d.1 < shift.getD 0 + maxval.getD (mean + 10 * sigma) := by
  classical
  unfold sampleBrute at h
  generalize maxval.getD (mean + 10 * sigma) = mx at *
  have hpos : ∀ k m, ∀ d ∈ draws k m, 0 < mx * d.1 := fun k m d hm => mul_pos hmax (hu k m d hm).1
  have hloop : ∀ (fuel k : ℕ) (s : RejState (ℝ × ℝ)),
      bruteLoop mean sigma shift mx n draws fuel k
        ⟨s.vals.map fun d => bruteVal mx shift d.1, s.ngood, s.nleft⟩ =
      (rejLoop (fun d => decide (BruteKept mean sigma shift mx d)) n draws fuel k s).map
        fun l => .ok (l.map fun d => bruteVal mx shift d.1) := by
    intro fuel
    induction fuel with
    | zero => intro k s; simp only [bruteLoop, rejLoop]; split_ifs <;> rfl
    | succ fuel ih =>
      intro k s
      simp only [bruteLoop, rejLoop]
      split_ifs with hlt
      · rw [bruteStep_eq mean sigma hm hs shift mx s _ (hpos k _)]
        exact ih _ _
      · rfl
  have hinit : rejInit (0 : ℝ) n =
      ⟨(rejInit ((0 - shift.getD 0) / mx, (0 : ℝ)) n).vals.map fun d => bruteVal mx shift d.1,
        (rejInit ((0 - shift.getD 0) / mx, (0 : ℝ)) n).ngood,
        (rejInit ((0 - shift.getD 0) / mx, (0 : ℝ)) n).nleft⟩ := by
    simp only [rejInit, List.map_replicate, bruteVal_eq]
    rw [mul_div_cancel₀ _ hmax.ne']
    simp
  rw [hinit, hloop fuel 0 (rejInit ((0 - shift.getD 0) / mx, (0 : ℝ)) n), Option.map_eq_some_iff] at h
  obtain ⟨l, hl, rfl⟩ := h
  obtain ⟨h1, h2, m, sizes, -, he, -⟩ := C45_rejection _ _ n draws hd fuel l hl
  have hin : ∀ d ∈ l, ∃ k m, d ∈ draws k m := by
    intro d hdl
    rw [he] at hdl
    have := (List.mem_filter.mp hdl).1
    clear he hl h1 h2 hdl
    unfold drawn at this
    obtain ⟨k, -, hk⟩ := List.mem_flatMap.mp this
    exact ⟨_, _, hk⟩
  refine ⟨l, ?_, h1, ?_, hin, ?_⟩
  · congr 1
    apply List.map_congr_left
    intro d _
    exact bruteVal_eq mx shift d.1
  · intro d hdl
    simpa using h2 d hdl
  · intro d hdl
    obtain ⟨k, m, hk⟩ := hin d hdl
    have := hu k m d hk
    constructor <;> nlinarith

/-- C85 (limitation of the unchanged code): a trial exactly at the lower end, which a generator of `[0, 1)` can
give, makes the whole call raise; so does every call of a prior whose negative width makes the default upper end
not positive. -/
theorem C85_brute_raises (mean sigma : ℝ) (shift maxval : Option ℝ) (n : ℕ) (hn : 0 < n)
    (draws : ℕ → ℕ → List (ℝ × ℝ)) (fuel : ℕ)
    (hd : ∃ d ∈ draws 0 n, maxval.getD (mean + 10 * sigma) * d.1 ≤ 0) :
    sampleBrute mean sigma shift maxval n draws (fuel + 1) = some (.error .gmixRange) := by
  unfold sampleBrute
  obtain ⟨d, hm, hle⟩ := hd
  unfold bruteLoop
  rw [if_pos (show (rejInit (0 : ℝ) n).ngood < n from hn)]
  simp only [rejInit]
  have : bruteStep mean sigma shift (maxval.getD (mean + 10 * sigma)) ⟨List.replicate n 0, 0, n⟩ (draws 0 n) =
      .error .gmixRange := by
    unfold bruteStep
    dsimp only
    rw [(lognormal_array mean sigma shift _).1]
    · rfl
    · exact ⟨_, List.mem_map.mpr ⟨d, hm, rfl⟩, by rw [bruteVal_eq]; linarith⟩
  rw [this]

/-! ### The fit -/

theorem fitFactor_eq (u : ℝ) : fitFactor u = 1.1 := by unfold fitFactor; norm_num

/-- C85 (defect of the unchanged code): the random factors of the guess are all 1.1, whatever the generator
gives. -/
theorem C85_fit_guess (x y : List ℝ) (u1 u2 u3 : ℝ) :
    lnFitGuess x y u1 u2 u3 = [npMean x * .fin 1.1, npStd x * .fin 1.1, npMean y * .fin 1.1] := by
  simp only [lnFitGuess, fitFactor_eq]

/-- C85: the guess in numbers: the mean and the root mean square deviation of the abscissae and the mean of the ordinates, all times
1.1; NaN for those of an empty array. -/
theorem C85_fit_guess_numbers (x y : List ℝ) (u1 u2 u3 : ℝ) :
    ∃ gm gs ga, lnFitGuess x y u1 u2 u3 = [gm, gs, ga] ∧
      (x ≠ [] → ∃ m s : ℝ, gm = .fin (1.1 * m) ∧ gs = .fin (1.1 * s) ∧ x.length * m = x.sum ∧ 0 ≤ s ∧
        x.length * s ^ 2 = (x.map fun v => (v - m) ^ 2).sum) ∧
      (y ≠ [] → ∃ a : ℝ, ga = .fin (1.1 * a) ∧ y.length * a = y.sum) ∧
      (x = [] → gm = .nan ∧ gs = .nan) ∧ (y = [] → ga = .nan) := by
  rw [C85_fit_guess]
  refine ⟨_, _, _, rfl, fun hx => ?_, fun hy => ?_, fun hx => ?_, fun hy => ?_⟩
  · have hl : x.length ≠ 0 := fun h => hx (List.length_eq_zero_iff.1 h)
    have hl' : (x.length : ℝ) ≠ 0 := by exact_mod_cast hl
    have h0 : (0 : ℝ) ≤ (x.map fun v => (v - x.sum / x.length) ^ 2).sum / (x.length : ℝ) :=
      div_nonneg (List.sum_nonneg fun a ha => by
        obtain ⟨v, -, rfl⟩ := List.mem_map.1 ha
        positivity) (Nat.cast_nonneg _)
    refine ⟨x.sum / x.length, Real.sqrt ((x.map fun v => (v - x.sum / x.length) ^ 2).sum / (x.length : ℝ)), ?_, ?_, ?_,
      Real.sqrt_nonneg _, ?_⟩
    · simp only [npMean, if_neg hl, Fl.fin_mul, mul_comm]
    · simp only [npStd, if_neg hl, Fl.fin_mul, mul_comm]
    · rw [mul_div_cancel₀ _ hl']
    · rw [Real.sq_sqrt h0, mul_div_cancel₀ _ hl']
  · have hl : y.length ≠ 0 := fun h => hy (List.length_eq_zero_iff.1 h)
    have hl' : (y.length : ℝ) ≠ 0 := by exact_mod_cast hl
    refine ⟨y.sum / y.length, ?_, by rw [mul_div_cancel₀ _ hl']⟩
    simp only [npMean, if_neg hl, Fl.fin_mul, mul_comm]
  · subst hx; exact ⟨rfl, rfl⟩
  · subst hy; rfl

theorem lnFitLoop_spec {R : Type} (run : ℕ → List Fl → Except PyErr (ℕ × R)) (guess : ℕ → List Fl) :
    ∀ (left i : ℕ) (last : Option (ℕ × R)), 0 < left →
    ∃ m, 1 ≤ m ∧ m ≤ left ∧ (lnFitLoop run guess left i last).1 = (List.range' i m).map guess ∧
      (∀ j, j + 1 < m → ∃ r, run (i + j) (guess (i + j)) = .ok r ∧ r.1 ≠ 0) ∧
      (lnFitLoop run guess left i last).2 = run (i + m - 1) (guess (i + m - 1)) ∧
      (m < left → ∀ r, run (i + m - 1) (guess (i + m - 1)) = .ok r → r.1 = 0) := by
  intro left
  induction left with
  | zero => intro _ _ h; omega
  | succ left ih =>
    intro i last _
    simp only [lnFitLoop]
    rcases hr : run i (guess i) with e | r
    · refine ⟨1, le_refl _, by omega, by simp, ?_, by simpa using hr.symm, ?_⟩
      · intro j hj; omega
      · intro _ r hr'
        simp only [Nat.add_sub_cancel] at hr'
        rw [hr] at hr'; cases hr'
    · by_cases h0 : r.1 = 0
      · simp only [if_pos h0]
        refine ⟨1, le_refl _, by omega, by simp, ?_, by simpa using hr.symm, ?_⟩
        · intro j hj; omega
        · intro _ r' hr'
          simp only [Nat.add_sub_cancel] at hr'
          rw [hr] at hr'; injection hr' with hr'; rw [← hr']; exact h0
      · simp only [if_neg h0]
        rcases Nat.eq_zero_or_pos left with hl | hl
        · subst hl
          refine ⟨1, le_refl _, le_refl _, by simp [lnFitLoop], ?_, ?_, ?_⟩
          · intro j hj; omega
          · simp [lnFitLoop, hr]
          · intro h; omega
        · obtain ⟨m, h1, h2, h3, h4, h5, h6⟩ := ih (i + 1) (some r) hl
          refine ⟨m + 1, by omega, by omega, ?_, ?_, ?_, ?_⟩
          · rw [h3, List.range'_succ]; rfl
          · intro j hj
            cases j with
            | zero => exact ⟨r, hr, h0⟩
            | succ j =>
              have := h4 j (by omega)
              rwa [show i + 1 + j = i + (j + 1) by omega] at this
          · rw [h5]; congr 1 <;> [skip; congr 1] <;> omega
          · intro hlt r' hr'
            refine h6 (by omega) r' ?_
            rw [show i + 1 + m - 1 = i + (m + 1) - 1 by omega]; exact hr'

/-- C85: the minimiser is tried at most four times, on the same residuals, until it reports no flag; the result of
the last try is returned. -/
theorem C85_fit_tries {R : Type} (shift : Option ℝ) (x y : List ℝ)
    (leastsq : ℕ → (List ℝ → Except PyErr (List Fl)) → List Fl → Except PyErr (ℕ × R)) (us : ℕ → ℝ) :
    let g : List Fl := [npMean x * .fin 1.1, npStd x * .fin 1.1, npMean y * .fin 1.1]
    ∃ m, 1 ≤ m ∧ m ≤ 4 ∧ (lnFit shift x y leastsq us).1 = List.replicate m g ∧
      (∀ j, j + 1 < m → ∃ r, leastsq j (lnCalcFdiff x y) g = .ok r ∧ r.1 ≠ 0) ∧
      (lnFit shift x y leastsq us).2 = leastsq (m - 1) (lnCalcFdiff x y) g ∧
      (m < 4 → ∀ r, leastsq (m - 1) (lnCalcFdiff x y) g = .ok r → r.1 = 0) := by
  intro g
  unfold lnFit
  simp only [C85_fit_guess]
  obtain ⟨m, h1, h2, h3, h4, h5, h6⟩ := lnFitLoop_spec (fun i g => leastsq i (lnCalcFdiff x y) g) (fun _ => g) 4 0 none
    (by omega)
  refine ⟨m, h1, h2, ?_, ?_, ?_, ?_⟩
  · rw [h3]; simp [List.map_const']
  · intro j hj; have := h4 j hj; rwa [Nat.zero_add] at this
  · rw [h5, Nat.zero_add]
  · intro hlt r hr; exact h6 hlt r (by rw [Nat.zero_add]; exact hr)

/-- C85 (defect of the unchanged code): so that with a minimiser that always gives the same answer for the same
problem, as the one used does, the further tries never change anything. -/
theorem C85_fit_retries_useless {R : Type} (shift : Option ℝ) (x y : List ℝ)
    (leastsq : (List ℝ → Except PyErr (List Fl)) → List Fl → Except PyErr (ℕ × R)) (us : ℕ → ℝ) :
    (lnFit shift x y (fun _ => leastsq) us).2 =
      leastsq (lnCalcFdiff x y) [npMean x * .fin 1.1, npStd x * .fin 1.1, npMean y * .fin 1.1] := by
  obtain ⟨m, -, -, -, -, h, -⟩ := C85_fit_tries shift x y (fun _ => leastsq) us
  exact h

/-- C85: the residuals at parameters `mean, sigma, amplitude`: the peak normalised log normal without a shift, times
the amplitude, minus the data; minus infinity everywhere when the mean is not positive or a point is not. -/
theorem C85_fit_residuals (x y : List ℝ) (hxy : x.length = y.length) (m s a : ℝ) (hs : s ≠ 0) :
    ((0 < m ∧ ∀ v ∈ x, 0 < v) → ∃ ps : List ℝ,
      List.Forall₂ (fun v P => (Prior1.lognormal m s none).prob v = .ok (.fin P) ∧ 0 < P ∧ P ≤ 1) x ps ∧
      lnCalcFdiff x y [m, s, a] = .ok (List.zipWith (fun P t => .fin (P * a - t)) ps y)) ∧
    ((m ≤ 0 ∨ ∃ v ∈ x, v ≤ 0) → lnCalcFdiff x y [m, s, a] = .ok (List.replicate y.length .ninf)) := by
  have hninf : (y.map fun v => Fl.fin (v * 0) - .pinf) = List.replicate y.length .ninf := by
    rw [List.eq_replicate_iff]
    refine ⟨by simp, fun b hb => ?_⟩
    obtain ⟨v, -, rfl⟩ := List.mem_map.mp hb
    rfl
  constructor
  · rintro ⟨hm, hx⟩
    have hA : Agreeing (.lognormal m s none) := ⟨hm, hs⟩
    obtain ⟨⟨h1, -⟩, -⟩ := C44_lognormal m s hs none (.lognormal m s none) (by
      simp [Prior1.mkLogNormal, not_le.mpr hm])
    have hP : ∀ v ∈ x, ∃ P, (Prior1.lognormal m s none).prob v = .ok (.fin P) ∧ 0 < P ∧ P ≤ 1 := by
      intro v hv
      obtain ⟨L, hL, hle, -⟩ := h1 v (by simpa using hx v hv)
      simp only [Prior1.lnprob] at hL
      refine ⟨Real.exp L, ?_, Real.exp_pos L, Real.exp_le_one_iff.mpr hle⟩
      simp [Prior1.prob, hL, Except.map, expFl]
    choose! f hf using hP
    refine ⟨x.map f, ?_, ?_⟩
    · rw [List.forall₂_map_right_iff, List.forall₂_same]; exact hf
    · have harr := ((C83_prob_array _ hA x).1 ((x.map f).map Fl.fin)).mpr (by
        rw [List.map_map, List.forall₂_map_right_iff, List.forall₂_same]
        intro v hv; exact (hf v hv).1)
      simp only [lnCalcFdiff, Prior1.mkLogNormal, if_neg (not_le.mpr hm), Except.bind, harr]
      rw [if_neg (by simp [hxy])]
      congr 1
      rw [List.zipWith_map_left]
      simp only [Fl.fin_mul, Fl.fin_sub]
  · intro h
    rcases le_or_gt m 0 with hm | hm
    · simp only [lnCalcFdiff, Prior1.mkLogNormal, if_pos hm, Except.bind, hninf]
    · rcases h with h | ⟨v, hv, hle⟩
      · linarith
      · have hA : Agreeing (.lognormal m s none) := ⟨hm, hs⟩
        have he := ((C83_prob_array _ hA x).2 .gmixRange).mpr ⟨v, hv, by
          simp [Prior1.prob, Prior1.lognormalLnprob, hle, Except.map]⟩
        simp only [lnCalcFdiff, Prior1.mkLogNormal, if_neg (not_le.mpr hm), Except.bind, he, hninf]

/-- C85 (defect of the unchanged code): the shift of the prior plays no part in its fit. -/
theorem C85_fit_shift {R : Type} (shift shift' : Option ℝ) (x y : List ℝ)
    (leastsq : ℕ → (List ℝ → Except PyErr (List Fl)) → List Fl → Except PyErr (ℕ × R)) (us : ℕ → ℝ) :
    lnFit shift x y leastsq us = lnFit shift' x y leastsq us := rfl

/-- Data meeting the hypotheses of `C85_fit_residuals`, and a first batch with a trial at the lower end. -/
example : ([1, 2, 4] : List ℝ).length = ([0.5, 1, 0.2] : List ℝ).length ∧ (∀ v ∈ ([1, 2, 4] : List ℝ), 0 < v) ∧
    (∃ d ∈ [((0 : ℝ), (0.5 : ℝ)), (0.3, 0.1)], (none : Option ℝ).getD (1 + 10 * 2) * d.1 ≤ 0) :=
  ⟨rfl, by simp, ⟨_, List.mem_cons_self, by norm_num⟩⟩

end Ngmix.Props
