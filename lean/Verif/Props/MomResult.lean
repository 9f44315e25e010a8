import Verif.Proof.MomResult
import Mathlib.Analysis.Calculus.Deriv.Inv

/-!
# Properties C11-C13: moment results, regularisation, ratio variances
-/

namespace Ngmix.Props

open Ngmix Classical

/-! ## C13 -/

/-- C13: for nonzero finite `a`, `b`, `get_ratio_var` is the quadratic form of the gradient of
`(a,b) ↦ a/b` with the covariance matrix, and `get_ratio_error` is the square root of that
(clipped at zero). -/
theorem C13_quadratic_form (a b va vb cab da db : ℝ) (ha : a ≠ 0) (hb : b ≠ 0)
    (hda : HasDerivAt (fun x => x / b) da a) (hdb : HasDerivAt (fun y => a / y) db b) :
    getRatioVar (.fin a) (.fin b) (.fin va) (.fin vb) (.fin cab)
      = .ok (.fin (da ^ 2 * va + db ^ 2 * vb + 2 * da * db * cab)) ∧
    getRatioError (.fin a) (.fin b) (.fin va) (.fin vb) (.fin cab)
      = .ok (.fin (Real.sqrt (max (da ^ 2 * va + db ^ 2 * vb + 2 * da * db * cab) 0))) := by
  have e1 : da = 1 / b := hda.unique ((hasDerivAt_id a).div_const b)
  have e2 : db = -a / b ^ 2 := by
    have h := (hasDerivAt_inv hb).const_mul a
    have h' : HasDerivAt (fun y => a / y) (a * -(b ^ 2)⁻¹) b := by
      simpa [div_eq_mul_inv] using h
    rw [hdb.unique h']; ring
  subst e1 e2
  refine ⟨getRatioVar_fin va vb cab ha hb, ?_⟩
  rw [getRatioError_fin va vb cab hb, if_neg ha]
  rfl

example : HasDerivAt (fun x : ℝ => x / 3) (1 / 3) 2 := (hasDerivAt_id (2 : ℝ)).div_const 3

/-- C13: for every positive semidefinite covariance the variance is nonnegative, so the error is
its plain square root. -/
theorem C13_nonneg (a b va vb cab : ℝ) (ha : a ≠ 0) (hb : b ≠ 0) (h1 : 0 ≤ va) (h2 : 0 ≤ vb)
    (h3 : cab ^ 2 ≤ va * vb) :
    ∃ v, getRatioVar (.fin a) (.fin b) (.fin va) (.fin vb) (.fin cab) = .ok (.fin v) ∧ 0 ≤ v ∧
      getRatioError (.fin a) (.fin b) (.fin va) (.fin vb) (.fin cab) = .ok (.fin (Real.sqrt v)) := by
  have hq : 0 ≤ ratioQuad a b va vb cab := by
    unfold ratioQuad
    generalize 1 / b = p
    generalize -a / b ^ 2 = q
    rcases h1.eq_or_lt with h0 | h0
    · have : cab = 0 := by
        rw [← h0, zero_mul] at h3
        nlinarith [sq_nonneg cab, pow_eq_zero_iff (n := 2) (a := cab) (by norm_num)]
      rw [← h0, this]; simp; positivity
    · have : 0 ≤ va * (p ^ 2 * va + q ^ 2 * vb + 2 * p * q * cab) := by
        nlinarith [sq_nonneg (p * va + q * cab), mul_nonneg (sq_nonneg q) (sub_nonneg.2 h3)]
      exact nonneg_of_mul_nonneg_right this h0
  refine ⟨_, getRatioVar_fin va vb cab ha hb, hq, ?_⟩
  rw [getRatioError_fin va vb cab hb, if_neg ha, max_eq_left hq]

/-- C13: `ValueError` exactly for a zero denominator, whatever the other arguments. -/
theorem C13_error_iff (a b va vb cab : Fl) :
    (getRatioVar a b va vb cab = .error .value ↔ b = .fin 0) ∧
    (getRatioError a b va vb cab = .error .value ↔ b = .fin 0) ∧
    (b ≠ .fin 0 → ∃ v, getRatioVar a b va vb cab = .ok v ∧
      getRatioError a b va vb cab = .ok v.clip0.sqrt) := by
  have hz : b.isZero ↔ b = .fin 0 := by
    cases b <;> simp [Fl.isZero]
  unfold getRatioError getRatioVar
  by_cases h : b.isZero
  · have := hz.1 h
    simp [this, Except.bind, Fl.isZero]
  · have h' : b ≠ .fin 0 := fun hh => h (hz.2 hh)
    simp [h, h', Except.bind]

/-- C13: negating numerator and denominator together changes nothing. -/
theorem C13_sign_symmetric (a b va vb cab : ℝ) (ha : a ≠ 0) (hb : b ≠ 0) :
    getRatioVar (.fin (-a)) (.fin (-b)) (.fin va) (.fin vb) (.fin cab)
      = getRatioVar (.fin a) (.fin b) (.fin va) (.fin vb) (.fin cab) := by
  rw [getRatioVar_fin _ _ _ (neg_ne_zero.2 ha) (neg_ne_zero.2 hb), getRatioVar_fin _ _ _ ha hb]
  congr 2
  unfold ratioQuad
  field_simp

/-- C13 counterexample (code as it is): at `a = 0` the result is NaN for every covariance,
although the first-order variance of `a/b` is `va/b²`. -/
theorem C13_zero_numerator_nan (b va vb cab : ℝ) (hb : b ≠ 0) :
    getRatioVar (.fin 0) (.fin b) (.fin va) (.fin vb) (.fin cab) = .ok .nan ∧
    getRatioError (.fin 0) (.fin b) (.fin va) (.fin vb) (.fin cab) = .ok .nan := by
  refine ⟨getRatioVar_zero va vb cab hb, ?_⟩
  rw [getRatioError_fin va vb cab hb, if_pos rfl]

/-! ## C11 -/

/-- Inputs of `make_mom_result`: 6 or 17 sums of which the shape, size and flux sums are finite
(the centroid sums may be NaN, as the pre-psf fitters leave them) and a finite covariance. -/
structure MomInput (n : ℕ) (sums : List Fl) (cov : CovMat) (c : ℕ → ℕ → ℝ) (m1 m2 mt mf : ℝ) :
    Prop where
  hn : n = 6 ∨ n = 17
  hlen : sums.length = n
  h2 : sums.getD 2 .nan = .fin m1
  h3 : sums.getD 3 .nan = .fin m2
  h4 : sums.getD 4 .nan = .fin mt
  h5 : sums.getD 5 .nan = .fin mf
  hcn : cov.n = n
  hcm : cov.m = n
  hcov : ∀ i < n, ∀ j < n, cov.get i j = .fin (c i j)

/-- The flux-only entries. -/
structure FluxPart (c55 mf : ℝ) (r : MomRes) : Prop where
  flux : r.flux = .fin mf
  good : 0 < c55 → r.fluxFlags = 0 ∧ r.fluxErr = .fin (Real.sqrt c55) ∧
    r.s2n = .fin (mf / Real.sqrt c55)
  bad : c55 ≤ 0 → r.fluxFlags = Flags.NONPOS_VAR ∧ r.fluxErr = .nan ∧ r.s2n = .nan

/-- The size entries. -/
structure TPart (c : ℕ → ℕ → ℝ) (mt mf : ℝ) (r : MomRes) : Prop where
  good : 0 < c 5 5 → 0 < c 4 4 → 0 < mf → r.TFlags = 0 ∧ r.T = .fin (mt / mf) ∧
    (mt ≠ 0 → r.Terr = .fin (Real.sqrt (max (ratioQuad mt mf (c 4 4) (c 5 5) (c 4 5)) 0))) ∧
    (mt = 0 → r.Terr = .nan)
  flux : 0 < c 5 5 → 0 < c 4 4 → mf ≤ 0 →
    r.TFlags = Flags.NONPOS_FLUX ∧ r.T = .nan ∧ r.Terr = .nan
  var : (c 5 5 ≤ 0 ∨ c 4 4 ≤ 0) → r.TFlags = Flags.NONPOS_VAR ∧ r.T = .nan ∧ r.Terr = .nan

/-- The shape entries and the overall flags. -/
structure ShapePart (n : ℕ) (sums : List Fl) (c : ℕ → ℕ → ℝ) (m1 m2 mt mf : ℝ) (r : MomRes) :
    Prop where
  var : ¬ (∀ i < n, 0 < c i i) → r.flags = Flags.NONPOS_VAR ∧ r.sumsErr = List.replicate 6 .nan
  sumsErr : (∀ i < n, 0 < c i i) →
    r.sumsErr = (List.range n).map fun i => .fin (Real.sqrt (c i i))
  flux : (∀ i < n, 0 < c i i) → mf ≤ 0 → r.flags = Flags.NONPOS_FLUX
  size : (∀ i < n, 0 < c i i) → 0 < mf → mt ≤ 0 → r.flags = Flags.NONPOS_SIZE
  shape : (∀ i < n, 0 < c i i) → 0 < mf → 0 < mt →
    r.e1 = .fin (m1 / mt) ∧ r.e2 = .fin (m2 / mt) ∧
    r.pars = some [sums.getD 0 .nan, sums.getD 1 .nan, .fin (m1 / mt), .fin (m2 / mt),
      .fin (mt / mf), .fin mf]
  shapeVar : (∀ i < n, 0 < c i i) → 0 < mf → 0 < mt → (m1 = 0 ∨ m2 = 0) →
    r.flags = Flags.NONPOS_SHAPE_VAR ∧ r.eErr = (.nan, .nan)
  good : (∀ i < n, 0 < c i i) → 0 < mf → 0 < mt → m1 ≠ 0 → m2 ≠ 0 → r.flags = 0 ∧
    r.eErr = (.fin (Real.sqrt (max (ratioQuad m1 mt (c 2 2) (c 4 4) (c 2 4)) 0)),
              .fin (Real.sqrt (max (ratioQuad m2 mt (c 3 3) (c 4 4) (c 3 4)) 0)))
  failed : ¬ ((∀ i < n, 0 < c i i) ∧ 0 < mf ∧ 0 < mt) →
    r.e1 = .nan ∧ r.e2 = .nan ∧ r.eErr = (.nan, .nan) ∧ r.pars = none

/-- C11: the complete decision table of `make_mom_result` for 6 or 17 moments: it never raises,
and every flag and every derived quantity is as stated. -/
theorem C11_decision_table (n : ℕ) (sums : List Fl) (cov : CovMat) (c : ℕ → ℕ → ℝ) (m1 m2 mt mf : ℝ)
    (h : MomInput n sums cov c m1 m2 mt mf) (nrm : Option Fl) :
    ∃ r, makeMomResult sums cov nrm = .ok r ∧ FluxPart (c 5 5) mf r ∧ TPart c mt mf r ∧
      ShapePart n sums c m1 m2 mt mf r ∧ r.sums = sums ∧ r.sumsCov = cov ∧
      r.sumsNorm = nrm.getD .nan := by
  obtain ⟨named, hnamed, -⟩ := addMomentsByName_ok sums cov (by
    rw [h.hlen, h.hcn]) momentsNameMap
  have hg1 : ¬ (sums.length ≠ 6 ∧ sums.length ≠ 17) := by rw [h.hlen]; rcases h.hn with e | e <;> simp [e]
  have hg2 : ¬ ((cov.n, cov.m) ≠ (6, 6) ∧ (cov.n, cov.m) ≠ (17, 17)) := by
    rcases h.hn with e | e <;> simp [h.hcn, h.hcm, e]
  have hn5 : 5 < n := by rcases h.hn with e | e <;> omega
  have hc := h.hcov
  have hallc : (∀ i < n, (cov.get i i).pos) ↔ ∀ i < n, 0 < c i i := by
    constructor <;> intro hh i hi
    · simpa [hc i hi i hi] using hh i hi
    · simpa [hc i hi i hi] using hh i hi
  have hmapc : (List.range n).map (fun i => (cov.get i i).sqrt)
      = (List.range n).map fun i => Fl.sqrt (.fin (c i i)) := by
    apply List.map_congr_left
    intro i hi; rw [hc i (List.mem_range.1 hi) i (List.mem_range.1 hi)]
  have c55 := hc 5 hn5 5 hn5
  have c44 := hc 4 (by omega) 4 (by omega)
  have c45 := hc 4 (by omega) 5 (by omega)
  have c22 := hc 2 (by omega) 2 (by omega)
  have c24 := hc 2 (by omega) 4 (by omega)
  have c33 := hc 3 (by omega) 3 (by omega)
  have c34 := hc 3 (by omega) 4 (by omega)
  unfold makeMomResult momSize momShape momBase momFlux
  rw [if_neg hg1, if_neg hg2]
  simp only [h.h2, h.h3, h.h4, h.h5, c55, c44, c45, c22, c24, c33, c34, h.hcn, hallc, hmapc,
    Fl.pos_fin, hnamed]
  by_cases hall : ∀ i < n, 0 < c i i
  · have h55 : 0 < c 5 5 := hall 5 hn5
    have h44 : 0 < c 4 4 := hall 4 (by omega)
    have hs5 : Real.sqrt (c 5 5) ≠ 0 := (Real.sqrt_pos.2 h55).ne'
    have sq : ∀ i, 0 < c i i → Fl.sqrt (.fin (c i i)) = .fin (Real.sqrt (c i i)) := by
      intro i hi; simp [Fl.sqrt, not_lt.2 hi.le]
    have hmap : (List.range n).map (fun i => Fl.sqrt (.fin (c i i)))
        = (List.range n).map fun i => Fl.fin (Real.sqrt (c i i)) := by
      apply List.map_congr_left
      intro i hi; exact sq i (hall i (List.mem_range.1 hi))
    simp only [h55, h44, and_self, if_true, if_pos hall, sq 5 h55, Fl.fin_div _ _ hs5, hmap]
    by_cases hmf : 0 < mf
    · simp only [if_pos hmf, getRatioError_fin _ _ _ hmf.ne', Except.bind, Fl.fin_div _ _ hmf.ne',
        Fl.pos_fin]
      by_cases hmt : 0 < mt
      · have hT : 0 < mt / mf := div_pos hmt hmf
        simp only [if_pos hT, getRatioError_fin _ _ _ hmt.ne', Fl.fin_div _ _ hmt.ne', if_neg hmt.ne']
        by_cases h1 : m1 = 0
        · simp only [h1, if_true, Fl.isFinite, false_and, if_false]
          refine ⟨_, rfl, ⟨rfl, fun _ => ⟨rfl, rfl, rfl⟩, fun hh => absurd h55 (not_lt.2 hh)⟩,
            ⟨fun _ _ _ => ⟨rfl, rfl, fun _ => rfl, fun e => absurd e hmt.ne'⟩,
             fun _ _ hh => absurd hmf (not_lt.2 hh),
             fun hh => by rcases hh with hh | hh <;> linarith⟩,
            ⟨fun hh => absurd hall hh, fun _ => rfl, fun _ hh => absurd hmf (not_lt.2 hh),
             fun _ _ hh => absurd hmt (not_lt.2 hh), fun _ _ _ => ⟨rfl, rfl, rfl⟩,
             fun _ _ _ _ => ⟨rfl, rfl⟩, fun _ _ _ hh => absurd rfl hh,
             fun hh => absurd ⟨hall, hmf, hmt⟩ hh⟩, rfl, rfl, rfl⟩
        · by_cases h2 : m2 = 0
          · simp only [if_neg h1, h2, if_true, Fl.isFinite, and_false, if_false]
            refine ⟨_, rfl, ⟨rfl, fun _ => ⟨rfl, rfl, rfl⟩, fun hh => absurd h55 (not_lt.2 hh)⟩,
              ⟨fun _ _ _ => ⟨rfl, rfl, fun _ => rfl, fun e => absurd e hmt.ne'⟩,
               fun _ _ hh => absurd hmf (not_lt.2 hh),
               fun hh => by rcases hh with hh | hh <;> linarith⟩,
              ⟨fun hh => absurd hall hh, fun _ => rfl, fun _ hh => absurd hmf (not_lt.2 hh),
               fun _ _ hh => absurd hmt (not_lt.2 hh), fun _ _ _ => ⟨rfl, rfl, rfl⟩,
               fun _ _ _ _ => ⟨rfl, rfl⟩, fun _ _ _ _ hh => absurd rfl hh,
               fun hh => absurd ⟨hall, hmf, hmt⟩ hh⟩, rfl, rfl, rfl⟩
          · simp only [if_neg h1, if_neg h2, Fl.isFinite, and_self, if_true]
            refine ⟨_, rfl, ⟨rfl, fun _ => ⟨rfl, rfl, rfl⟩, fun hh => absurd h55 (not_lt.2 hh)⟩,
              ⟨fun _ _ _ => ⟨rfl, rfl, fun _ => rfl, fun e => absurd e hmt.ne'⟩,
               fun _ _ hh => absurd hmf (not_lt.2 hh),
               fun hh => by rcases hh with hh | hh <;> linarith⟩,
              ⟨fun hh => absurd hall hh, fun _ => rfl, fun _ hh => absurd hmf (not_lt.2 hh),
               fun _ _ hh => absurd hmt (not_lt.2 hh), fun _ _ _ => ⟨rfl, rfl, rfl⟩,
               fun _ _ _ hh => absurd hh (by simp [h1, h2]), fun _ _ _ _ _ => ⟨rfl, rfl⟩,
               fun hh => absurd ⟨hall, hmf, hmt⟩ hh⟩, rfl, rfl, rfl⟩
      · have hT : ¬ 0 < mt / mf := by
          rw [not_lt]; exact div_nonpos_of_nonpos_of_nonneg (not_lt.1 hmt) hmf.le
        simp only [if_neg hT]
        refine ⟨_, rfl, ⟨rfl, fun _ => ⟨rfl, rfl, rfl⟩, fun hh => absurd h55 (not_lt.2 hh)⟩,
          ⟨fun _ _ _ => ⟨rfl, rfl, fun e => if_neg e, fun e => if_pos e⟩,
           fun _ _ hh => absurd hmf (not_lt.2 hh),
           fun hh => by rcases hh with hh | hh <;> linarith⟩,
          ⟨fun hh => absurd hall hh, fun _ => rfl, fun _ hh => absurd hmf (not_lt.2 hh),
           fun _ _ _ => rfl, fun _ _ hh => absurd hh hmt,
           fun _ _ hh => absurd hh hmt, fun _ _ hh => absurd hh hmt,
           fun _ => ⟨rfl, rfl, rfl, rfl⟩⟩, rfl, rfl, rfl⟩
    · simp only [if_neg hmf, Except.bind, Fl.pos_fin]
      refine ⟨_, rfl, ⟨rfl, fun _ => ⟨rfl, rfl, rfl⟩, fun hh => absurd h55 (not_lt.2 hh)⟩,
        ⟨fun _ _ hh => absurd hh hmf, fun _ _ _ => ⟨rfl, rfl, rfl⟩,
         fun hh => by rcases hh with hh | hh <;> linarith⟩,
        ⟨fun hh => absurd hall hh, fun _ => rfl, fun _ _ => rfl, fun _ hh => absurd hh hmf,
         fun _ hh => absurd hh hmf, fun _ hh => absurd hh hmf, fun _ hh => absurd hh hmf,
         fun _ => ⟨rfl, rfl, rfl, rfl⟩⟩, rfl, rfl, rfl⟩
  · have sq5 : 0 < c 5 5 → Fl.sqrt (.fin (c 5 5)) = .fin (Real.sqrt (c 5 5)) := by
      intro hi; simp [Fl.sqrt, not_lt.2 hi.le]
    simp only [if_neg hall]
    have hnv : ¬ (0 ||| Flags.NONPOS_VAR = 0) := by decide
    simp only [if_neg hnv]
    by_cases h55 : 0 < c 5 5
    · have hs5 : Real.sqrt (c 5 5) ≠ 0 := (Real.sqrt_pos.2 h55).ne'
      simp only [if_pos h55, sq5 h55, Fl.fin_div _ _ hs5]
      by_cases h44 : 0 < c 4 4
      · simp only [h55, h44, and_self, if_true]
        by_cases hmf : 0 < mf
        · simp only [if_pos hmf, getRatioError_fin _ _ _ hmf.ne', Except.bind, Fl.fin_div _ _ hmf.ne']
          refine ⟨_, rfl, ⟨rfl, fun _ => ⟨rfl, rfl, rfl⟩, fun hh => absurd h55 (not_lt.2 hh)⟩,
            ⟨fun _ _ _ => ⟨rfl, rfl, fun e => if_neg e, fun e => if_pos e⟩,
             fun _ _ hh => absurd hmf (not_lt.2 hh),
             fun hh => by rcases hh with hh | hh <;> linarith⟩,
            ⟨fun _ => ⟨Nat.zero_or _, rfl⟩, fun hh => absurd hh hall, fun hh => absurd hh hall,
             fun hh => absurd hh hall, fun hh => absurd hh hall, fun hh => absurd hh hall,
             fun hh => absurd hh hall, fun _ => ⟨rfl, rfl, rfl, rfl⟩⟩, rfl, rfl, rfl⟩
        · simp only [if_neg hmf, Except.bind]
          refine ⟨_, rfl, ⟨rfl, fun _ => ⟨rfl, rfl, rfl⟩, fun hh => absurd h55 (not_lt.2 hh)⟩,
            ⟨fun _ _ hh => absurd hh hmf, fun _ _ _ => ⟨rfl, rfl, rfl⟩,
             fun hh => by rcases hh with hh | hh <;> linarith⟩,
            ⟨fun _ => ⟨Nat.zero_or _, rfl⟩, fun hh => absurd hh hall, fun hh => absurd hh hall,
             fun hh => absurd hh hall, fun hh => absurd hh hall, fun hh => absurd hh hall,
             fun hh => absurd hh hall, fun _ => ⟨rfl, rfl, rfl, rfl⟩⟩, rfl, rfl, rfl⟩
      · simp only [h44, and_false, if_false, Except.bind]
        refine ⟨_, rfl, ⟨rfl, fun _ => ⟨rfl, rfl, rfl⟩, fun hh => absurd h55 (not_lt.2 hh)⟩,
          ⟨fun _ hh => absurd hh h44, fun _ hh => absurd hh h44, fun _ => ⟨rfl, rfl, rfl⟩⟩,
          ⟨fun _ => ⟨Nat.zero_or _, rfl⟩, fun hh => absurd hh hall, fun hh => absurd hh hall,
           fun hh => absurd hh hall, fun hh => absurd hh hall, fun hh => absurd hh hall,
           fun hh => absurd hh hall, fun _ => ⟨rfl, rfl, rfl, rfl⟩⟩, rfl, rfl, rfl⟩
    · simp only [h55, false_and, if_false, Except.bind]
      refine ⟨_, rfl, ⟨rfl, fun hh => absurd hh h55, fun _ => ⟨rfl, rfl, rfl⟩⟩,
        ⟨fun hh => absurd hh h55, fun hh => absurd hh h55, fun _ => ⟨rfl, rfl, rfl⟩⟩,
        ⟨fun _ => ⟨Nat.zero_or _, rfl⟩, fun hh => absurd hh hall, fun hh => absurd hh hall,
         fun hh => absurd hh hall, fun hh => absurd hh hall, fun hh => absurd hh hall,
         fun hh => absurd hh hall, fun _ => ⟨rfl, rfl, rfl, rfl⟩⟩, rfl, rfl, rfl⟩

/-- C11: `flags == 0` exactly when all variances, the flux and the size are positive and neither
shape sum is exactly zero; then every derived quantity is finite. -/
theorem C11_flags_zero_iff (n : ℕ) (sums : List Fl) (cov : CovMat) (c : ℕ → ℕ → ℝ) (m1 m2 mt mf : ℝ)
    (h : MomInput n sums cov c m1 m2 mt mf) (nrm : Option Fl) (r : MomRes)
    (hr : makeMomResult sums cov nrm = .ok r) :
    (r.flags = 0 ↔ (∀ i < n, 0 < c i i) ∧ 0 < mf ∧ 0 < mt ∧ m1 ≠ 0 ∧ m2 ≠ 0) ∧
    (r.flags = 0 → r.fluxFlags = 0 ∧ r.TFlags = 0 ∧ r.flux.isFinite ∧ r.fluxErr.isFinite ∧
      r.s2n.isFinite ∧ r.T.isFinite ∧ r.Terr.isFinite ∧ r.e1.isFinite ∧ r.e2.isFinite ∧
      r.eErr.1.isFinite ∧ r.eErr.2.isFinite) := by
  obtain ⟨r', hr', hf, ht, hs, -⟩ := C11_decision_table n sums cov c m1 m2 mt mf h nrm
  rw [hr] at hr'
  obtain rfl : r = r' := by injection hr'
  have hn5 : 5 < n := by rcases h.hn with e | e <;> omega
  have iff : r.flags = 0 ↔ (∀ i < n, 0 < c i i) ∧ 0 < mf ∧ 0 < mt ∧ m1 ≠ 0 ∧ m2 ≠ 0 := by
    constructor
    · intro h0
      by_contra hcon
      by_cases a : ∀ i < n, 0 < c i i
      · by_cases b : 0 < mf
        · by_cases d : 0 < mt
          · by_cases e : m1 = 0 ∨ m2 = 0
            · rw [(hs.shapeVar a b d e).1] at h0; exact absurd h0 (by decide)
            · push Not at e; exact hcon ⟨a, b, d, e.1, e.2⟩
          · rw [hs.size a b (not_lt.1 d)] at h0; exact absurd h0 (by decide)
        · rw [hs.flux a (not_lt.1 b)] at h0; exact absurd h0 (by decide)
      · rw [(hs.var a).1] at h0; exact absurd h0 (by decide)
    · rintro ⟨a, b, d, e, f⟩; exact (hs.good a b d e f).1
  refine ⟨iff, fun h0 => ?_⟩
  obtain ⟨a, b, d, e, f⟩ := iff.1 h0
  have h55 := a 5 hn5
  have h44 := a 4 (by omega)
  obtain ⟨f1, f2, f3⟩ := hf.good h55
  obtain ⟨t1, t2, t3, -⟩ := ht.good h55 h44 b
  obtain ⟨s1, s2, -⟩ := hs.shape a b d
  have s4 := (hs.good a b d e f).2
  refine ⟨f1, t1, ?_, ?_, ?_, ?_, ?_, ?_, ?_, ?_, ?_⟩
  · rw [hf.flux]; trivial
  · rw [f2]; trivial
  · rw [f3]; trivial
  · rw [t2]; trivial
  · rw [t3 d.ne']; trivial
  · rw [s1]; trivial
  · rw [s2]; trivial
  · rw [s4]; trivial
  · rw [s4]; trivial

/-- C11: wrong input sizes raise `ValueError`. -/
theorem C11_bad_sizes (sums : List Fl) (cov : CovMat) (nrm : Option Fl)
    (h : (sums.length ≠ 6 ∧ sums.length ≠ 17) ∨
      ((cov.n, cov.m) ≠ (6, 6) ∧ (cov.n, cov.m) ≠ (17, 17))) :
    makeMomResult sums cov nrm = .error .value := by
  unfold makeMomResult
  by_cases h1 : sums.length ≠ 6 ∧ sums.length ≠ 17
  · rw [if_pos h1]
  · rw [if_neg h1, if_pos (h.resolve_left h1)]

/-- C11: every named moment whose index exists is present, in table order; `MF`/`M00` are the flux
sum, the others are the sum divided by the flux sum, or NaN when the flux sum is not positive. -/
theorem C11_named_moments (n : ℕ) (sums : List Fl) (cov : CovMat) (c : ℕ → ℕ → ℝ) (m1 m2 mt mf : ℝ)
    (h : MomInput n sums cov c m1 m2 mt mf) (nrm : Option Fl) (r : MomRes)
    (hr : makeMomResult sums cov nrm = .ok r) :
    r.named.map (fun x => (x.1, x.2.1))
      = (momentsNameMap.filter (fun p => decide (p.2 < n))).map (fun p =>
          (p.1, if p.1 = "MF" ∨ p.1 = "M00" then .fin mf
                else if 0 < mf then sums.getD p.2 .nan / .fin mf else .nan)) := by
  obtain ⟨named, hnamed, he⟩ := addMomentsByName_ok sums cov (by
    rw [h.hlen, h.hcn]) momentsNameMap
  have : r.named = named := by
    unfold makeMomResult at hr
    rw [hnamed] at hr
    split_ifs at hr
    cases h1 : momSize sums cov with
    | error e => rw [h1] at hr; simp [Except.bind] at hr
    | ok tp =>
      rw [h1] at hr
      simp only [Except.bind] at hr
      cases h2 : momShape sums cov (momBase sums cov nrm (momFlux sums cov) tp) with
      | error e => rw [h2] at hr; simp at hr
      | ok r' =>
        rw [h2] at hr
        injection hr with hr
        rw [← hr]
  rw [this, he, h.hlen]
  apply List.map_congr_left
  intro p _
  unfold namedVal
  rw [h.h5]
  simp only [Fl.pos_fin]

/-- C11 counterexample (code as it is): an exactly round object with perfectly good flux, size and
variances is flagged `NONPOS_SHAPE_VAR` and has NaN shape errors. -/
theorem C11_round_object_flagged (n : ℕ) (sums : List Fl) (cov : CovMat) (c : ℕ → ℕ → ℝ) (m2 mt mf : ℝ)
    (h : MomInput n sums cov c 0 m2 mt mf) (hv : ∀ i < n, 0 < c i i) (hf : 0 < mf) (ht : 0 < mt) :
    ∃ r, makeMomResult sums cov none = .ok r ∧ r.flags = Flags.NONPOS_SHAPE_VAR ∧
      r.eErr = (.nan, .nan) ∧ r.e1 = .fin 0 := by
  obtain ⟨r, hr, -, -, hs, -⟩ := C11_decision_table n sums cov c 0 m2 mt mf h none
  obtain ⟨a, b⟩ := hs.shapeVar hv hf ht (Or.inl rfl)
  exact ⟨r, hr, a, b, by rw [(hs.shape hv hf ht).1]; simp⟩

/-- C11 counterexample (code as it is): with a size sum of exactly zero `T_flags` is 0 although
`T_err` is NaN. -/
theorem C11_zero_T_error_nan (n : ℕ) (sums : List Fl) (cov : CovMat) (c : ℕ → ℕ → ℝ) (m1 m2 mf : ℝ)
    (h : MomInput n sums cov c m1 m2 0 mf) (hv : 0 < c 5 5) (hv4 : 0 < c 4 4) (hf : 0 < mf) :
    ∃ r, makeMomResult sums cov none = .ok r ∧ r.TFlags = 0 ∧ r.Terr = .nan := by
  obtain ⟨r, hr, -, ht, -, -⟩ := C11_decision_table n sums cov c m1 m2 0 mf h none
  obtain ⟨a, -, -, b⟩ := ht.good hv hv4 hf
  exact ⟨r, hr, a, b rfl⟩

/-- Concrete inputs: six moments with NaN centroids. -/
example : ∃ cov c, MomInput 6 [.nan, .nan, .fin 0.3, .fin 0.1, .fin 4, .fin 10] cov c 0.3 0.1 4 10 ∧
    ∀ i < 6, 0 < c i i :=
  ⟨⟨6, 6, fun i j => .fin (if i = j then 1 else 0)⟩, fun i j => if i = j then 1 else 0,
    ⟨Or.inl rfl, rfl, rfl, rfl, rfl, rfl, rfl, rfl, fun _ _ _ _ => rfl⟩, by simp⟩

/-! ## C12 -/

/-- C12: a non-positive smoothing scale returns the result itself. -/
theorem C12_no_regularisation (res : MomRes) (f : ℝ) (h : f ≤ 0) :
    regularizeMomShapes res f = .ok res := by
  unfold regularizeMomShapes; rw [if_neg (not_lt.2 h)]

theorem dot_raw (Treg : ℝ) (v : ℕ → Fl) (w : ℕ → ℝ) (h : ∀ i < 6, v i = .fin (w i)) (i : ℕ)
    (hi : i < 6) :
    dot6 (amat Treg i) v = .fin (if i = 4 then w 4 + Treg * w 5 else w i) := by
  unfold dot6
  rw [h 0 (by omega), h 1 (by omega), h 2 (by omega), h 3 (by omega), h 4 (by omega),
    h 5 (by omega)]
  have : i = 0 ∨ i = 1 ∨ i = 2 ∨ i = 3 ∨ i = 4 ∨ i = 5 := by omega
  rcases this with rfl | rfl | rfl | rfl | rfl | rfl <;> simp [amat]

theorem dot_comm6 (f g : ℕ → Fl) (w z : ℕ → ℝ) (h : ∀ i < 6, f i = .fin (w i))
    (h' : ∀ i < 6, g i = .fin (z i)) : dot6 f g = dot6 g f := by
  unfold dot6
  rw [h 0 (by omega), h 1 (by omega), h 2 (by omega), h 3 (by omega), h 4 (by omega),
    h 5 (by omega), h' 0 (by omega), h' 1 (by omega), h' 2 (by omega), h' 3 (by omega),
    h' 4 (by omega), h' 5 (by omega)]
  simp only [Fl.fin_mul, Fl.fin_add]
  congr 1; ring

/-- Spec: covariance of the regularised sums `(.., MT + Treg MF, MF)`. -/
def regCov (Treg : ℝ) (c : ℕ → ℕ → ℝ) (i j : ℕ) : ℝ :=
  let d := fun i j => if j = 4 then c i 4 + Treg * c i 5 else c i j
  if i = 4 then d 4 j + Treg * d 5 j else d i j

theorem regCov_eq (Treg : ℝ) (g : ℕ → ℕ → Fl) (c : ℕ → ℕ → ℝ)
    (hg : ∀ i < 6, ∀ j < 6, g i j = .fin (c i j)) (i j : ℕ) (hi : i < 6) (hj : j < 6) :
    dot6 (fun k => amat Treg i k) (fun k => dot6 (fun l => g k l) (fun l => amat Treg j l))
      = .fin (regCov Treg c i j) := by
  have inner : ∀ k < 6, dot6 (fun l => g k l) (fun l => amat Treg j l)
      = .fin (if j = 4 then c k 4 + Treg * c k 5 else c k j) := by
    intro k hk
    rw [dot_comm6 _ _ (fun l => c k l)
      (fun l => if j = l then 1 else if j = 4 ∧ l = 5 then Treg else 0) (fun l hl => hg k hk l hl)]
    · exact dot_raw Treg (fun l => g k l) (fun l => c k l) (fun l hl => hg k hk l hl) j hj
    · intro l _; unfold amat; split_ifs <;> rfl
  exact dot_raw Treg _ (fun k => if j = 4 then c k 4 + Treg * c k 5 else c k j) inner i hi

/-- C12: regularising a six-moment result with scale `f > 0` (`Treg = fwhm_to_T(f)`, a positive
number): the flux, its error, s2n and flags are those of the original sums, `T`, `T_err` and
`T_flags` are kept, earlier failure flags are never cleared, and when the regularised size is
positive the shapes are `M/(T + Treg)` in units of the flux. -/
theorem C12_regularised (sums : List Fl) (cov : CovMat) (c : ℕ → ℕ → ℝ) (m1 m2 mt mf f : ℝ)
    (h : MomInput 6 sums cov c m1 m2 mt mf) (hc0 : sums.getD 0 .nan = .nan ∨ ∃ x, sums.getD 0 .nan = .fin x)
    (hc1 : sums.getD 1 .nan = .nan ∨ ∃ x, sums.getD 1 .nan = .fin x) (hf : 0 < f)
    (res : MomRes) (hres : makeMomResult sums cov none = .ok res) :
    ∃ r, regularizeMomShapes res f = .ok r ∧ FluxPart (c 5 5) mf r ∧
      r.flux = res.flux ∧ r.fluxErr = res.fluxErr ∧ r.s2n = res.s2n ∧ r.fluxFlags = res.fluxFlags ∧
      r.T = res.T ∧ r.Terr = res.Terr ∧ r.TFlags = res.TFlags ∧
      (∀ k, res.flags.testBit k = true → r.flags.testBit k = true) ∧
      ((∀ i < 6, 0 < regCov (fwhmToT f) c i i) → 0 < mf → 0 < mt + fwhmToT f * mf →
        r.e1 = .fin ((m1 / mf) / (mt / mf + fwhmToT f)) ∧
        r.e2 = .fin ((m2 / mf) / (mt / mf + fwhmToT f)) ∧
        (m1 ≠ 0 → m2 ≠ 0 → r.flags = res.flags)) := by
  obtain ⟨res', hres', hfp, htp, hsp, hsums, hcov, -⟩ :=
    C11_decision_table 6 sums cov c m1 m2 mt mf h none
  rw [hres] at hres'
  obtain rfl : res = res' := by injection hres'
  set Treg := fwhmToT f with hTreg
  -- the regularised sums
  set reg : List Fl := (List.range 6).map fun i =>
        let d := dot6 (amat Treg i) (fun i =>
          let x := sums.getD i Fl.nan
          if i < 2 then nanToZero x else x)
        if i < 2 ∧ (sums.getD i Fl.nan).isNan then Fl.nan else d with hreg
  obtain ⟨x0, hx0⟩ : ∃ x, nanToZero (sums.getD 0 Fl.nan) = .fin x := by
    rcases hc0 with e | ⟨x, e⟩ <;> rw [e]
    · exact ⟨0, by simp [nanToZero, Fl.isNan]⟩
    · exact ⟨x, by simp [nanToZero, Fl.isNan]⟩
  obtain ⟨x1, hx1⟩ : ∃ x, nanToZero (sums.getD 1 Fl.nan) = .fin x := by
    rcases hc1 with e | ⟨x, e⟩ <;> rw [e]
    · exact ⟨0, by simp [nanToZero, Fl.isNan]⟩
    · exact ⟨x, by simp [nanToZero, Fl.isNan]⟩
  set w : ℕ → ℝ := fun i => [x0, x1, m1, m2, mt, mf].getD i 0 with hw
  have hraw : ∀ i < 6, (fun i =>
          let x := sums.getD i Fl.nan
          if i < 2 then nanToZero x else x) i = Fl.fin (w i) := by
    intro i hi
    have : i = 0 ∨ i = 1 ∨ i = 2 ∨ i = 3 ∨ i = 4 ∨ i = 5 := by omega
    rcases this with rfl | rfl | rfl | rfl | rfl | rfl
    · exact hx0
    · exact hx1
    · exact h.h2
    · exact h.h3
    · exact h.h4
    · exact h.h5
  have hdot := dot_raw Treg _ w hraw
  set rc : CovMat := ⟨6, 6, fun i j => dot6 (fun k => amat Treg i k)
      (fun k => dot6 (fun l => cov.get k l) (fun l => amat Treg j l))⟩ with hrc
  have hin : MomInput 6 reg rc (regCov Treg c) m1 m2 (mt + Treg * mf) mf := by
    refine ⟨Or.inl rfl, by simp [hreg], ?_, ?_, ?_, ?_, rfl, rfl,
      fun i hi j hj => regCov_eq Treg cov.get c h.hcov i j hi hj⟩
    · have := hdot 2 (by omega); simp at this; simp [hreg, this, hw]
    · have := hdot 3 (by omega); simp at this; simp [hreg, this, hw]
    · have := hdot 4 (by omega); simp at this; simp [hreg, this, hw]
    · have := hdot 5 (by omega); simp at this; simp [hreg, this, hw]
  obtain ⟨mr, hmr, gfp, gtp, gsp, -⟩ :=
    C11_decision_table 6 reg rc (regCov Treg c) m1 m2 (mt + Treg * mf) mf hin none
  have hreg55 : regCov Treg c 5 5 = c 5 5 := by simp [regCov]
  rw [hreg55] at gfp
  refine ⟨{ mr with T := res.T, Terr := res.Terr, TFlags := res.TFlags,
                     flags := mr.flags ||| res.flags }, ?_, ?_, ?_, ?_, ?_, ?_, rfl, rfl, rfl, ?_, ?_⟩
  · unfold regularizeMomShapes
    rw [if_pos hf, if_neg (by rw [hsums, h.hlen, hcov, h.hcn, h.hcm]; simp)]
    simp only [hsums, hcov]
    have e := hmr
    simp only [hreg, hrc] at e
    rw [e]
    rfl
  · exact ⟨gfp.flux, gfp.good, gfp.bad⟩
  · rw [hfp.flux]; exact gfp.flux
  · rcases lt_or_ge 0 (c 5 5) with h5 | h5
    · rw [(hfp.good h5).2.1]; exact (gfp.good h5).2.1
    · rw [(hfp.bad h5).2.1]; exact (gfp.bad h5).2.1
  · rcases lt_or_ge 0 (c 5 5) with h5 | h5
    · rw [(hfp.good h5).2.2]; exact (gfp.good h5).2.2
    · rw [(hfp.bad h5).2.2]; exact (gfp.bad h5).2.2
  · rcases lt_or_ge 0 (c 5 5) with h5 | h5
    · rw [(hfp.good h5).1]; exact (gfp.good h5).1
    · rw [(hfp.bad h5).1]; exact (gfp.bad h5).1
  · intro k hk
    simp [Nat.testBit_or, hk]
  · intro hv hmf hmt
    obtain ⟨e1, e2, -⟩ := gsp.shape hv hmf hmt
    have hden : mt / mf + Treg ≠ 0 := by
      have : mt / mf + Treg = (mt + Treg * mf) / mf := by field_simp
      rw [this]; exact (div_pos hmt hmf).ne'
    refine ⟨?_, ?_, ?_⟩
    · simp only
      rw [e1]; congr 1
      have : mt / mf + Treg = (mt + Treg * mf) / mf := by field_simp
      rw [this, div_div_div_cancel_right₀ hmf.ne']
    · simp only
      rw [e2]; congr 1
      have : mt / mf + Treg = (mt + Treg * mf) / mf := by field_simp
      rw [this, div_div_div_cancel_right₀ hmf.ne']
    · intro h1 h2
      simp only
      rw [(gsp.good hv hmf hmt h1 h2).1, Nat.zero_or]

/-- With unit covariance the regularised variances are positive, as `C12_regularised` needs. -/
example (Treg : ℝ) : ∀ i < 6, 0 < regCov Treg (fun i j => if i = j then 1 else 0) i i := by
  intro i hi
  have : i = 0 ∨ i = 1 ∨ i = 2 ∨ i = 3 ∨ i = 4 ∨ i = 5 := by omega
  rcases this with rfl | rfl | rfl | rfl | rfl | rfl <;> simp [regCov]
  nlinarith [mul_self_nonneg Treg]

/-- C12: regularising a 17-moment result is not supported: `ValueError` for every positive scale. -/
theorem C12_seventeen_moments (res : MomRes) (f : ℝ) (hf : 0 < f) (h : res.sums.length = 17) :
    regularizeMomShapes res f = .error .value := by
  unfold regularizeMomShapes
  rw [if_pos hf, if_pos]
  left; rw [h]; decide

/-- C12: the argument is left as it was when the call returns. -/
theorem C12_argument_kept (res r : MomRes) (f : ℝ) (h : regularizeMomShapes res f = .ok r) : regSumsLeft res f = res.sums := by
  unfold regSumsLeft
  rw [if_neg]
  rintro ⟨hf, h6⟩
  unfold regularizeMomShapes at h
  rw [if_pos hf, if_pos (Or.inl h6)] at h
  cases h

/-- C12 (defect of the unchanged code): the call that raises for seventeen moments leaves zeros in place of centroid sums that
were NaN, and everything else as it was. -/
theorem C12_argument_spoiled (res : MomRes) (f : ℝ) (hf : 0 < f) (h : res.sums.length = 17) :
    regularizeMomShapes res f = .error .value ∧ (regSumsLeft res f).length = 17 ∧
    ∀ i < 17, (i < 2 ∧ res.sums.getD i .nan = .nan → (regSumsLeft res f).getD i .nan = .fin 0) ∧
      (¬ (i < 2 ∧ res.sums.getD i .nan = .nan) → (regSumsLeft res f).getD i .nan = res.sums.getD i .nan) := by
  refine ⟨C12_seventeen_moments res f hf h, ?_⟩
  unfold regSumsLeft
  rw [if_pos ⟨hf, by rw [h]; decide⟩, h]
  refine ⟨by simp, fun i hi => ?_⟩
  have e : ((List.range 17).map fun i =>
      let x := res.sums.getD i Fl.nan
      if i < 2 then nanToZero x else x).getD i .nan = if i < 2 then nanToZero (res.sums.getD i .nan) else res.sums.getD i .nan := by
    rw [List.getD_eq_getElem?_getD, List.getElem?_map, List.getElem?_range hi]
    rfl
  rw [e]
  constructor
  · rintro ⟨h1, h2⟩
    rw [if_pos h1, h2]
    simp [nanToZero, Fl.isNan]
  · intro hn
    split_ifs with h1
    · unfold nanToZero
      rcases hx : res.sums.getD i .nan with _ | _ | _ | x
      · exact absurd ⟨h1, hx⟩ hn
      all_goals simp [Fl.isNan]
    · rfl

/-- A seventeen-moment result without centroid sums. -/
example (r : MomRes) : ∃ res : MomRes, res.sums.length = 17 ∧ res.sums.getD 0 .nan = .nan ∧ res.sums.getD 5 .nan = .fin 1 :=
  ⟨{ r with sums := .nan :: .nan :: List.replicate 15 (.fin 1) }, rfl, rfl, rfl⟩

end Ngmix.Props
