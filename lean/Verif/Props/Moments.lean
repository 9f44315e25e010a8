import Verif.Proof.Ellip
import Verif.Model.Moments
import Verif.Spec.Moments
import Mathlib.Analysis.SpecialFunctions.Log.Deriv
import Mathlib.Analysis.Complex.ExponentialBounds

/-!
# Properties C07-C10: sizes, moments and their shears
-/

namespace Ngmix.Props

open Ngmix Ngmix.Spec

/-! ## C07 round sizes -/

/-- C07: `get_T` and `get_Tround` are mutually inverse inside the disk and `Tround` is
`T * round factor`. -/
theorem C07_T_Tround_inverse (T g1 g2 : ℝ) (h : InDisk g1 g2) :
    getT (getTround T g1 g2) g1 g2 = T ∧ getTround (getT T g1 g2) g1 g2 = T ∧
    getTround T g1 g2 = T * getRoundFactor g1 g2 := by
  unfold InDisk at h
  have h1 : 1 - (g1 ^ 2 + g2 ^ 2) ≠ 0 := by linarith
  have h2 : 1 + (g1 ^ 2 + g2 ^ 2) ≠ 0 := by positivity
  unfold getT getTround getRoundFactor
  refine ⟨?_, ?_, ?_⟩ <;> field_simp

/-- C07: making an object round keeps the determinant of its second-moment matrix: the
determinant of the moments of `(g,T)` is `(Tround/2)^2`. -/
theorem C07_Tround_preserves_det (T g1 g2 : ℝ) (h : InDisk g1 g2) :
    ∃ irr irc icc, g2mom g1 g2 T = .ok (irr, irc, icc) ∧
      irr * icc - irc ^ 2 = (getTround T g1 g2 / 2) ^ 2 := by
  unfold g2mom
  rw [g1g2ToE1E2_closed h]
  refine ⟨_, _, _, rfl, ?_⟩
  have h2 : 1 + (g1 ^ 2 + g2 ^ 2) ≠ 0 := by positivity
  simp only [getTround]
  field_simp
  ring

example : InDisk 0.5 0.5 := by unfold InDisk; norm_num

/-! ## C08 moments and ellipticities -/

/-- C08: `mom2e` inverts `e2mom` for nonzero size, and `e2mom` inverts `mom2e` for nonzero trace. -/
theorem C08_e2mom_mom2e (e1 e2 T irr irc icc : ℝ) :
    (T ≠ 0 → mom2e (e2mom e1 e2 T).1 (e2mom e1 e2 T).2.1 (e2mom e1 e2 T).2.2 = .ok (e1, e2, T)) ∧
    (irr + icc ≠ 0 → ∃ r, mom2e irr irc icc = .ok r ∧ e2mom r.1 r.2.1 r.2.2 = (irr, irc, icc)) ∧
    (irr + icc = 0 → mom2e irr irc icc = .error .zeroDiv) := by
  refine ⟨?_, ?_, fun h => by simp [mom2e, h]⟩
  · intro hT
    have hs : (1 - e1) * T / 2 + (1 + e1) * T / 2 = T := by ring
    simp only [mom2e, e2mom, hs, hT, if_false]
    congr 2
    · field_simp; ring
    · congr 1
      field_simp
  · intro hT
    simp only [mom2e, hT, if_false]
    refine ⟨_, rfl, ?_⟩
    simp only [e2mom]
    congr 1
    · field_simp; ring
    · congr 1
      · field_simp
      · field_simp; ring

/-- C08: `e2mom(e,T)` is positive definite exactly when `|e|<1` and `T>0`, its trace is `T`. -/
theorem C08_e2mom_posdef (e1 e2 T : ℝ) :
    (PosDef2 (e2mom e1 e2 T).1 (e2mom e1 e2 T).2.1 (e2mom e1 e2 T).2.2 ↔ InDisk e1 e2 ∧ 0 < T) ∧
    (e2mom e1 e2 T).1 + (e2mom e1 e2 T).2.2 = T := by
  constructor
  · unfold PosDef2 InDisk e2mom
    simp only
    have hdet : (1 - e1) * T / 2 * ((1 + e1) * T / 2) - (e2 * T / 2) ^ 2
        = T ^ 2 / 4 * (1 - (e1 ^ 2 + e2 ^ 2)) := by ring
    rw [hdet]
    constructor
    · rintro ⟨h1, h2, h3⟩
      have hT : 0 < T := by nlinarith
      refine ⟨?_, hT⟩
      have : 0 < T ^ 2 / 4 := by positivity
      have := (mul_pos_iff_of_pos_left this).1 h3
      linarith
    · rintro ⟨h1, h2⟩
      have h3 : e1 ^ 2 < 1 := by nlinarith [sq_nonneg e2]
      have h4 : -1 < e1 ∧ e1 < 1 := abs_lt.1 (by rwa [← sq_lt_one_iff_abs_lt_one])
      refine ⟨by nlinarith [mul_pos (sub_pos.2 h4.2) h2], by nlinarith [mul_pos (by linarith : 0 < 1 + e1) h2], ?_⟩
      exact mul_pos (by positivity) (by linarith)
  · simp only [e2mom]; ring

theorem det_eq_e (irr irc icc : ℝ) (hT : irr + icc ≠ 0) :
    irr * icc - irc ^ 2 = (irr + icc) ^ 2 / 4
      * (1 - (((icc - irr) / (irr + icc)) ^ 2 + (2 * irc / (irr + icc)) ^ 2)) := by
  field_simp; ring

/-- C08: `mom2g` raises `GMixRangeError` exactly when the moment matrix has non-positive
determinant (nonzero trace), `ZeroDivisionError` on zero trace, and otherwise returns the `g`
from which `g2mom` rebuilds the same moments. -/
theorem C08_mom2g (irr irc icc : ℝ) :
    (irr + icc = 0 → mom2g irr irc icc = .error .zeroDiv) ∧
    (irr + icc ≠ 0 → irr * icc - irc ^ 2 ≤ 0 → mom2g irr irc icc = .error .gmixRange) ∧
    (irr + icc ≠ 0 → 0 < irr * icc - irc ^ 2 →
      ∃ g1 g2, mom2g irr irc icc = .ok (g1, g2, irr + icc) ∧ InDisk g1 g2 ∧
        g2mom g1 g2 (irr + icc) = .ok (irr, irc, icc)) := by
  refine ⟨?_, ?_, ?_⟩
  · intro h; unfold mom2g mom2e; simp [h]; rfl
  · intro hT hdet
    have hd := det_eq_e irr irc icc hT
    unfold mom2g mom2e
    simp only [hT, if_false]
    have hT2 : 0 < (irr + icc) ^ 2 / 4 := by positivity
    have : 1 ≤ ((icc - irr) / (irr + icc)) ^ 2 + (2 * irc / (irr + icc)) ^ 2 := by
      by_contra hc
      have := mul_pos hT2 (sub_pos.2 (not_le.1 hc))
      linarith
    have he : e1e2ToG1G2 ((icc - irr) / (irr + icc)) (2 * irc / (irr + icc)) = .error .gmixRange := by
      unfold e1e2ToG1G2
      simp [(sqrt_ge_one_iff _ _).2 (not_lt.2 this)]
    show (do let g ← e1e2ToG1G2 ((icc - irr) / (irr + icc)) (2 * irc / (irr + icc));
             Except.ok (g.1, g.2, irr + icc)) = _
    rw [he]; rfl
  · intro hT hdet
    have hd := det_eq_e irr irc icc hT
    have hT2 : 0 < (irr + icc) ^ 2 / 4 := by positivity
    have hin : InDisk ((icc - irr) / (irr + icc)) (2 * irc / (irr + icc)) := by
      unfold InDisk
      rw [hd] at hdet
      have := (mul_pos_iff_of_pos_left hT2).1 hdet
      linarith
    have hegd := e1e2ToG1G2_closed hin
    set e1 := (icc - irr) / (irr + icc) with he1
    set e2 := 2 * irc / (irr + icc) with he2
    set q := Real.sqrt (1 - (e1 ^ 2 + e2 ^ 2)) with hq
    unfold InDisk at hin
    have hq0 : 0 < q := Real.sqrt_pos.2 (by linarith)
    have hq2 : q ^ 2 = 1 - (e1 ^ 2 + e2 ^ 2) := Real.sq_sqrt (by linarith)
    have hgd : InDisk (e1 / (1 + q)) (e2 / (1 + q)) := by
      unfold InDisk
      rw [div_pow e1, div_pow e2, ← add_div, div_lt_one (by positivity)]
      nlinarith
    refine ⟨e1 / (1 + q), e2 / (1 + q), ?_, hgd, ?_⟩
    · unfold mom2g mom2e
      simp only [hT, if_false]
      show (do let g ← e1e2ToG1G2 e1 e2; Except.ok (g.1, g.2, irr + icc)) = _
      rw [hegd]; rfl
    · unfold g2mom
      rw [g1g2ToE1E2_closed hgd]
      have h3 : 1 + ((e1 / (1 + q)) ^ 2 + (e2 / (1 + q)) ^ 2) = 2 / (1 + q) := by
        rw [div_pow e1, div_pow e2, ← add_div, show e1 ^ 2 + e2 ^ 2 = 1 - q ^ 2 by linarith]
        field_simp; ring
      rw [h3]
      have a1 : 2 * (e1 / (1 + q)) / (2 / (1 + q)) = e1 := by field_simp
      have a2 : 2 * (e2 / (1 + q)) / (2 / (1 + q)) = e2 := by field_simp
      rw [a1, a2]
      show Except.ok ((1 - e1) * (irr + icc) / 2, e2 * (irr + icc) / 2, (1 + e1) * (irr + icc) / 2) = _
      congr 2
      · rw [he1]; field_simp; ring
      · congr 1
        · rw [he2]; field_simp
        · rw [he1]; field_simp; ring

/-- C08: `mom2g` inverts `g2mom` for shapes in the disk and nonzero size. -/
theorem C08_g2mom_mom2g (g1 g2 T : ℝ) (h : InDisk g1 g2) (hT : T ≠ 0) :
    (do let m ← g2mom g1 g2 T; mom2g m.1 m.2.1 m.2.2) = .ok (g1, g2, T) := by
  unfold g2mom
  rw [g1g2ToE1E2_closed h]
  set p : ℝ := 1 + (g1 ^ 2 + g2 ^ 2) with hp
  have hp0 : 0 < p := by positivity
  show mom2g ((1 - 2 * g1 / p) * T / 2) (2 * g2 / p * T / 2) ((1 + 2 * g1 / p) * T / 2) = _
  unfold mom2g mom2e
  have hs : (1 - 2 * g1 / p) * T / 2 + (1 + 2 * g1 / p) * T / 2 = T := by ring
  simp only [hs, hT, if_false]
  have a1 : ((1 + 2 * g1 / p) * T / 2 - (1 - 2 * g1 / p) * T / 2) / T = 2 * g1 / p := by
    field_simp; ring
  have a2 : 2 * (2 * g2 / p * T / 2) / T = 2 * g2 / p := by field_simp
  have := g1g2ToE1E2_closed h
  show (do let g ← e1e2ToG1G2 (((1 + 2 * g1 / p) * T / 2 - (1 - 2 * g1 / p) * T / 2) / T)
              (2 * (2 * g2 / p * T / 2) / T)
           Except.ok (g.1, g.2, T)) = _
  rw [a1, a2]
  unfold InDisk at h
  have hin : InDisk (2 * g1 / p) (2 * g2 / p) := by
    unfold InDisk
    rw [div_pow, div_pow, ← add_div, div_lt_one (by positivity)]
    nlinarith [mul_pos (sub_pos.2 h) (sub_pos.2 h)]
  rw [e1e2ToG1G2_closed hin]
  have h3 : 1 - ((2 * g1 / p) ^ 2 + (2 * g2 / p) ^ 2) = ((1 - (g1 ^ 2 + g2 ^ 2)) / p) ^ 2 := by
    rw [hp]; field_simp; ring
  rw [h3, Real.sqrt_sq (div_nonneg (by linarith) hp0.le)]
  have h4 : 1 + (1 - (g1 ^ 2 + g2 ^ 2)) / p = 2 / p := by rw [hp]; field_simp; ring
  rw [h4]
  show Except.ok (2 * g1 / p / (2 / p), 2 * g2 / p / (2 / p), T) = _
  congr 2
  · field_simp
  · congr 1; field_simp

/-- C08: `moms_to_e1e2` raises `GMixRangeError` exactly when `T <= 0`, and otherwise returns
`M/T`. -/
theorem C08_moms_to_e1e2 (M1 M2 T : ℝ) :
    (T ≤ 0 ↔ momsToE1E2 M1 M2 T = .error .gmixRange) ∧
    (0 < T → momsToE1E2 M1 M2 T = .ok (M1 / T, M2 / T)) := by
  unfold momsToE1E2
  constructor
  · constructor
    · intro h; simp [h]
    · intro h; by_contra hc; simp [hc] at h
  · intro h
    simp only [not_le.2 h, if_false]
    congr 2 <;> ring

example : ∃ irr irc icc : ℝ, irr + icc ≠ 0 ∧ 0 < irr * icc - irc ^ 2 ∧ irc ≠ 0 :=
  ⟨2, 0.5, 1, by norm_num⟩

/-! ## C09 size conversions -/

/-- C09: sigma/fwhm/r50 converters are inverse linear maps. -/
theorem C09_linear_inverses (x : ℝ) :
    fwhmToSigma (sigmaToFwhm x) = x ∧ sigmaToFwhm (fwhmToSigma x) = x ∧
    r50ToSigma (sigmaToR50 x) = x ∧ sigmaToR50 (r50ToSigma x) = x := by
  unfold fwhmToSigma sigmaToFwhm r50ToSigma sigmaToR50 fwhmToSigma sigmaToFwhm fwhmFac
  refine ⟨?_, ?_, ?_, ?_⟩ <;> field_simp

/-- C09: on nonnegative sizes, `T` conversions are inverse to each other. -/
theorem C09_T_inverses (x : ℝ) (hx : 0 ≤ x) :
    fwhmToT (TToFwhm x) = x ∧ TToFwhm (fwhmToT x) = x ∧
    r50ToT (TToR50 x) = x ∧ TToR50 (r50ToT x) = x := by
  obtain ⟨a1, a2, a3, a4⟩ := C09_linear_inverses (Real.sqrt (x / 2))
  obtain ⟨b1, b2, b3, b4⟩ := C09_linear_inverses x
  have hs : 2 * Real.sqrt (x / 2) ^ 2 = x := by
    rw [Real.sq_sqrt (by positivity)]; ring
  have hf : 0 ≤ fwhmToSigma x := by unfold fwhmToSigma fwhmFac; positivity
  have hr : 0 ≤ r50ToSigma x := by
    show 0 ≤ 2 * x / fwhmFac
    unfold fwhmFac; positivity
  have key : ∀ y : ℝ, 0 ≤ y → Real.sqrt (2 * y ^ 2 / 2) = y := by
    intro y hy
    rw [show 2 * y ^ 2 / 2 = y ^ 2 by ring, Real.sqrt_sq hy]
  refine ⟨?_, ?_, ?_, ?_⟩
  · simp only [fwhmToT, TToFwhm, a1, hs]
  · simp only [fwhmToT, TToFwhm, key _ hf, b2]
  · simp only [r50ToT, TToR50, a3, hs]
  · simp only [r50ToT, TToR50, key _ hr, b4]

/-- C09: `T = 2 sigma^2` in every route, `r50 = fwhm/2`, and the conversions are strictly
monotone on nonnegative sizes. -/
theorem C09_consistent (x y : ℝ) :
    fwhmToT x = 2 * fwhmToSigma x ^ 2 ∧ r50ToT x = fwhmToT (2 * x) ∧
    sigmaToR50 x = sigmaToFwhm x / 2 ∧
    (0 ≤ x → x < y → fwhmToT x < fwhmToT y ∧ TToFwhm x < TToFwhm y ∧
      r50ToT x < r50ToT y ∧ TToR50 x < TToR50 y ∧ sigmaToFwhm x < sigmaToFwhm y) ∧
    (x < y → fwhmToSigma x < fwhmToSigma y ∧ sigmaToFwhm x < sigmaToFwhm y ∧ r50ToSigma x < r50ToSigma y ∧
      sigmaToR50 x < sigmaToR50 y) := by
  refine ⟨rfl, rfl, rfl, ?_, fun h => ?_⟩
  swap
  · have hf : 0 < fwhmFac := by unfold fwhmFac; norm_num
    refine ⟨div_lt_div_of_pos_right h hf, mul_lt_mul_of_pos_right h hf, ?_, ?_⟩
    · exact div_lt_div_of_pos_right (by linarith) hf
    · exact div_lt_div_of_pos_right (mul_lt_mul_of_pos_right h hf) two_pos
  intro hx hxy
  have hf : 0 < fwhmFac := by unfold fwhmFac; norm_num
  have mono : ∀ a b : ℝ, 0 ≤ a → a < b → fwhmToT a < fwhmToT b := by
    intro a b ha hab
    have h1 : fwhmToSigma a < fwhmToSigma b := div_lt_div_of_pos_right hab hf
    have h0 : 0 ≤ fwhmToSigma a := div_nonneg ha hf.le
    simp only [fwhmToT]
    nlinarith
  have hs : Real.sqrt (x / 2) < Real.sqrt (y / 2) :=
    Real.sqrt_lt_sqrt (by positivity) (by linarith)
  refine ⟨mono x y hx hxy, ?_, ?_, ?_, ?_⟩
  · simp only [TToFwhm, sigmaToFwhm]; exact mul_lt_mul_of_pos_right hs hf
  · exact mono (2 * x) (2 * y) (by linarith) (by linarith)
  · simp only [TToR50, sigmaToR50, sigmaToFwhm]
    have := mul_lt_mul_of_pos_right hs hf
    linarith
  · exact mul_lt_mul_of_pos_right hxy hf

/-- C09: the hard-coded factor agrees with the exact `2 sqrt(2 ln 2)` to `1e-9`. -/
theorem C09_fwhm_factor : |sigmaToFwhm 1 - 2 * Real.sqrt (2 * Real.log 2)| < 1e-9 := by
  have h1 := Real.log_two_gt_d9
  have h2 := Real.log_two_lt_d9
  have hl : (1.1774100221 : ℝ) < Real.sqrt (2 * Real.log 2) := by
    rw [Real.lt_sqrt (by norm_num)]; nlinarith
  have hu : Real.sqrt (2 * Real.log 2) < 1.1774100229 := by
    rw [Real.sqrt_lt' (by norm_num)]; nlinarith
  unfold sigmaToFwhm fwhmFac
  rw [abs_lt]
  constructor <;> linarith

/-! ## C10 shearing moments -/

theorem sheared_core (g1 g2 T s1 s2 : ℝ) (hg : InDisk g1 g2) (hs : InDisk s1 s2) :
    let gs := shearReduced g1 g2 s1 s2
    let Ts := getT (getTround T g1 g2) gs.1 gs.2
    let q := T / ((1 + (g1 ^ 2 + g2 ^ 2)) * (1 - (s1 ^ 2 + s2 ^ 2)))
    InDisk gs.1 gs.2 ∧
    Ts = q * (1 + 2 * (g1 * s1 + g2 * s2) + (g1 ^ 2 + g2 ^ 2) * (s1 ^ 2 + s2 ^ 2)
        + (g1 + s1) ^ 2 + (g2 + s2) ^ 2) ∧
    Ts * (2 * gs.1 / (1 + (gs.1 ^ 2 + gs.2 ^ 2)))
      = 2 * q * ((1 + g1 * s1 + g2 * s2) * (g1 + s1) + (g2 * s1 - g1 * s2) * (g2 + s2)) ∧
    Ts * (2 * gs.2 / (1 + (gs.1 ^ 2 + gs.2 ^ 2)))
      = 2 * q * ((1 + g1 * s1 + g2 * s2) * (g2 + s2) - (g2 * s1 - g1 * s2) * (g1 + s1)) := by
  intro gs Ts q
  have hin := shear_inDisk hg hs
  have hnorm := shear_norm_identity hg hs
  have hD := shear_den_pos hg hs
  set D := (1 + g1 * s1 + g2 * s2) * (1 + g1 * s1 + g2 * s2)
          + (g2 * s1 - g1 * s2) * (g2 * s1 - g1 * s2) with hDdef
  have hg1 : gs.1 = ((1 + g1 * s1 + g2 * s2) * (g1 + s1) + (g2 * s1 - g1 * s2) * (g2 + s2)) / D := by
    simp only [gs, shearReduced]; rw [mul_one_div]
  have hg2 : gs.2 = ((1 + g1 * s1 + g2 * s2) * (g2 + s2) - (g2 * s1 - g1 * s2) * (g1 + s1)) / D := by
    simp only [gs, shearReduced]; rw [mul_one_div]
  have hsum : gs.1 ^ 2 + gs.2 ^ 2 = ((g1 + s1) ^ 2 + (g2 + s2) ^ 2) / D := by
    rw [hg1, hg2]; field_simp; rw [hDdef]; ring
  have hone : 1 - (gs.1 ^ 2 + gs.2 ^ 2)
      = (1 - (g1 ^ 2 + g2 ^ 2)) * (1 - (s1 ^ 2 + s2 ^ 2)) / D := hnorm
  have hgp : 0 < 1 - (g1 ^ 2 + g2 ^ 2) := by unfold InDisk at hg; linarith
  have hsp : 0 < 1 - (s1 ^ 2 + s2 ^ 2) := by unfold InDisk at hs; linarith
  have hpp : 0 < 1 + (g1 ^ 2 + g2 ^ 2) := by positivity
  have hgsp : 0 < 1 + (gs.1 ^ 2 + gs.2 ^ 2) := by positivity
  have hTs : Ts = q * (D + D * (gs.1 ^ 2 + gs.2 ^ 2)) := by
    show getTround T g1 g2 * (1 + (gs.1 ^ 2 + gs.2 ^ 2)) / (1 - (gs.1 ^ 2 + gs.2 ^ 2)) = _
    rw [hone]
    simp only [getTround, q]
    field_simp
  refine ⟨hin, ?_, ?_, ?_⟩
  · rw [hTs, hsum]; rw [mul_div_cancel₀ _ hD.ne']; rw [hDdef]; ring
  · rw [hTs, show q * (D + D * (gs.1 ^ 2 + gs.2 ^ 2)) * (2 * gs.1 / (1 + (gs.1 ^ 2 + gs.2 ^ 2)))
      = 2 * q * (D * gs.1) by field_simp]
    rw [hg1, mul_div_cancel₀ _ hD.ne']
  · rw [hTs, show q * (D + D * (gs.1 ^ 2 + gs.2 ^ 2)) * (2 * gs.2 / (1 + (gs.1 ^ 2 + gs.2 ^ 2)))
      = 2 * q * (D * gs.2) by field_simp]
    rw [hg2, mul_div_cancel₀ _ hD.ne']

theorem getTE_ok {T g1 g2 : ℝ} (hg : InDisk g1 g2) : getTE T g1 g2 = .ok (getT T g1 g2) := by
  unfold getTE
  rw [if_neg]
  unfold InDisk at hg
  intro h; linarith

theorem shearedG_ok (g1 g2 T s1 s2 : ℝ) (hg : InDisk g1 g2) (hs : InDisk s1 s2) :
    getShearedG1G2T g1 g2 T s1 s2 = .ok ((shearReduced g1 g2 s1 s2).1, (shearReduced g1 g2 s1 s2).2,
      getT (getTround T g1 g2) (shearReduced g1 g2 s1 s2).1 (shearReduced g1 g2 s1 s2).2) := by
  unfold getShearedG1G2T
  rw [shearE_ok hg hs]
  show (getTE _ _ _).bind _ = _
  rw [getTE_ok (shear_inDisk hg hs)]
  rfl

/-- C10: shearing raw moments is the matrix action `S M S / (1-|s|^2)`: it succeeds on every
positive definite matrix and every shear in the disk. -/
theorem C10_sheared_moments_matrix (irr irc icc s1 s2 : ℝ)
    (hM : PosDef2 irr irc icc) (hs : InDisk s1 s2) :
    ∃ irr' irc' icc', getShearedMoments irr irc icc s1 s2 = .ok (irr', irc', icc') ∧
      (1 - (s1 ^ 2 + s2 ^ 2)) • momMat irr' irc' icc'
        = shearMat s1 s2 * momMat irr irc icc * shearMat s1 s2 := by
  obtain ⟨h1, h2, h3⟩ := hM
  obtain ⟨g1, g2, hm, hg, hback⟩ := (C08_mom2g irr irc icc).2.2 (by positivity) h3
  obtain ⟨hin, hT, hM1, hM2⟩ := sheared_core g1 g2 (irr + icc) s1 s2 hg hs
  set gs := shearReduced g1 g2 s1 s2 with hgs
  set Ts := getT (getTround (irr + icc) g1 g2) gs.1 gs.2 with hTs
  set q := (irr + icc) / ((1 + (g1 ^ 2 + g2 ^ 2)) * (1 - (s1 ^ 2 + s2 ^ 2))) with hq
  unfold g2mom at hback
  rw [g1g2ToE1E2_closed hg] at hback
  set p := 1 + (g1 ^ 2 + g2 ^ 2) with hp
  have hp0 : 0 < p := by positivity
  have hsp : 0 < 1 - (s1 ^ 2 + s2 ^ 2) := by unfold InDisk at hs; linarith
  have hb : ((1 - 2 * g1 / p) * (irr + icc) / 2, 2 * g2 / p * (irr + icc) / 2,
      (1 + 2 * g1 / p) * (irr + icc) / 2) = (irr, irc, icc) := by
    injection hback
  have hrr : (1 - 2 * g1 / p) * (irr + icc) / 2 = irr := congrArg Prod.fst hb
  have hrc : 2 * g2 / p * (irr + icc) / 2 = irc := congrArg (fun x => x.2.1) hb
  have hcc : (1 + 2 * g1 / p) * (irr + icc) / 2 = icc := congrArg (fun x => x.2.2) hb
  have hqp : (irr + icc) = q * p * (1 - (s1 ^ 2 + s2 ^ 2)) := by
    rw [hq]; field_simp
  refine ⟨(1 - 2 * gs.1 / (1 + (gs.1 ^ 2 + gs.2 ^ 2))) * Ts / 2,
    2 * gs.2 / (1 + (gs.1 ^ 2 + gs.2 ^ 2)) * Ts / 2,
    (1 + 2 * gs.1 / (1 + (gs.1 ^ 2 + gs.2 ^ 2))) * Ts / 2, ?_, ?_⟩
  · unfold getShearedMoments
    rw [hm]
    show (getShearedG1G2T g1 g2 (irr + icc) s1 s2).bind (fun gs => g2mom gs.1 gs.2.1 gs.2.2) = _
    rw [shearedG_ok g1 g2 _ s1 s2 hg hs]
    show g2mom gs.1 gs.2 Ts = _
    unfold g2mom
    rw [g1g2ToE1E2_closed hin]
    rfl
  · have e1 : (1 - 2 * gs.1 / (1 + (gs.1 ^ 2 + gs.2 ^ 2))) * Ts / 2
        = (Ts - Ts * (2 * gs.1 / (1 + (gs.1 ^ 2 + gs.2 ^ 2)))) / 2 := by ring
    have e2 : 2 * gs.2 / (1 + (gs.1 ^ 2 + gs.2 ^ 2)) * Ts / 2
        = Ts * (2 * gs.2 / (1 + (gs.1 ^ 2 + gs.2 ^ 2))) / 2 := by ring
    have e3 : (1 + 2 * gs.1 / (1 + (gs.1 ^ 2 + gs.2 ^ 2))) * Ts / 2
        = (Ts + Ts * (2 * gs.1 / (1 + (gs.1 ^ 2 + gs.2 ^ 2)))) / 2 := by ring
    rw [e1, e2, e3, hM1, hM2, hT]
    have f1 : irr = q * (p - 2 * g1) * (1 - (s1 ^ 2 + s2 ^ 2)) / 2 := by
      rw [← hrr, hqp]; field_simp
    have f2 : irc = q * (2 * g2) * (1 - (s1 ^ 2 + s2 ^ 2)) / 2 := by
      rw [← hrc, hqp]; field_simp
    have f3 : icc = q * (p + 2 * g1) * (1 - (s1 ^ 2 + s2 ^ 2)) / 2 := by
      rw [← hcc, hqp]; field_simp
    clear_value q
    unfold momMat shearMat
    ext i j
    fin_cases i <;> fin_cases j <;>
      simp [Matrix.mul_apply, Fin.sum_univ_two, Matrix.smul_apply] <;>
      rw [f1, f2, f3, hp] <;> ring

/-- C10: consequently positive definiteness and the determinant are preserved exactly. -/
theorem C10_sheared_moments_det (irr irc icc s1 s2 irr' irc' icc' : ℝ)
    (hM : PosDef2 irr irc icc) (hs : InDisk s1 s2)
    (h : getShearedMoments irr irc icc s1 s2 = .ok (irr', irc', icc')) :
    PosDef2 irr' irc' icc' ∧ irr' * icc' - irc' ^ 2 = irr * icc - irc ^ 2 := by
  obtain ⟨a, b, c, h', hmat⟩ := C10_sheared_moments_matrix irr irc icc s1 s2 hM hs
  rw [h] at h'
  have heq : (irr', irc', icc') = (a, b, c) := by injection h'
  obtain ⟨rfl, rfl, rfl⟩ : irr' = a ∧ irc' = b ∧ icc' = c :=
    ⟨congrArg Prod.fst heq, congrArg (fun x => x.2.1) heq, congrArg (fun x => x.2.2) heq⟩
  have hsp : 0 < 1 - (s1 ^ 2 + s2 ^ 2) := by unfold InDisk at hs; linarith
  obtain ⟨p1, p2, p3⟩ := hM
  have m00 := congrFun (congrFun hmat 0) 0
  have m01 := congrFun (congrFun hmat 0) 1
  have m11 := congrFun (congrFun hmat 1) 1
  simp [momMat, shearMat, Matrix.mul_apply, Fin.sum_univ_two] at m00 m01 m11
  set k := 1 - (s1 ^ 2 + s2 ^ 2) with hk
  have hdet : k ^ 2 * (irr' * icc' - irc' ^ 2) = k ^ 2 * (irr * icc - irc ^ 2) := by
    have : k ^ 2 * (irr' * icc' - irc' ^ 2) = (k * irr') * (k * icc') - (k * irc') ^ 2 := by ring
    rw [this, m00, m01, m11, hk]; ring
  have hdet' := mul_left_cancel₀ (by positivity) hdet
  have hcc : 0 < k * icc' := by
    rw [m00]
    by_cases hz : s2 = 0
    · have hz1 : 1 + s1 ≠ 0 := by
        intro hz1; unfold InDisk at hs; have : s1 = -1 := by linarith
        rw [this, hz] at hs; norm_num at hs
      rw [hz]
      have := mul_pos p2 (sq_pos_of_ne_zero hz1)
      nlinarith
    · -- quadratic form of a positive definite matrix
      have e : (((1 + s1) * icc + s2 * irc) * (1 + s1) + ((1 + s1) * irc + s2 * irr) * s2) * icc
          = ((1 + s1) * icc + s2 * irc) ^ 2 + s2 ^ 2 * (irr * icc - irc ^ 2) := by ring
      have : 0 < (((1 + s1) * icc + s2 * irc) * (1 + s1) + ((1 + s1) * irc + s2 * irr) * s2) * icc := by
        rw [e]; positivity
      exact (mul_pos_iff_of_pos_right p2).1 this
  have hcc' : 0 < icc' := (mul_pos_iff_of_pos_left hsp).1 hcc
  refine ⟨⟨?_, hcc', by rw [hdet']; exact p3⟩, hdet'⟩
  have : 0 < irr' * icc' := by nlinarith [sq_nonneg irc']
  exact (mul_pos_iff_of_pos_right hcc').1 this

/-- C10: `get_sheared_M1M2T` is the same transformation in `(M1,M2,T)` coordinates. -/
theorem C10_sheared_M1M2T_agrees (irr irc icc s1 s2 : ℝ)
    (hM : PosDef2 irr irc icc) (hs : InDisk s1 s2) :
    ∃ irr' irc' icc', getShearedMoments irr irc icc s1 s2 = .ok (irr', irc', icc') ∧
      getShearedM1M2T (icc - irr) (2 * irc) (irr + icc) s1 s2
        = .ok (icc' - irr', 2 * irc', irr' + icc') := by
  obtain ⟨h1, h2, h3⟩ := hM
  obtain ⟨g1, g2, hm, hg, hback⟩ := (C08_mom2g irr irc icc).2.2 (by positivity) h3
  have hTpos : 0 < irr + icc := by positivity
  have hin := shear_inDisk hg hs
  have he : e1e2ToG1G2 ((icc - irr) / (irr + icc)) (2 * irc / (irr + icc)) = .ok (g1, g2) := by
    unfold mom2g mom2e at hm
    simp only [hTpos.ne', if_false] at hm
    change (e1e2ToG1G2 ((icc - irr) / (irr + icc)) (2 * irc / (irr + icc))).bind
      (fun g => Except.ok (g.1, g.2, irr + icc)) = _ at hm
    cases hx : e1e2ToG1G2 ((icc - irr) / (irr + icc)) (2 * irc / (irr + icc)) with
    | error e => rw [hx] at hm; exact absurd hm (by intro h; cases h)
    | ok v =>
      rw [hx] at hm
      have hv : (v.1, v.2, irr + icc) = (g1, g2, irr + icc) := by injection hm
      have a : v.1 = g1 := congrArg Prod.fst hv
      have b : v.2 = g2 := congrArg (fun x => x.2.1) hv
      rw [← a, ← b]
  have hmome := (C08_moms_to_e1e2 (icc - irr) (2 * irc) (irr + icc)).2 hTpos
  set gs := shearReduced g1 g2 s1 s2 with hgs
  set Ts := getT (getTround (irr + icc) g1 g2) gs.1 gs.2 with hTs
  refine ⟨(1 - 2 * gs.1 / (1 + (gs.1 ^ 2 + gs.2 ^ 2))) * Ts / 2,
    2 * gs.2 / (1 + (gs.1 ^ 2 + gs.2 ^ 2)) * Ts / 2,
    (1 + 2 * gs.1 / (1 + (gs.1 ^ 2 + gs.2 ^ 2))) * Ts / 2, ?_, ?_⟩
  · unfold getShearedMoments
    rw [hm]
    show (getShearedG1G2T g1 g2 (irr + icc) s1 s2).bind (fun gs => g2mom gs.1 gs.2.1 gs.2.2) = _
    rw [shearedG_ok g1 g2 _ s1 s2 hg hs]
    show g2mom gs.1 gs.2 Ts = _
    unfold g2mom
    rw [g1g2ToE1E2_closed hin]
    rfl
  · unfold getShearedM1M2T
    rw [hmome]
    show (do
      let g ← e1e2ToG1G2 ((icc - irr) / (irr + icc)) (2 * irc / (irr + icc))
      let gs ← shearReducedE g.1 g.2 s1 s2
      let Tround := getTround (irr + icc) g.1 g.2
      let Ts ← getTE Tround gs.1 gs.2
      let es ← g1g2ToE1E2 gs.1 gs.2
      Except.ok (Ts * es.1, Ts * es.2, Ts)) = _
    rw [he]
    show (do
      let gs ← shearReducedE g1 g2 s1 s2
      let Ts ← getTE (getTround (irr + icc) g1 g2) gs.1 gs.2
      let es ← g1g2ToE1E2 gs.1 gs.2
      Except.ok (Ts * es.1, Ts * es.2, Ts)) = _
    rw [shearE_ok hg hs]
    show (do
      let Ts ← getTE (getTround (irr + icc) g1 g2) gs.1 gs.2
      let es ← g1g2ToE1E2 gs.1 gs.2
      Except.ok (Ts * es.1, Ts * es.2, Ts)) = _
    rw [getTE_ok hin]
    show (do
      let es ← g1g2ToE1E2 gs.1 gs.2
      Except.ok (Ts * es.1, Ts * es.2, Ts)) = _
    rw [g1g2ToE1E2_closed hin]
    show Except.ok (Ts * (2 * gs.1 / (1 + (gs.1 ^ 2 + gs.2 ^ 2))),
      Ts * (2 * gs.2 / (1 + (gs.1 ^ 2 + gs.2 ^ 2))), Ts) = _
    congr 2
    · ring
    · congr 1 <;> ring

/-- C10: in the `(g,T)` parametrisation the sheared shape is `shear_reduced` and the sheared
size is the one whose round size is unchanged. -/
theorem C10_sheared_g1g2T (g1 g2 T s1 s2 : ℝ) (hg : InDisk g1 g2) (hs : InDisk s1 s2) :
    ∃ Ts, getShearedG1G2T g1 g2 T s1 s2 = .ok ((shearReduced g1 g2 s1 s2).1, (shearReduced g1 g2 s1 s2).2, Ts) ∧
    getTround Ts (shearReduced g1 g2 s1 s2).1 (shearReduced g1 g2 s1 s2).2 = getTround T g1 g2 :=
  ⟨_, shearedG_ok g1 g2 T s1 s2 hg hs, (C07_T_Tround_inverse _ _ _ (shear_inDisk hg hs)).2.1⟩

/-- C10: a shear that is not inside the disk is refused for every positive definite matrix, with a ZeroDivisionError on the unit
circle and where the addition formula has no value, with a range error elsewhere. -/
theorem C10_sheared_refused (irr irc icc s1 s2 : ℝ) (hM : PosDef2 irr irc icc) (hs : ¬ InDisk s1 s2) :
    (s1 ^ 2 + s2 ^ 2 = 1 → getShearedMoments irr irc icc s1 s2 = .error .zeroDiv) ∧
    (s1 ^ 2 + s2 ^ 2 ≠ 1 → getShearedMoments irr irc icc s1 s2 = .error .gmixRange ∨
      (getShearedMoments irr irc icc s1 s2 = .error .zeroDiv ∧ ∃ g1 g2, mom2g irr irc icc = .ok (g1, g2, irr + icc) ∧
        1 + (starRingEnd ℂ) (toC (s1, s2)) * toC (g1, g2) = 0)) := by
  obtain ⟨h1, h2, h3⟩ := hM
  obtain ⟨g1, g2, hm, hg, -⟩ := (C08_mom2g irr irc icc).2.2 (by positivity) h3
  have hform : getShearedMoments irr irc icc s1 s2 =
      (getShearedG1G2T g1 g2 (irr + icc) s1 s2).bind (fun gs => g2mom gs.1 gs.2.1 gs.2.2) := by
    unfold getShearedMoments
    rw [hm]; rfl
  have hg' : g1 ^ 2 + g2 ^ 2 < 1 := hg
  have hs' : 1 ≤ s1 ^ 2 + s2 ^ 2 := not_lt.1 hs
  by_cases hz : (1 + g1 * s1 + g2 * s2) * (1 + g1 * s1 + g2 * s2) + (g2 * s1 - g1 * s2) * (g2 * s1 - g1 * s2) = 0
  · have hr : getShearedMoments irr irc icc s1 s2 = .error .zeroDiv := by
      rw [hform, getShearedG1G2T]
      simp only [shearReducedE, if_pos hz]
      rfl
    exact ⟨fun _ => hr, fun _ => Or.inr ⟨hr, g1, g2, hm, (shear_den_iff _ _ _ _).1 hz⟩⟩
  · have hid := shear_norm_identity' hz
    have hpos : 0 < (1 + g1 * s1 + g2 * s2) * (1 + g1 * s1 + g2 * s2) + (g2 * s1 - g1 * s2) * (g2 * s1 - g1 * s2) :=
      lt_of_le_of_ne (add_nonneg (mul_self_nonneg _) (mul_self_nonneg _)) (Ne.symm hz)
    constructor
    · intro h1
      rw [h1, sub_self, mul_zero, zero_div] at hid
      rw [hform, getShearedG1G2T]
      simp only [shearReducedE, if_neg hz]
      show ((getTE _ _ _).bind _).bind _ = _
      rw [getTE, if_pos hid]
      rfl
    · intro h1
      left
      have hlt : 1 - ((shearReduced g1 g2 s1 s2).1 ^ 2 + (shearReduced g1 g2 s1 s2).2 ^ 2) < 0 := by
        rw [hid]
        refine div_neg_of_neg_of_pos (mul_neg_of_pos_of_neg (by linarith) ?_) hpos
        have := lt_of_le_of_ne hs' (Ne.symm h1)
        linarith
      rw [hform, getShearedG1G2T]
      simp only [shearReducedE, if_neg hz]
      show ((getTE _ _ _).bind _).bind _ = _
      rw [getTE, if_neg hlt.ne]
      show g2mom _ _ _ = _
      unfold g2mom g1g2ToE1E2
      have hn : ¬ InDisk (shearReduced g1 g2 s1 s2).1 (shearReduced g1 g2 s1 s2).2 := by
        unfold InDisk; linarith
      simp only [if_pos ((sqrt_ge_one_iff _ _).2 hn)]
      rfl

/-- C10: for every shear the two functions agree, also in what they refuse. -/
theorem C10_M1M2T_total (irr irc icc s1 s2 : ℝ) (hM : PosDef2 irr irc icc) :
    getShearedM1M2T (icc - irr) (2 * irc) (irr + icc) s1 s2 =
      (getShearedMoments irr irc icc s1 s2).map fun m => (m.2.2 - m.1, 2 * m.2.1, m.1 + m.2.2) := by
  obtain ⟨h1, h2, h3⟩ := hM
  have hT : 0 < irr + icc := by positivity
  have he : momsToE1E2 (icc - irr) (2 * irc) (irr + icc) = .ok ((icc - irr) / (irr + icc), 2 * irc / (irr + icc)) :=
    (C08_moms_to_e1e2 _ _ _).2 hT
  have hm : mom2e irr irc icc = .ok ((icc - irr) / (irr + icc), 2 * irc / (irr + icc), irr + icc) := by
    simp [mom2e, hT.ne']
  unfold getShearedM1M2T getShearedMoments mom2g getShearedG1G2T g2mom
  rw [he, hm]
  simp only [bind, Except.bind, Except.map]
  cases e1e2ToG1G2 ((icc - irr) / (irr + icc)) (2 * irc / (irr + icc)) with
  | error e => rfl
  | ok g =>
    simp only []
    cases shearReducedE g.1 g.2 s1 s2 with
    | error e => rfl
    | ok gs =>
      simp only []
      cases getTE (getTround (irr + icc) g.1 g.2) gs.1 gs.2 with
      | error e => rfl
      | ok Ts =>
        simp only []
        cases g1g2ToE1E2 gs.1 gs.2 with
        | error e => rfl
        | ok es =>
          simp only [e2mom, Except.ok.injEq, Prod.mk.injEq]
          refine ⟨?_, ?_, ?_⟩ <;> ring

example : PosDef2 2 0.5 1 ∧ InDisk 0.1 (-0.2) := by unfold PosDef2 InDisk; norm_num

end Ngmix.Props
