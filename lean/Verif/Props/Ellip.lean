import Verif.Proof.Ellip
import Mathlib.Analysis.Calculus.Deriv.Inv
import Mathlib.Analysis.Calculus.Deriv.Add
import Mathlib.Analysis.Calculus.Deriv.Mul
import Mathlib.Analysis.Calculus.Deriv.Pow

/-!
# Properties C05-C07: ellipticity conventions, shear Jacobian, round factor
-/

namespace Ngmix.Props

open Ngmix Ngmix.Spec

/-! ## C05 -/

/-- C05: `g -> e` is `e = 2g/(1+|g|^2)`, stays in the disk and keeps the direction. -/
theorem C05_g_to_e (g1 g2 : ℝ) (h : InDisk g1 g2) :
    ∃ e1 e2, g1g2ToE1E2 g1 g2 = .ok (e1, e2) ∧
      e1 = 2 * g1 / (1 + (g1 ^ 2 + g2 ^ 2)) ∧ e2 = 2 * g2 / (1 + (g1 ^ 2 + g2 ^ 2)) ∧
      InDisk e1 e2 ∧ SameDirection (g1, g2) (e1, e2) := by
  refine ⟨_, _, g1g2ToE1E2_closed h, rfl, rfl, ?_, ?_⟩
  · unfold InDisk at *
    have hp : 0 < 1 + (g1 ^ 2 + g2 ^ 2) := by positivity
    rw [div_pow, div_pow, ← add_div, div_lt_one (by positivity)]
    nlinarith [mul_pos (sub_pos.2 h) (sub_pos.2 h)]
  · refine ⟨2 / (1 + (g1 ^ 2 + g2 ^ 2)), by positivity, ?_⟩
    ext <;> simp <;> ring

/-- C05: `e -> g` is `g = e/(1+sqrt(1-|e|^2))`, stays in the disk and keeps the direction. -/
theorem C05_e_to_g (e1 e2 : ℝ) (h : InDisk e1 e2) :
    ∃ g1 g2, e1e2ToG1G2 e1 e2 = .ok (g1, g2) ∧
      g1 = e1 / (1 + Real.sqrt (1 - (e1 ^ 2 + e2 ^ 2))) ∧
      g2 = e2 / (1 + Real.sqrt (1 - (e1 ^ 2 + e2 ^ 2))) ∧
      InDisk g1 g2 ∧ SameDirection (e1, e2) (g1, g2) := by
  refine ⟨_, _, e1e2ToG1G2_closed h, rfl, rfl, ?_, ?_⟩
  · unfold InDisk at *
    set q := Real.sqrt (1 - (e1 ^ 2 + e2 ^ 2)) with hq
    have hq0 : 0 < q := Real.sqrt_pos.2 (by linarith)
    have hq2 : q ^ 2 = 1 - (e1 ^ 2 + e2 ^ 2) := Real.sq_sqrt (by linarith)
    rw [div_pow, div_pow, ← add_div, div_lt_one (by positivity)]
    nlinarith
  · refine ⟨1 / (1 + Real.sqrt (1 - (e1 ^ 2 + e2 ^ 2))), by positivity, ?_⟩
    ext <;> simp <;> ring

/-- C05: the `g`/`e` conversions raise `GMixRangeError` exactly outside the open disk. -/
theorem C05_range_errors (a b : ℝ) :
    (g1g2ToE1E2 a b = .error .gmixRange ↔ 1 ≤ a ^ 2 + b ^ 2) ∧
    (e1e2ToG1G2 a b = .error .gmixRange ↔ 1 ≤ a ^ 2 + b ^ 2) ∧
    (g1g2ToEta a b = .error .gmixRange ↔ 1 ≤ a ^ 2 + b ^ 2) := by
  rcases lt_or_ge (a ^ 2 + b ^ 2) 1 with h | h
  · have hd : InDisk a b := h
    have hl := size_lt_one hd
    rw [g1g2ToE1E2_closed hd, e1e2ToG1G2_closed hd]
    unfold g1g2ToEta
    simp only [ge_iff_le, not_le.2 hl, if_false, not_le.2 h]
    refine ⟨by simp, by simp, ?_⟩
    split <;> simp
  · have hge : Real.sqrt (a * a + b * b) ≥ 1 := (sqrt_ge_one_iff a b).2 (not_lt.2 h)
    unfold g1g2ToE1E2 e1e2ToG1G2 g1g2ToEta
    simp [hge, h]

/-- C05: `g -> e -> g` is the identity on the disk. -/
theorem C05_g_e_g (g1 g2 : ℝ) (h : InDisk g1 g2) :
    (do let e ← g1g2ToE1E2 g1 g2; e1e2ToG1G2 e.1 e.2) = .ok (g1, g2) := by
  obtain ⟨e1, e2, he, h1, h2, hd, -⟩ := C05_g_to_e g1 g2 h
  rw [he]
  show e1e2ToG1G2 e1 e2 = _
  rw [e1e2ToG1G2_closed hd]
  unfold InDisk at h
  have hp : 0 < 1 + (g1 ^ 2 + g2 ^ 2) := by positivity
  have : 1 - (e1 ^ 2 + e2 ^ 2) = ((1 - (g1 ^ 2 + g2 ^ 2)) / (1 + (g1 ^ 2 + g2 ^ 2))) ^ 2 := by
    rw [h1, h2]; field_simp; ring
  rw [this, Real.sqrt_sq (div_nonneg (by linarith) hp.le)]
  have h3 : 1 + (1 - (g1 ^ 2 + g2 ^ 2)) / (1 + (g1 ^ 2 + g2 ^ 2)) = 2 / (1 + (g1 ^ 2 + g2 ^ 2)) := by
    field_simp; ring
  rw [h3, h1, h2]
  congr 2 <;> field_simp

/-- C05: `e -> g -> e` is the identity on the disk. -/
theorem C05_e_g_e (e1 e2 : ℝ) (h : InDisk e1 e2) :
    (do let g ← e1e2ToG1G2 e1 e2; g1g2ToE1E2 g.1 g.2) = .ok (e1, e2) := by
  obtain ⟨g1, g2, he, h1, h2, hd, -⟩ := C05_e_to_g e1 e2 h
  rw [he]
  show g1g2ToE1E2 g1 g2 = _
  rw [g1g2ToE1E2_closed hd]
  unfold InDisk at h
  set q := Real.sqrt (1 - (e1 ^ 2 + e2 ^ 2)) with hq
  have hq0 : 0 < q := Real.sqrt_pos.2 (by linarith)
  have hq2 : q ^ 2 = 1 - (e1 ^ 2 + e2 ^ 2) := Real.sq_sqrt (by linarith)
  have h3 : 1 + (g1 ^ 2 + g2 ^ 2) = 2 / (1 + q) := by
    rw [h1, h2, div_pow, div_pow, ← add_div, show e1 ^ 2 + e2 ^ 2 = 1 - q ^ 2 by linarith]
    field_simp; ring
  rw [h3, h1, h2]
  congr 2 <;> field_simp

theorem etaToG_closed (etas : List (ℝ × ℝ)) :
    etaToG1G2Arr etas = .ok (etas.map fun p =>
      let eta := Real.sqrt (p.1 * p.1 + p.2 * p.2)
      if eta ≠ 0 then (Real.tanh (0.5 * eta) / eta * p.1, Real.tanh (0.5 * eta) / eta * p.2)
      else (0, 0)) := by
  unfold etaToG1G2Arr
  rw [if_neg]
  rintro ⟨p, -, hp⟩
  exact absurd hp (not_le.2 (Real.tanh_lt_one _))

/-- C05: `g -> eta -> g` is the identity on the disk. -/
theorem C05_g_eta_g (g1 g2 : ℝ) (h : InDisk g1 g2) :
    (do let x ← g1g2ToEta g1 g2; etaToG1G2Arr [x]) = .ok [(g1, g2)] := by
  have hl := size_lt_one h
  unfold g1g2ToEta
  simp only [ge_iff_le, not_le.2 hl, if_false]
  by_cases h0 : Real.sqrt (g1 * g1 + g2 * g2) = 0
  · obtain ⟨rfl, rfl⟩ := size_eq_zero h0
    simp only [h0, if_true]
    show etaToG1G2Arr [(0, 0)] = _
    rw [etaToG_closed]; simp
  · simp only [h0, if_false]
    set g := Real.sqrt (g1 * g1 + g2 * g2) with hg
    have hgpos : 0 < g := lt_of_le_of_ne (size_nonneg g1 g2) (Ne.symm h0)
    have ha := artanh_pos hgpos hl
    show etaToG1G2Arr [(2 * Real.artanh g / g * g1, 2 * Real.artanh g / g * g2)] = _
    rw [etaToG_closed]
    simp only [List.map_cons, List.map_nil]
    rw [size_smul _ _ _ (by positivity), ← hg, div_mul_cancel₀ _ h0]
    have : (2 * Real.artanh g) ≠ 0 := by positivity
    simp only [ne_eq, this, not_false_iff, if_true]
    rw [show 0.5 * (2 * Real.artanh g) = Real.artanh g by ring,
      Real.tanh_artanh ⟨by linarith, hl⟩]
    congr 3 <;> field_simp

/-- C05: `eta -> g -> eta` is the identity on the whole plane, and `|g|<1`, same direction. -/
theorem C05_eta_g_eta (x1 x2 : ℝ) :
    ∃ g1 g2, etaToG1G2Arr [(x1, x2)] = .ok [(g1, g2)] ∧ InDisk g1 g2 ∧
      SameDirection (x1, x2) (g1, g2) ∧ g1g2ToEta g1 g2 = .ok (x1, x2) := by
  rw [etaToG_closed]
  set x := Real.sqrt (x1 * x1 + x2 * x2) with hx
  by_cases h0 : x = 0
  · obtain ⟨rfl, rfl⟩ := size_eq_zero h0
    refine ⟨0, 0, ?_, ?_, ⟨0, le_refl _, by simp⟩, ?_⟩
    · simp
    · unfold InDisk; norm_num
    · unfold g1g2ToEta; simp
  · have hxpos : 0 < x := lt_of_le_of_ne (size_nonneg x1 x2) (Ne.symm h0)
    have htpos : 0 < Real.tanh (0.5 * x) := by
      rw [Real.tanh_eq_sinh_div_cosh]
      exact div_pos (Real.sinh_pos_iff.2 (by positivity)) (Real.cosh_pos _)
    set t := Real.tanh (0.5 * x) with ht
    have hsz : Real.sqrt (t / x * x1 * (t / x * x1) + t / x * x2 * (t / x * x2)) = t := by
      rw [size_smul _ _ _ (by positivity), ← hx, div_mul_cancel₀ _ h0]
    have htl : t < 1 := Real.tanh_lt_one _
    refine ⟨t / x * x1, t / x * x2, ?_, ?_, ⟨t / x, by positivity, rfl⟩, ?_⟩
    · simp only [List.map_cons, List.map_nil, ← hx, ne_eq, h0, not_false_iff, if_true, ← ht]
    · apply inDisk_of_size; rw [hsz]; exact htl
    · unfold g1g2ToEta
      rw [hsz]
      simp only [ge_iff_le, not_le.2 htl, if_false, htpos.ne']
      have : Real.artanh t = 0.5 * x := by rw [ht, Real.artanh_tanh]
      rw [this]
      congr 2 <;> field_simp <;> ring

/-- C05: converting `e` to `eta` directly agrees with going through `g`. -/
theorem C05_e_eta_consistent (e1 e2 : ℝ) (h : InDisk e1 e2) :
    ∃ g x, e1e2ToG1G2 e1 e2 = .ok g ∧ g1g2ToEta g.1 g.2 = .ok x ∧ e1e2ToEtaArr [(e1, e2)] = .ok [x] := by
  have hl := size_lt_one h
  have hne : ¬ ∃ p ∈ [(e1, e2)], Real.sqrt (p.1 * p.1 + p.2 * p.2) ≥ 1 := by
    rintro ⟨p, hp, hge⟩
    rw [List.mem_singleton] at hp
    subst hp
    exact absurd hge (not_le.2 hl)
  unfold e1e2ToEtaArr e1e2ToG1G2
  rw [if_neg hne]
  simp only [ge_iff_le, not_le.2 hl, if_false, not_le.2 (Real.tanh_lt_one _)]
  set e := Real.sqrt (e1 * e1 + e2 * e2) with he
  by_cases h0 : e = 0
  · refine ⟨(0, 0), (0, 0), ?_, ?_, ?_⟩
    · simp [h0]
    · unfold g1g2ToEta; simp
    · obtain ⟨rfl, rfl⟩ := size_eq_zero h0
      simp
  · have hepos : 0 < e := lt_of_le_of_ne (size_nonneg e1 e2) (Ne.symm h0)
    have ha := artanh_pos hepos hl
    set t := Real.tanh (0.5 * Real.artanh e) with ht
    have htpos : 0 < t := by
      rw [ht, Real.tanh_eq_sinh_div_cosh]
      exact div_pos (Real.sinh_pos_iff.2 (by positivity)) (Real.cosh_pos _)
    have htl : t < 1 := Real.tanh_lt_one _
    have hsz : Real.sqrt (t / e * e1 * (t / e * e1) + t / e * e2 * (t / e * e2)) = t := by
      rw [size_smul _ _ _ (by positivity), ← he, div_mul_cancel₀ _ h0]
    refine ⟨(t / e * e1, t / e * e2), (Real.artanh e / e * e1, Real.artanh e / e * e2), ?_, ?_, ?_⟩
    · simp [h0]
    · unfold g1g2ToEta
      simp only [hsz, ge_iff_le, not_le.2 htl, if_false, htpos.ne']
      have : Real.artanh t = 0.5 * Real.artanh e := by rw [ht, Real.artanh_tanh]
      rw [this]
      congr 2 <;> field_simp <;> ring
    · simp only [List.map_cons, List.map_nil, ← he, gt_iff_lt, hepos, if_true]

/-- C05: the array form of `g -> e` is element-wise the scalar form (below the double-precision
clip `|e| <= ONE_MINUS_EPS`), and one bad element rejects the array. -/
theorem C05_g_to_e_array (gs : List (ℝ × ℝ)) :
    ((∀ p ∈ gs, InDisk p.1 p.2 ∧
        2 * Real.sqrt (p.1 ^ 2 + p.2 ^ 2) / (1 + (p.1 ^ 2 + p.2 ^ 2)) ≤ oneMinusEps) →
      ∃ es, g1g2ToE1E2Arr gs = .ok es ∧
        List.Forall₂ (fun p e => g1g2ToE1E2 p.1 p.2 = .ok e) gs es) ∧
    ((∃ p ∈ gs, 1 ≤ p.1 ^ 2 + p.2 ^ 2) → g1g2ToE1E2Arr gs = .error .gmixRange) := by
  constructor
  · intro h
    have hne : ¬ ∃ p ∈ gs, Real.sqrt (p.1 * p.1 + p.2 * p.2) ≥ 1 := by
      rintro ⟨p, hp, hge⟩
      exact absurd hge (not_le.2 (size_lt_one (h p hp).1))
    unfold g1g2ToE1E2Arr
    rw [if_neg hne]
    refine ⟨_, rfl, ?_⟩
    rw [List.forall₂_map_right_iff, List.forall₂_same]
    intro p hp
    obtain ⟨hd, hc⟩ := h p hp
    have hsq := size_sq p.1 p.2
    dsimp only
    rw [g1g2ToE1E2_closed hd, tanh_two_mul', Real.tanh_artanh (size_mem hd), hsq]
    have hb : 2 * Real.sqrt (p.1 * p.1 + p.2 * p.2) / (1 + (p.1 ^ 2 + p.2 ^ 2)) ≤ oneMinusEps := by
      simpa only [sq] using hc
    rw [max_eq_left (by positivity), min_eq_left hb]
    by_cases h0 : Real.sqrt (p.1 * p.1 + p.2 * p.2) = 0
    · obtain ⟨h1, h2⟩ := size_eq_zero h0
      simp [h1, h2]
    · simp only [ne_eq, h0, not_false_iff, if_true]
      generalize Real.sqrt (p.1 * p.1 + p.2 * p.2) = g at *
      congr 2 <;> field_simp
  · rintro ⟨p, hp, h⟩
    unfold g1g2ToE1E2Arr
    rw [if_pos ⟨p, hp, (sqrt_ge_one_iff _ _).2 (not_lt.2 h)⟩]

/-- C05: the array form of `e -> g` is element-wise the scalar form (below the clip). -/
theorem C05_e_to_g_array (es : List (ℝ × ℝ)) :
    ((∀ p ∈ es, InDisk p.1 p.2 ∧
        Real.sqrt (p.1 ^ 2 + p.2 ^ 2) / (1 + Real.sqrt (1 - (p.1 ^ 2 + p.2 ^ 2))) ≤ oneMinusEps) →
      ∃ gs, e1e2ToG1G2Arr es = .ok gs ∧
        List.Forall₂ (fun p g => e1e2ToG1G2 p.1 p.2 = .ok g) es gs) ∧
    ((∃ p ∈ es, 1 ≤ p.1 ^ 2 + p.2 ^ 2) → e1e2ToG1G2Arr es = .error .gmixRange) := by
  constructor
  · intro h
    have hne : ¬ ∃ p ∈ es, Real.sqrt (p.1 * p.1 + p.2 * p.2) ≥ 1 := by
      rintro ⟨p, hp, hge⟩
      exact absurd hge (not_le.2 (size_lt_one (h p hp).1))
    unfold e1e2ToG1G2Arr
    rw [if_neg hne]
    refine ⟨_, rfl, ?_⟩
    rw [List.forall₂_map_right_iff, List.forall₂_same]
    intro p hp
    obtain ⟨hd, hc⟩ := h p hp
    have hsq := size_sq p.1 p.2
    dsimp only
    rw [e1e2ToG1G2_closed hd, tanh_half_artanh (size_nonneg _ _) (size_lt_one hd), hsq]
    have hb : Real.sqrt (p.1 * p.1 + p.2 * p.2) / (1 + Real.sqrt (1 - (p.1 ^ 2 + p.2 ^ 2)))
        ≤ oneMinusEps := by
      simpa only [sq] using hc
    rw [max_eq_left (by positivity), min_eq_left hb]
    by_cases h0 : Real.sqrt (p.1 * p.1 + p.2 * p.2) = 0
    · obtain ⟨h1, h2⟩ := size_eq_zero h0
      simp [h1, h2]
    · simp only [ne_eq, h0, not_false_iff, if_true]
      generalize Real.sqrt (p.1 * p.1 + p.2 * p.2) = g at *
      congr 2 <;> field_simp
  · rintro ⟨p, hp, h⟩
    unfold e1e2ToG1G2Arr
    rw [if_pos ⟨p, hp, (sqrt_ge_one_iff _ _).2 (not_lt.2 h)⟩]

/-- C05: the array form of `g -> eta` is element-wise the scalar form. -/
theorem C05_g_to_eta_array (gs : List (ℝ × ℝ)) :
    ((∀ p ∈ gs, InDisk p.1 p.2) →
      ∃ xs, g1g2ToEtaArr gs = .ok xs ∧
        List.Forall₂ (fun p x => g1g2ToEta p.1 p.2 = .ok x) gs xs) ∧
    ((∃ p ∈ gs, 1 ≤ p.1 ^ 2 + p.2 ^ 2) →
      g1g2ToEtaArr gs = .error .gmixRange ∧ e1e2ToEtaArr gs = .error .gmixRange) := by
  constructor
  · intro h
    have hne : ¬ ∃ p ∈ gs, Real.sqrt (p.1 * p.1 + p.2 * p.2) ≥ 1 := by
      rintro ⟨p, hp, hge⟩
      exact absurd hge (not_le.2 (size_lt_one (h p hp)))
    unfold g1g2ToEtaArr
    rw [if_neg hne]
    refine ⟨_, rfl, ?_⟩
    rw [List.forall₂_map_right_iff, List.forall₂_same]
    intro p hp
    have hl := size_lt_one (h p hp)
    unfold g1g2ToEta
    simp only [ge_iff_le, not_le.2 hl, if_false]
    rcases (size_nonneg p.1 p.2).lt_or_eq with h0 | h0
    · simp [h0, h0.ne']
    · simp [← h0]
  · rintro ⟨p, hp, h⟩
    unfold g1g2ToEtaArr e1e2ToEtaArr
    rw [if_pos ⟨p, hp, (sqrt_ge_one_iff _ _).2 (not_lt.2 h)⟩,
      if_pos ⟨p, hp, (sqrt_ge_one_iff _ _).2 (not_lt.2 h)⟩]
    exact ⟨rfl, rfl⟩

/-- C05: zero goes to zero in every convention. -/
theorem C05_zero : g1g2ToE1E2 0 0 = .ok (0, 0) ∧ e1e2ToG1G2 0 0 = .ok (0, 0) ∧
    g1g2ToEta 0 0 = .ok (0, 0) ∧ etaToG1G2Arr [(0, 0)] = .ok [(0, 0)] := by
  refine ⟨?_, ?_, ?_, ?_⟩
  · simp [g1g2ToE1E2]
  · simp [e1e2ToG1G2]
  · simp [g1g2ToEta]
  · rw [etaToG_closed]; simp

example : InDisk 0.6 0.7 ∧ 2 * Real.sqrt (0.6 ^ 2 + 0.7 ^ 2) / (1 + (0.6 ^ 2 + 0.7 ^ 2)) ≤ oneMinusEps := by
  have h : Real.sqrt (0.6 ^ 2 + 0.7 ^ 2) ≤ 0.922 := by
    rw [Real.sqrt_le_left (by norm_num)]; norm_num
  refine ⟨by unfold InDisk; norm_num, ?_⟩
  unfold oneMinusEps
  rw [div_le_iff₀ (by norm_num)]
  linarith

/-! ## C06 the Jacobian determinant of the shear map -/

/-- C06: the four partial derivatives of the sheared shape exist at every point of the disk and
`dgs_by_dgo_jacob` is their determinant; it is strictly positive. -/
theorem C06_jacobian_is_determinant (g1 g2 s1 s2 : ℝ) (hg : InDisk g1 g2) (hs : InDisk s1 s2) :
    ∃ d11 d12 d21 d22 : ℝ,
      HasDerivAt (fun x => (shearReduced x g2 s1 s2).1) d11 g1 ∧
      HasDerivAt (fun y => (shearReduced g1 y s1 s2).1) d12 g2 ∧
      HasDerivAt (fun x => (shearReduced x g2 s1 s2).2) d21 g1 ∧
      HasDerivAt (fun y => (shearReduced g1 y s1 s2).2) d22 g2 ∧
      dgsByDgoJacob g1 g2 s1 s2 = d11 * d22 - d12 * d21 ∧
      0 < dgsByDgoJacob g1 g2 s1 s2 := by
  have hD := shear_den_pos hg hs
  set A := 1 + g1 * s1 + g2 * s2 with hA
  set B := g2 * s1 - g1 * s2 with hB
  set D := A * A + B * B with hDD
  -- derivatives of the building blocks
  have hx : HasDerivAt (fun x : ℝ => x) 1 g1 := hasDerivAt_id g1
  have hy : HasDerivAt (fun x : ℝ => x) 1 g2 := hasDerivAt_id g2
  have hAx : HasDerivAt (fun x : ℝ => 1 + x * s1 + g2 * s2) s1 g1 := by
    have := ((hx.mul_const s1).const_add 1).add_const (g2 * s2)
    simpa using this
  have hBx : HasDerivAt (fun x : ℝ => g2 * s1 - x * s2) (-s2) g1 := by
    have := (hx.mul_const s2).const_sub (g2 * s1)
    simpa using this
  have hAy : HasDerivAt (fun y : ℝ => 1 + g1 * s1 + y * s2) s2 g2 := by
    have := (hy.mul_const s2).const_add (1 + g1 * s1)
    simpa using this
  have hBy : HasDerivAt (fun y : ℝ => y * s1 - g1 * s2) s1 g2 := by
    have := (hy.mul_const s1).sub_const (g1 * s2)
    simpa using this
  have hDx := (hAx.mul hAx).add (hBx.mul hBx)
  have hDy := (hAy.mul hAy).add (hBy.mul hBy)
  have hDx0 : (1 + g1 * s1 + g2 * s2) * (1 + g1 * s1 + g2 * s2)
    + (g2 * s1 - g1 * s2) * (g2 * s1 - g1 * s2) ≠ 0 := hD.ne'
  have n1x := (hAx.mul (hx.add_const s1)).add (hBx.mul_const (g2 + s2))
  have n1y := (hAy.mul_const (g1 + s1)).add (hBy.mul (hy.add_const s2))
  have n2x := (hAx.mul_const (g2 + s2)).sub (hBx.mul (hx.add_const s1))
  have n2y := (hAy.mul (hy.add_const s2)).sub (hBy.mul_const (g1 + s1))
  have d11 := n1x.div hDx hDx0
  have d12 := n1y.div hDy hDx0
  have d21 := n2x.div hDx hDx0
  have d22 := n2y.div hDy hDx0
  refine ⟨_, _, _, _, d11.congr_of_eventuallyEq (Filter.Eventually.of_forall fun x => ?_),
    d12.congr_of_eventuallyEq (Filter.Eventually.of_forall fun x => ?_),
    d21.congr_of_eventuallyEq (Filter.Eventually.of_forall fun x => ?_),
    d22.congr_of_eventuallyEq (Filter.Eventually.of_forall fun x => ?_), ?_, ?_⟩
  · simp [shearReduced, div_eq_mul_inv]
  · simp [shearReduced, div_eq_mul_inv]
  · simp [shearReduced, div_eq_mul_inv]
  · simp [shearReduced, div_eq_mul_inv]
  · unfold dgsByDgoJacob
    have hden : 1 + 2 * g1 * s1 + 2 * g2 * s2 + g1 ^ 2 * (s1 * s1 + s2 * s2)
        + g2 ^ 2 * (s1 * s1 + s2 * s2) = D := by rw [hDD, hA, hB]; ring
    simp only [Pi.add_apply, Pi.mul_apply, Pi.sub_apply]
    rw [hden]
    rw [show (1 + g1 * s1 + g2 * s2) * (1 + g1 * s1 + g2 * s2)
      + (g2 * s1 - g1 * s2) * (g2 * s1 - g1 * s2) = D from rfl]
    field_simp
    rw [hDD, hA, hB]
    ring
  · unfold dgsByDgoJacob
    have hden : 1 + 2 * g1 * s1 + 2 * g2 * s2 + g1 ^ 2 * (s1 * s1 + s2 * s2)
        + g2 ^ 2 * (s1 * s1 + s2 * s2) = D := by rw [hDD, hA, hB]; ring
    simp only [hden]
    unfold InDisk at hs
    have : s1 * s1 + s2 * s2 - 1 ≠ 0 := by nlinarith
    positivity

example : InDisk 0.2 (-0.5) ∧ InDisk 0.05 0.1 := by unfold InDisk; norm_num

/-! ## C07 round factor (first half; the size conversions are in `Props.Moments`) -/

/-- C07: the round factor lies in `(0,1]`, equals 1 only for round shapes, and is
`sqrt(1-|e|^2)` for the corresponding `e`. -/
theorem C07_round_factor (g1 g2 : ℝ) (h : InDisk g1 g2) :
    0 < getRoundFactor g1 g2 ∧ getRoundFactor g1 g2 ≤ 1 ∧
    (getRoundFactor g1 g2 = 1 ↔ g1 = 0 ∧ g2 = 0) ∧
    (∃ e, g1g2ToE1E2 g1 g2 = .ok e ∧ getRoundFactor g1 g2 = Real.sqrt (1 - (e.1 ^ 2 + e.2 ^ 2))) := by
  unfold getRoundFactor
  have hh : g1 ^ 2 + g2 ^ 2 < 1 := h
  have hp : 0 < 1 + (g1 ^ 2 + g2 ^ 2) := by positivity
  refine ⟨div_pos (by linarith) hp, ?_, ?_, _, g1g2ToE1E2_closed h, ?_⟩
  · rw [div_le_one hp]; nlinarith [sq_nonneg g1, sq_nonneg g2]
  · rw [div_eq_one_iff_eq hp.ne']
    constructor
    · intro h'; constructor <;> nlinarith [sq_nonneg g1, sq_nonneg g2]
    · rintro ⟨rfl, rfl⟩; norm_num
  · have : 1 - ((2 * g1 / (1 + (g1 ^ 2 + g2 ^ 2))) ^ 2 + (2 * g2 / (1 + (g1 ^ 2 + g2 ^ 2))) ^ 2)
        = ((1 - (g1 ^ 2 + g2 ^ 2)) / (1 + (g1 ^ 2 + g2 ^ 2))) ^ 2 := by field_simp; ring
    simp only
    rw [this, Real.sqrt_sq (div_nonneg (by linarith) hp.le)]

example : InDisk 0.5 0.5 := by unfold InDisk; norm_num

end Ngmix.Props
