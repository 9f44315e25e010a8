import Verif.Spec.GMixGalsim
import Verif.Props.Moments
import Verif.Props.Ellip

/-!
# Converting a mixture to a galsim object (C86)
-/

namespace Ngmix.Props

open Ngmix Ngmix.Spec

theorem sheared_brightness {P : Type} (gsp : Option P) (p row col g1 g2 K S : ℝ) (h : InDisk g1 g2) (hK : 0 < K)
    (hS : S = K * (1 - (g1 ^ 2 + g2 ^ 2))) (x y : ℝ) :
    brightness (.shift (.shear (.gaussian p (Real.sqrt S) gsp) g1 g2) col row) x y =
      normal2 p row col (K * ((1 - g1) ^ 2 + g2 ^ 2)) (2 * K * g2) (K * ((1 + g1) ^ 2 + g2 ^ 2)) y x := by
  unfold InDisk at h
  have hS0 : 0 < S := by rw [hS]; exact mul_pos hK (by linarith)
  have hdet : K * ((1 - g1) ^ 2 + g2 ^ 2) * (K * ((1 + g1) ^ 2 + g2 ^ 2)) - (2 * K * g2) ^ 2 = S ^ 2 := by
    rw [hS]; ring
  have hs : Real.sqrt (1 - g1 ^ 2 - g2 ^ 2) ^ 2 = 1 - g1 ^ 2 - g2 ^ 2 := Real.sq_sqrt (by linarith)
  have hs0 : Real.sqrt (1 - g1 ^ 2 - g2 ^ 2) ≠ 0 := (Real.sqrt_pos.2 (by linarith)).ne'
  have h1 : (1 : ℝ) - g1 ^ 2 - g2 ^ 2 ≠ 0 := by linarith
  simp only [brightness, normal2]
  rw [hdet, Real.sqrt_sq hS0.le, Real.sq_sqrt hS0.le]
  congr 2
  rw [div_pow, div_pow, hs]
  have hS' : S ≠ 0 := hS0.ne'
  generalize x - col = X
  generalize y - row = Y
  have hK' : K = S / (1 - g1 ^ 2 - g2 ^ 2) := by rw [hS]; field_simp; ring
  rw [hK']
  field_simp
  ring

/-- The size of the round gaussian of the same determinant. -/
theorem tround_eq (T g1 g2 D : ℝ) (h : InDisk g1 g2) (hD : D = (getTround T g1 g2 / 2) ^ 2) :
    (0 < T → getTround T g1 g2 = 2 * Real.sqrt D ∧ 0 < getTround T g1 g2) ∧
    (T < 0 → getTround T g1 g2 = -(2 * Real.sqrt D) ∧ getTround T g1 g2 < 0) := by
  unfold InDisk at h
  have h2 : (0 : ℝ) < 1 + (g1 ^ 2 + g2 ^ 2) := by positivity
  have h1 : 0 < 1 - (g1 ^ 2 + g2 ^ 2) := by linarith
  constructor
  · intro hT
    have : 0 < getTround T g1 g2 := by unfold getTround; exact div_pos (mul_pos hT h1) h2
    refine ⟨?_, this⟩
    rw [hD, Real.sqrt_sq (by linarith)]; ring
  · intro hT
    have : getTround T g1 g2 < 0 := by
      unfold getTround; exact div_neg_of_neg_of_pos (mul_neg_of_neg_of_pos hT h1) h2
    refine ⟨?_, this⟩
    rw [hD, Real.sqrt_sq_eq_abs, abs_of_neg (by linarith)]; ring

/-- The moments in terms of the shape. -/
theorem moments_of_shape (irr irc icc g1 g2 : ℝ) (hg : InDisk g1 g2)
    (hm : g2mom g1 g2 (irr + icc) = .ok (irr, irc, icc)) :
    ∃ k, k * (1 + (g1 ^ 2 + g2 ^ 2)) = (irr + icc) / 2 ∧ irr = k * ((1 - g1) ^ 2 + g2 ^ 2) ∧
      irc = 2 * k * g2 ∧ icc = k * ((1 + g1) ^ 2 + g2 ^ 2) ∧
      getTround (irr + icc) g1 g2 / 2 = k * (1 - (g1 ^ 2 + g2 ^ 2)) := by
  have h2 : (1 : ℝ) + (g1 ^ 2 + g2 ^ 2) ≠ 0 := by positivity
  unfold g2mom at hm
  rw [g1g2ToE1E2_closed hg] at hm
  have hm' : (((1 - 2 * g1 / (1 + (g1 ^ 2 + g2 ^ 2))) * (irr + icc) / 2,
      2 * g2 / (1 + (g1 ^ 2 + g2 ^ 2)) * (irr + icc) / 2,
      (1 + 2 * g1 / (1 + (g1 ^ 2 + g2 ^ 2))) * (irr + icc) / 2) : ℝ × ℝ × ℝ) = (irr, irc, icc) := by
    simpa [bind, Except.bind] using hm
  simp only [Prod.mk.injEq] at hm'
  obtain ⟨a1, a2, a3⟩ := hm'
  generalize hT : irr + icc = T at *
  refine ⟨T / 2 / (1 + (g1 ^ 2 + g2 ^ 2)), by field_simp, ?_, ?_, ?_, ?_⟩
  · rw [← a1]; field_simp; ring
  · rw [← a2]; field_simp
  · rw [← a3]; field_simp; ring
  · unfold getTround; field_simp

theorem mom2g_shape {irr irc icc g1 g2 T : ℝ} (hT : irr + icc ≠ 0) (h : mom2g irr irc icc = .ok (g1, g2, T)) :
    e1e2ToG1G2 ((icc - irr) / (irr + icc)) (2 * irc / (irr + icc)) = .ok (g1, g2) := by
  unfold mom2g mom2e at h
  simp only [hT, if_false] at h
  rcases he : e1e2ToG1G2 ((icc - irr) / (irr + icc)) (2 * irc / (irr + icc)) with e | r
  · simp [bind, Except.bind, he] at h
  · simp [bind, Except.bind, he] at h
    obtain ⟨rfl, rfl, -⟩ := h
    rfl

/-- One component of nonzero trace and positive determinant: the object has the flux, the centre and the
shape of the component; its covariance is that of the component times the number that brings the size of
the round gaussian of the same determinant up to `Tmin`. -/
theorem component_object {P : Type} (Tmin : ℝ) (hmin : 0 < Tmin) (gsp : Option P) (g : Gauss)
    (hT : g.irr + g.icc ≠ 0) (hd : 0 < g.irr * g.icc - g.irc ^ 2) :
    ∃ (o : GSObj P) (R : ℝ), gsComponent Tmin gsp g = some (.ok o) ∧ paramsOf o = gsp ∧
      (0 < g.irr + g.icc → R = 2 * Real.sqrt (g.irr * g.icc - g.irc ^ 2)) ∧
      (g.irr + g.icc < 0 → R = -(2 * Real.sqrt (g.irr * g.icc - g.irc ^ 2))) ∧ R ≠ 0 ∧
      ∀ v u, brightness o u v = normal2 g.p g.row g.col (max R Tmin / R * g.irr) (max R Tmin / R * g.irc)
        (max R Tmin / R * g.icc) v u := by
  obtain ⟨-, -, h3⟩ := C08_mom2g g.irr g.irc g.icc
  obtain ⟨g1, g2, hok, hdisk, hmom⟩ := h3 hT hd
  have he := mom2g_shape hT hok
  obtain ⟨irr', irc', icc', hm', hdet'⟩ := C07_Tround_preserves_det (g.irr + g.icc) g1 g2 hdisk
  rw [hmom] at hm'
  simp only [Except.ok.injEq, Prod.mk.injEq] at hm'
  obtain ⟨rfl, rfl, rfl⟩ := hm'
  obtain ⟨hpos, hneg⟩ := tround_eq _ g1 g2 _ hdisk hdet'
  obtain ⟨k, hk1, hk2, hk3, hk4, hk5⟩ := moments_of_shape _ _ _ g1 g2 hdisk hmom
  have hR0 : getTround (g.irr + g.icc) g1 g2 ≠ 0 := by
    rcases lt_or_gt_of_ne hT with h | h
    · exact (hneg h).2.ne
    · exact (hpos h).2.ne'
  have hmx : (if getTround (g.irr + g.icc) g1 g2 < Tmin then Tmin else getTround (g.irr + g.icc) g1 g2) =
      max (getTround (g.irr + g.icc) g1 g2) Tmin := by
    split_ifs with h
    · exact (max_eq_right h.le).symm
    · exact (max_eq_left (not_lt.1 h)).symm
  refine ⟨.shift (.shear (.gaussian g.p (Real.sqrt (max (getTround (g.irr + g.icc) g1 g2) Tmin / 2)) gsp) g1 g2)
    g.col g.row, getTround (g.irr + g.icc) g1 g2, ?_, rfl, fun h => (hpos h).1, fun h => (hneg h).1, hR0, ?_⟩
  · unfold gsComponent
    simp only [if_neg hT, he, hmx]
    rw [if_neg (not_lt.2 (le_max_of_le_right hmin.le))]
  · intro v u
    generalize getTround (g.irr + g.icc) g1 g2 = R at *
    have hmp : 0 < max R Tmin := lt_max_of_lt_right hmin
    have hdk : 0 < 1 - (g1 ^ 2 + g2 ^ 2) := by unfold InDisk at hdisk; linarith
    have hkR : max R Tmin / R * k * (1 - (g1 ^ 2 + g2 ^ 2)) = max R Tmin / 2 := by
      have : k * (1 - (g1 ^ 2 + g2 ^ 2)) = R / 2 := hk5.symm
      rw [mul_assoc, this]; field_simp
    have hK : 0 < max R Tmin / R * k := by
      have : 0 < max R Tmin / R * k * (1 - (g1 ^ 2 + g2 ^ 2)) := by rw [hkR]; linarith
      exact (pos_iff_pos_of_mul_pos this).2 hdk
    rw [sheared_brightness gsp g.p g.row g.col g1 g2 (max R Tmin / R * k) _ hdisk hK hkR.symm]
    rw [hk2, hk3, hk4]
    congr 1 <;> ring

/-- C86: one component of a physical mixture.  Below the floor the covariance is scaled up, keeping the
centre, the flux and the shape. -/
theorem C86_component {P : Type} (Tmin : ℝ) (hmin : 0 < Tmin) (gsp : Option P) (g : Gauss)
    (hT : 0 < g.irr + g.icc) (hd : 0 < g.irr * g.icc - g.irc ^ 2) :
    ∃ o : GSObj P, gsComponent Tmin gsp g = some (.ok o) ∧ paramsOf o = gsp ∧
      (Tmin ≤ 2 * Real.sqrt (g.irr * g.icc - g.irc ^ 2) →
        ∀ v u, brightness o u v = normal2 g.p g.row g.col g.irr g.irc g.icc v u) ∧
      (2 * Real.sqrt (g.irr * g.icc - g.irc ^ 2) < Tmin →
        ∃ f, f * (2 * Real.sqrt (g.irr * g.icc - g.irc ^ 2)) = Tmin ∧ 1 < f ∧
        ∀ v u, brightness o u v = normal2 g.p g.row g.col (f * g.irr) (f * g.irc) (f * g.icc) v u) := by
  obtain ⟨o, R, h1, h2, h3, -, h5, h6⟩ := component_object Tmin hmin gsp g hT.ne' hd
  refine ⟨o, h1, h2, ?_, ?_⟩
  · intro hle v u
    rw [h6, max_eq_left (by rw [h3 hT]; exact hle), div_self h5, one_mul, one_mul, one_mul]
  · intro hlt
    have hR : R = 2 * Real.sqrt (g.irr * g.icc - g.irc ^ 2) := h3 hT
    have hRpos : 0 < R := by rw [hR]; have := Real.sqrt_pos.2 hd; linarith
    refine ⟨Tmin / R, by rw [← hR]; field_simp, by rw [one_lt_div hRpos, hR]; exact hlt, ?_⟩
    intro v u
    rw [h6, max_eq_right (by rw [hR]; exact hlt.le)]

/-- C86 (unchanged code): a component whose covariance is negative definite is not refused; it becomes
a gaussian of the same shape and the smallest size. -/
theorem C86_negative_accepted {P : Type} (Tmin : ℝ) (hmin : 0 < Tmin) (gsp : Option P) (g : Gauss)
    (hT : g.irr + g.icc < 0) (hd : 0 < g.irr * g.icc - g.irc ^ 2) :
    ∃ (o : GSObj P) (f : ℝ), gsComponent Tmin gsp g = some (.ok o) ∧ f < 0 ∧
      f * (2 * Real.sqrt (g.irr * g.icc - g.irc ^ 2)) = -Tmin ∧
      ∀ v u, brightness o u v = normal2 g.p g.row g.col (f * g.irr) (f * g.irc) (f * g.icc) v u := by
  obtain ⟨o, R, h1, -, -, h4, h5, h6⟩ := component_object Tmin hmin gsp g hT.ne hd
  have hR : R = -(2 * Real.sqrt (g.irr * g.icc - g.irc ^ 2)) := h4 hT
  have hs := Real.sqrt_pos.2 hd
  have hRneg : R < 0 := by rw [hR]; linarith
  refine ⟨o, Tmin / R, h1, div_neg_of_pos_of_neg hmin hRneg, ?_, ?_⟩
  · have : 2 * Real.sqrt (g.irr * g.icc - g.irc ^ 2) = -R := by rw [hR]; ring
    rw [this]; field_simp
  · intro v u
    rw [h6, max_eq_right (by linarith)]

/-- C86: a point (all second moments zero) becomes a round gaussian of size `Tmin`. -/
theorem C86_point {P : Type} (Tmin : ℝ) (hmin : 0 < Tmin) (gsp : Option P) (g : Gauss)
    (h1 : g.irr = 0) (h2 : g.irc = 0) (h3 : g.icc = 0) :
    ∃ o : GSObj P, gsComponent Tmin gsp g = some (.ok o) ∧ paramsOf o = gsp ∧
      ∀ v u, brightness o u v = normal2 g.p g.row g.col (Tmin / 2) 0 (Tmin / 2) v u := by
  have he : e1e2ToG1G2 0 0 = .ok (0, 0) := C05_zero.2.1
  have hR : getTround Tmin 0 0 = Tmin := by unfold getTround; norm_num
  refine ⟨.shift (.shear (.gaussian g.p (Real.sqrt (Tmin / 2)) gsp) 0 0) g.col g.row, ?_, rfl, ?_⟩
  · unfold gsComponent
    simp only [h1, h2, h3]
    norm_num [hmin.ne', he, hR, not_lt.2 hmin.le]
  · intro v u
    rw [sheared_brightness gsp g.p g.row g.col 0 0 (Tmin / 2) (Tmin / 2) (by unfold InDisk; norm_num)
      (by linarith) (by ring)]
    congr 1 <;> ring

/-- C86: when one component is refused. -/
theorem C86_component_refused {P : Type} (Tmin : ℝ) (hmin : 0 < Tmin) (gsp : Option P) (g : Gauss) :
    (gsComponent Tmin gsp g = some (.error .gmixRange) ↔
      traceOr Tmin g ^ 2 ≤ (g.icc - g.irr) ^ 2 + (2 * g.irc) ^ 2) ∧
    (¬ traceOr Tmin g ^ 2 ≤ (g.icc - g.irr) ^ 2 + (2 * g.irc) ^ 2 →
      ∃ o, gsComponent Tmin gsp g = some (.ok o) ∧ paramsOf o = gsp) ∧
    (g.irr + g.icc ≠ 0 → (traceOr Tmin g ^ 2 ≤ (g.icc - g.irr) ^ 2 + (2 * g.irc) ^ 2 ↔
      g.irr * g.icc - g.irc ^ 2 ≤ 0)) := by
  have hT0 : traceOr Tmin g ≠ 0 := by
    unfold traceOr; split_ifs with h
    · exact hmin.ne'
    · exact h
  have key : ∀ a b : ℝ, InDisk (a / traceOr Tmin g) (b / traceOr Tmin g) ↔ ¬ traceOr Tmin g ^ 2 ≤ a ^ 2 + b ^ 2 := by
    intro a b
    unfold InDisk
    rw [div_pow, div_pow, ← add_div, div_lt_one (by positivity), not_le]
  have hlook : gsComponent Tmin gsp g =
      match e1e2ToG1G2 ((g.icc - g.irr) / traceOr Tmin g) (2 * g.irc / traceOr Tmin g) with
      | .error e => some (.error e)
      | .ok gs =>
        if (if getTround (traceOr Tmin g) gs.1 gs.2 < Tmin then Tmin else getTround (traceOr Tmin g) gs.1 gs.2) < 0
        then none else some (.ok (.shift (.shear (.gaussian g.p (Real.sqrt
          ((if getTround (traceOr Tmin g) gs.1 gs.2 < Tmin then Tmin else
            getTround (traceOr Tmin g) gs.1 gs.2) / 2)) gsp) gs.1 gs.2) g.col g.row)) := by
    unfold gsComponent
    dsimp only
    rw [if_neg (show ¬ (if g.irr + g.icc = 0 then Tmin else g.irr + g.icc) = 0 from hT0)]
    rfl
  have hgood : InDisk ((g.icc - g.irr) / traceOr Tmin g) (2 * g.irc / traceOr Tmin g) →
      ∃ o, gsComponent Tmin gsp g = some (.ok o) ∧ paramsOf o = gsp := by
    intro hin
    rw [hlook, e1e2ToG1G2_closed hin]
    simp only
    rw [if_neg]
    · exact ⟨_, rfl, rfl⟩
    · split_ifs with h
      · exact not_lt.2 hmin.le
      · exact not_lt.2 (hmin.le.trans (not_lt.1 h))
  refine ⟨⟨?_, ?_⟩, ?_, ?_⟩
  · intro h
    by_contra hc
    obtain ⟨o, ho, -⟩ := hgood ((key _ _).2 hc)
    rw [ho] at h
    simp at h
  · intro h
    rw [hlook]
    have : e1e2ToG1G2 ((g.icc - g.irr) / traceOr Tmin g) (2 * g.irc / traceOr Tmin g) = .error .gmixRange := by
      unfold e1e2ToG1G2
      have hn : ¬ InDisk ((g.icc - g.irr) / traceOr Tmin g) (2 * g.irc / traceOr Tmin g) := by
        rw [key]; exact not_not.2 h
      unfold InDisk at hn
      simp [(sqrt_ge_one_iff _ _).2 hn]
    rw [this]
  · exact fun h => hgood ((key _ _).2 h)
  · intro hT
    unfold traceOr
    rw [if_neg hT]
    constructor <;> intro h <;> nlinarith

theorem gsComponents_spec {P : Type} (Tmin : ℝ) (gsp : Option P) (gm : List Gauss)
    (h : ∀ g ∈ gm, ∃ o, gsComponent Tmin gsp g = some (.ok o) ∧ paramsOf o = gsp ∧
      ∀ v u, brightness o u v = normal2 g.p g.row g.col g.irr g.irc g.icc v u) :
    ∃ os, gsComponents Tmin gsp gm = some (.ok os) ∧ os.length = gm.length ∧ (∀ o ∈ os, paramsOf o = gsp) ∧
      ∀ v u, sumBrightness os u v = mixBrightness gm v u := by
  induction gm with
  | nil => exact ⟨[], rfl, rfl, by simp, fun v u => rfl⟩
  | cons g gm ih =>
    obtain ⟨os, h1, h2, h3, h4⟩ := ih fun x hx => h x (List.mem_cons_of_mem _ hx)
    obtain ⟨o, k1, k2, k3⟩ := h g List.mem_cons_self
    refine ⟨o :: os, ?_, by simp [h2], ?_, ?_⟩
    · unfold gsComponents
      rw [k1, h1]; rfl
    · intro x hx
      rcases List.mem_cons.1 hx with rfl | hx
      · exact k2
      · exact h3 x hx
    · intro v u
      have := h4 v u
      unfold sumBrightness mixBrightness at *
      rw [List.map_cons, List.map_cons, List.sum_cons, List.sum_cons, k3, this]

/-- C86: the object has the brightness of the mixture at every point, `x` being the column and `y` the
row coordinate. -/
theorem C86_brightness {P : Type} (gm : List Gauss) (hne : gm ≠ []) (Tmin : ℝ) (hmin : 0 < Tmin)
    (arg : GSParamsArg P) (gsp : Option P) (hp : gsParams arg = .ok gsp)
    (h : ∀ g ∈ gm, 0 < g.irr + g.icc ∧ 0 < g.irr * g.icc - g.irc ^ 2 ∧
      Tmin ≤ 2 * Real.sqrt (g.irr * g.icc - g.irc ^ 2)) :
    ∃ os, makeGalsimObject gm Tmin arg = some (.ok os) ∧ os.length = gm.length ∧
      (∀ o ∈ os, paramsOf o = gsp) ∧ ∀ v u, sumBrightness os u v = mixBrightness gm v u := by
  obtain ⟨os, h1, h2, h3, h4⟩ := gsComponents_spec Tmin gsp gm (by
    intro g hg
    obtain ⟨a, b, c⟩ := h g hg
    obtain ⟨o, k1, k2, k3, -⟩ := C86_component Tmin hmin gsp g a b
    exact ⟨o, k1, k2, k3 c⟩)
  refine ⟨os, ?_, h2, h3, h4⟩
  unfold makeGalsimObject
  rw [hp]
  simp only [h1]
  cases os with
  | nil => exact absurd (List.length_eq_zero_iff.1 h2.symm) hne
  | cons o os => rfl

theorem gsComponents_refused {P : Type} (Tmin : ℝ) (hmin : 0 < Tmin) (gsp : Option P) (gm : List Gauss) :
    ((∃ g ∈ gm, traceOr Tmin g ^ 2 ≤ (g.icc - g.irr) ^ 2 + (2 * g.irc) ^ 2) →
      gsComponents Tmin gsp gm = some (.error .gmixRange)) ∧
    (¬ (∃ g ∈ gm, traceOr Tmin g ^ 2 ≤ (g.icc - g.irr) ^ 2 + (2 * g.irc) ^ 2) →
      ∃ os, gsComponents Tmin gsp gm = some (.ok os) ∧ os.length = gm.length) := by
  induction gm with
  | nil => exact ⟨by rintro ⟨g, hg, -⟩; simp at hg, fun _ => ⟨[], rfl, rfl⟩⟩
  | cons g gm ih =>
    obtain ⟨i1, i2⟩ := ih
    obtain ⟨c1, c2, -⟩ := C86_component_refused Tmin hmin gsp g
    by_cases hg : traceOr Tmin g ^ 2 ≤ (g.icc - g.irr) ^ 2 + (2 * g.irc) ^ 2
    · refine ⟨fun _ => ?_, fun hc => absurd ⟨g, List.mem_cons_self, hg⟩ hc⟩
      unfold gsComponents
      rw [c1.2 hg]
    · obtain ⟨o, ho, -⟩ := c2 hg
      refine ⟨?_, ?_⟩
      · rintro ⟨x, hx, hbad⟩
        rcases List.mem_cons.1 hx with rfl | hx
        · exact absurd hbad hg
        · unfold gsComponents
          rw [ho, i1 ⟨x, hx, hbad⟩]; rfl
      · intro hc
        obtain ⟨os, h1, h2⟩ := i2 fun ⟨x, hx, hb⟩ => hc ⟨x, List.mem_cons_of_mem _ hx, hb⟩
        refine ⟨o :: os, ?_, by simp [h2]⟩
        unfold gsComponents
        rw [ho, h1]; rfl

/-- C86: the whole set of outcomes.  A `gsparams` that is neither a `GSParams` nor a dict is refused first,
with TypeError; then one bad component is enough for GMixRangeError; a mixture of no components gives
TypeError; otherwise there is one term per component. -/
theorem C86_outcomes {P : Type} (gm : List Gauss) (Tmin : ℝ) (hmin : 0 < Tmin) (arg : GSParamsArg P) :
    (arg = .other → makeGalsimObject gm Tmin arg = some (.error .type)) ∧
    (∀ e, arg = .dict (.error e) → makeGalsimObject gm Tmin arg = some (.error e)) ∧
    (∀ gsp, gsParams arg = .ok gsp →
      (gm = [] → makeGalsimObject gm Tmin arg = some (.error .type)) ∧
      (makeGalsimObject gm Tmin arg = some (.error .gmixRange) ↔
        ∃ g ∈ gm, traceOr Tmin g ^ 2 ≤ (g.icc - g.irr) ^ 2 + (2 * g.irc) ^ 2) ∧
      (gm ≠ [] → ¬ (∃ g ∈ gm, traceOr Tmin g ^ 2 ≤ (g.icc - g.irr) ^ 2 + (2 * g.irc) ^ 2) →
        ∃ os, makeGalsimObject gm Tmin arg = some (.ok os) ∧ os.length = gm.length)) := by
  refine ⟨?_, ?_, ?_⟩
  · rintro rfl; rfl
  · rintro e rfl; rfl
  · intro gsp hp
    obtain ⟨h1, h2⟩ := gsComponents_refused Tmin hmin gsp gm
    have hgood : gm ≠ [] → ¬ (∃ g ∈ gm, traceOr Tmin g ^ 2 ≤ (g.icc - g.irr) ^ 2 + (2 * g.irc) ^ 2) →
        ∃ os, makeGalsimObject gm Tmin arg = some (.ok os) ∧ os.length = gm.length := by
      intro hne hc
      obtain ⟨os, k1, k2⟩ := h2 hc
      refine ⟨os, ?_, k2⟩
      unfold makeGalsimObject
      rw [hp]
      simp only [k1]
      cases os with
      | nil => exact absurd (List.length_eq_zero_iff.1 k2.symm) hne
      | cons o os => rfl
    have hnil : gm = [] → makeGalsimObject gm Tmin arg = some (.error .type) := by
      rintro rfl
      unfold makeGalsimObject
      rw [hp]; rfl
    refine ⟨hnil, ⟨?_, ?_⟩, hgood⟩
    · intro h
      by_contra hc
      by_cases hne : gm = []
      · rw [hnil hne] at h; simp at h
      · obtain ⟨os, k, -⟩ := hgood hne hc
        rw [k] at h; simp at h
    · intro h
      unfold makeGalsimObject
      rw [hp]
      simp only [h1 h]

/-- The hypotheses are met: an elongated component and an offset one, with the default floor. -/
example : ∀ g ∈ [gauss2dSet 1 0 0 2 0.5 1, gauss2dSet 3 1 (-1) 1 0 1], 0 < g.irr + g.icc ∧
    0 < g.irr * g.icc - g.irc ^ 2 ∧ (1e-6 : ℝ) ≤ 2 * Real.sqrt (g.irr * g.icc - g.irc ^ 2) := by
  intro g hg
  have key : ∀ D : ℝ, 1 ≤ D → (1e-6 : ℝ) ≤ 2 * Real.sqrt D := by
    intro D hD
    have : 1 ≤ Real.sqrt D := Real.one_le_sqrt.2 hD
    norm_num; linarith
  simp only [List.mem_cons, List.not_mem_nil, or_false] at hg
  rcases hg with rfl | rfl
  · refine ⟨by norm_num [gauss2dSet], by norm_num [gauss2dSet], key _ (by norm_num [gauss2dSet])⟩
  · refine ⟨by norm_num [gauss2dSet], by norm_num [gauss2dSet], key _ (by norm_num [gauss2dSet])⟩

end Ngmix.Props
