import Verif.Model.AdmomGuess
import Verif.Props.Admom
import Verif.Props.GMix
import Verif.Props.GMixCopy
import Verif.Props.Moments

/-!
# Adaptive moments started from a size; the centre finder from a width or a mixture (C51)
-/

namespace Ngmix.Props

open Ngmix Ngmix.Spec

noncomputable section

/-- The new gaussian model mixture. -/
theorem gauss_weight (row col g1 g2 T : ℝ) (hg : InDisk g1 g2) :
    ∃ o g, newGMixModel [row, col, g1, g2, T, 1.0] (.str "gauss") = .ok o ∧ o.data = [g] ∧ g.p = 1 ∧
      HasShape g row col g1 g2 T ∧ DetCurrent g ∧ g.normSet = false := by
  obtain ⟨gm, hgm, hall⟩ := (C22_fill_simple fvalsGauss pvalsGauss row col g1 g2 T 1.0).2 hg
  have hnew : ∃ ob, newGMixModel [row, col, g1, g2, T, 1.0] (.str "gauss") = .ok ob ∧ ob.data = gm := by
    simp [newGMixModel, num_facts, name_facts, ngauss_facts, npars_facts, Except.bind,
        fillNames, built, fillChecked, resetObj, fillObj, fillFunc, hgm]
  obtain ⟨ob, hob, hdat⟩ := hnew
  have hzip : fvalsGauss.zip pvalsGauss = [(1, 1)] := by simp [fvalsGauss, pvalsGauss]
  rw [hzip] at hall
  obtain ⟨g, gs, hx, hxs, hgmeq⟩ := List.forall₂_cons_left_iff.mp hall
  rw [List.forall₂_nil_left_iff] at hxs
  obtain ⟨hp, hs, hx1, hx2⟩ := hx
  rw [mul_one] at hs
  exact ⟨ob, g, hob, by rw [hdat, hgmeq, hxs], by rw [hp]; norm_num, hs, hx1, hx2⟩

/-- C51: the weight made from a size `T` alone, whatever the generator gives: one gaussian of unit flux, its centre within
half a pixel scale of the centre of the jacobian in each direction, each shape component at most 0.3, and a size within ten
percent of `T`.  Five deviates are used.  For a size of `1e-99` or more it is a valid weight. -/
theorem C51_size_guess {σ : Type} (r : URng σ) (hr : ∀ s, 0 ≤ (r.unit s).1 ∧ (r.unit s).1 < 1) (scale T : ℝ)
    (hs : 0 ≤ scale) (hT : 0 ≤ T) (s : σ) :
    ∃ g row col g1 g2 T', amGetGuess r scale (.size T) s =
        .ok (⟨g, []⟩, (r.unit (r.unit (r.unit (r.unit (r.unit s).2).2).2).2).2) ∧
      g.p = 1 ∧ HasShape g row col g1 g2 T' ∧ |row| ≤ scale / 2 ∧ |col| ≤ scale / 2 ∧ |g1| ≤ 0.3 ∧ |g2| ≤ 0.3 ∧
      0.9 * T ≤ T' ∧ T' ≤ 1.1 * T ∧ DetCurrent g ∧ (1e-99 ≤ T → Usable g) := by
  have h1 := hr s
  have h2 := hr (r.unit s).2
  have h3 := hr (r.unit (r.unit s).2).2
  have h4 := hr (r.unit (r.unit (r.unit s).2).2).2
  have h5 := hr (r.unit (r.unit (r.unit (r.unit s).2).2).2).2
  simp only [amGetGuess, amDrawGuess, amGenerateGuess, URng.uniform]
  generalize (r.unit s).1 = u1 at h1
  generalize (r.unit (r.unit s).2).1 = u2 at h2
  generalize (r.unit (r.unit (r.unit s).2).2).1 = u3 at h3
  generalize (r.unit (r.unit (r.unit (r.unit s).2).2).2).1 = u4 at h4
  generalize (r.unit (r.unit (r.unit (r.unit (r.unit s).2).2).2).2).1 = u5 at h5
  have a1 : |(-0.3 + (0.3 - -0.3) * u3 : ℝ)| ≤ 0.3 := by rw [abs_le]; constructor <;> norm_num <;> linarith
  have a2 : |(-0.3 + (0.3 - -0.3) * u4 : ℝ)| ≤ 0.3 := by rw [abs_le]; constructor <;> norm_num <;> linarith
  have a3 : |-0.5 * scale + (0.5 * scale - -0.5 * scale) * u1| ≤ scale / 2 := by
    rw [abs_le]; constructor <;> norm_num <;> nlinarith
  have a4 : |-0.5 * scale + (0.5 * scale - -0.5 * scale) * u2| ≤ scale / 2 := by
    rw [abs_le]; constructor <;> norm_num <;> nlinarith
  have a5 : 0.9 * T ≤ T * (1.0 + (-0.1 + (0.1 - -0.1) * u5)) := by norm_num; nlinarith
  have a6 : T * (1.0 + (-0.1 + (0.1 - -0.1) * u5)) ≤ 1.1 * T := by norm_num; nlinarith
  generalize (-0.3 + (0.3 - -0.3) * u3 : ℝ) = g1 at a1 ⊢
  generalize (-0.3 + (0.3 - -0.3) * u4 : ℝ) = g2 at a2 ⊢
  generalize -0.5 * scale + (0.5 * scale - -0.5 * scale) * u1 = row at a3 ⊢
  generalize -0.5 * scale + (0.5 * scale - -0.5 * scale) * u2 = col at a4 ⊢
  generalize T * (1.0 + (-0.1 + (0.1 - -0.1) * u5)) = T' at a5 a6 ⊢
  have q1 : g1 ^ 2 ≤ 0.09 := by
    rw [← sq_abs]
    calc |g1| ^ 2 ≤ (0.3 : ℝ) ^ 2 := pow_le_pow_left₀ (abs_nonneg _) a1 2
      _ = 0.09 := by norm_num
  have q2 : g2 ^ 2 ≤ 0.09 := by
    rw [← sq_abs]
    calc |g2| ^ 2 ≤ (0.3 : ℝ) ^ 2 := pow_le_pow_left₀ (abs_nonneg _) a2 2
      _ = 0.09 := by norm_num
  have hdisk : InDisk g1 g2 := by
    unfold InDisk
    norm_num at q1 q2
    linarith
  obtain ⟨o, g, ho, hd, hp, hsh, hdc, -⟩ := gauss_weight row col g1 g2 T' hdisk
  refine ⟨g, row, col, g1, g2, T', ?_, hp, hsh, a3, a4, a1, a2, a5, a6, hdc, fun hT1 => ?_⟩
  · rw [ho]
    simp only [Except.map, Except.bind, amWeight, hd]
  · obtain ⟨-, -, t1, t2, t3⟩ := hsh
    have hq : 0 < 1 + (g1 ^ 2 + g2 ^ 2) := by positivity
    have hT9 : 0.9e-99 ≤ T' := by
      refine le_trans ?_ a5
      norm_num at hT1 ⊢
      linarith
    unfold Usable gmixLowDetval
    constructor
    · have hdet : 4 * (g.irr * g.icc - g.irc * g.irc) = T' ^ 2 * ((1 - (g1 ^ 2 + g2 ^ 2)) / (1 + (g1 ^ 2 + g2 ^ 2))) ^ 2 := by
        have : 4 * (g.irr * g.icc - g.irc * g.irc) =
            (g.irr + g.icc) ^ 2 - (g.icc - g.irr) ^ 2 - (2 * g.irc) ^ 2 := by ring
        rw [this, t1, t2, t3]
        field_simp
        ring
      have hf : (1 / 2 : ℝ) ≤ (1 - (g1 ^ 2 + g2 ^ 2)) / (1 + (g1 ^ 2 + g2 ^ 2)) := by
        rw [le_div_iff₀ hq]
        norm_num at q1 q2
        linarith
      have hf2 : (1 / 4 : ℝ) ≤ ((1 - (g1 ^ 2 + g2 ^ 2)) / (1 + (g1 ^ 2 + g2 ^ 2))) ^ 2 := by nlinarith
      have hT2 : (0.9e-99 : ℝ) ^ 2 ≤ T' ^ 2 := pow_le_pow_left₀ (by norm_num) hT9 2
      have hfin : (0.9e-99 : ℝ) ^ 2 * (1 / 4) ≤ T' ^ 2 * ((1 - (g1 ^ 2 + g2 ^ 2)) / (1 + (g1 ^ 2 + g2 ^ 2))) ^ 2 :=
        mul_le_mul hT2 hf2 (by norm_num) (by positivity)
      rw [← hdet] at hfin
      have hnum : (4e-200 : ℝ) ≤ (0.9e-99 : ℝ) ^ 2 * (1 / 4) := by norm_num
      norm_num at hnum hfin ⊢
      linarith
    · rw [t1]
      refine lt_of_lt_of_le ?_ hT9
      norm_num

/-- C51: adaptive moments started from a size always give a result that says how the run ended, whatever the generator
gives, if `maxiter` is positive and no pixel has zero weight. -/
theorem C51_from_size {σ : Type} (r : URng σ) (hr : ∀ s, 0 ≤ (r.unit s).1 ∧ (r.unit s).1 < 1) (conf : AMConf)
    (pixels : List Pixel) (area scale T : ℝ) (hs : 0 ≤ scale) (hT : 0 ≤ T) (s : σ) (hmax : 0 < conf.maxiter)
    (hpx : ∀ px ∈ pixels, px.ierr ≠ 0) :
    ∃ guess s' w o, amGetGuess r scale (.size T) s = .ok (guess, s') ∧
      admomFit conf pixels area scale r (.size T) s = .ok (w, s', o) ∧
      Ended conf pixels guess w o.numiter o.fluxFlags ∧ (o.numiter : ℤ) ≤ conf.maxiter := by
  obtain ⟨g, row, col, g1, g2, T', hg, -, -, -, -, -, -, -, -, hdc, -⟩ := C51_size_guess r hr scale T hs hT s
  obtain ⟨w, o, h, hE, hn, -⟩ := C51_outcome conf pixels area ⟨g, []⟩ (by
    intro x hx
    simp only [AMWt.list, List.mem_singleton] at hx
    rw [hx]; exact hdc) hmax hpx
  refine ⟨_, _, w, o, hg, ?_, hE, hn⟩
  unfold admomFit
  rw [hg]
  simp only [Except.bind, h, Except.map]

/-- C51: a mixture given as guess is itself the weight, and the generator is not used. -/
theorem C51_from_mixture {σ : Type} (r : URng σ) (conf : AMConf) (pixels : List Pixel) (area scale : ℝ) (w : AMWt) (s : σ) :
    admomFit conf pixels area scale r (.mix w) s =
      (admomGo conf pixels area w).2.map fun o => ((admomGo conf pixels area w).1, s, o) := rfl

/-- C51: the weight is moved between the tries of the centre finder to within half a pixel scale of the centre of the
jacobian, and keeps its flux and its covariances. -/
theorem C51_find_cen_move (scale : ℝ) (hs : 0 ≤ scale) (u : ℕ → ℝ) (hu : ∀ i, 0 ≤ u i ∧ u i < 1) (i : ℕ) (w w' : AMWt)
    (hf : Flux w.list ≠ 0) (h : findCenMove scale u i w = .ok w') :
    ∃ row col, Centroid w'.list row col ∧ |row| ≤ scale / 2 ∧ |col| ≤ scale / 2 ∧ Flux w'.list = Flux w.list ∧
      List.Forall₂ (fun g g' => g'.p = g.p ∧ gcov g' = gcov g ∧ g'.det = g.det) w.list w'.list := by
  unfold findCenMove at h
  have hb : ∀ x : ℝ, 0 ≤ x ∧ x < 1 → |-scale / 2 + (scale / 2 - -scale / 2) * x| ≤ scale / 2 := by
    intro x hx
    rw [abs_le]
    constructor <;> nlinarith
  have h1 := hb _ (hu (2 * i))
  have h2 := hb _ (hu (2 * i + 1))
  generalize -scale / 2 + (scale / 2 - -scale / 2) * u (2 * i) = row at *
  generalize -scale / 2 + (scale / 2 - -scale / 2) * u (2 * i + 1) = col at *
  obtain ⟨hn, hk⟩ := C18_set_cen w.list row col
  cases hc : setCen w.list row col with
  | none => exact absurd (hn.mp hc) hf
  | some l =>
    obtain ⟨k1, k2, ⟨dr, dc, k3⟩, -⟩ := hk l hc
    rw [hc] at h
    have k4 : List.Forall₂ (fun g g' : Gauss => g'.p = g.p ∧ gcov g' = gcov g ∧ g'.det = g.det) w.list l := by
      refine k3.imp ?_
      rintro g g' rfl
      exact ⟨rfl, rfl, rfl⟩
    cases l with
    | nil => exact absurd k3.length_eq (by simp [AMWt.list])
    | cons g gs =>
      simp only [Except.ok.injEq] at h
      subst h
      exact ⟨row, col, k1, h1, h2, k2, k4⟩

theorem findCenMove_same (scale : ℝ) (u : ℕ → ℝ) (i : ℕ) (w w' : AMWt) (hw : ∀ g ∈ w.list, DetCurrent g)
    (h : findCenMove scale u i w = .ok w') : SameButCentre w w' := by
  unfold findCenMove at h
  generalize -scale / 2 + (scale / 2 - -scale / 2) * u (2 * i) = row at *
  generalize -scale / 2 + (scale / 2 - -scale / 2) * u (2 * i + 1) = col at *
  obtain ⟨-, hk⟩ := C18_set_cen w.list row col
  cases hc : setCen w.list row col with
  | none =>
    rw [hc] at h
    simp only [Except.ok.injEq] at h
    subst h
    exact ⟨hw, rfl⟩
  | some l =>
    obtain ⟨-, -, ⟨dr, dc, k3⟩, -⟩ := hk l hc
    rw [hc] at h
    cases l with
    | nil => exact absurd k3.length_eq (by simp [AMWt.list])
    | cons g gs =>
      simp only [Except.ok.injEq] at h
      subst h
      refine ⟨?_, ?_⟩
      · change ∀ g' ∈ g :: gs, DetCurrent g'
        clear hc hk
        generalize w.list = l0 at hw k3
        generalize g :: gs = l1 at k3
        induction k3 with
        | nil => intro _ h; cases h
        | @cons a b _ _ hab _ ih =>
          intro x hx
          rcases List.mem_cons.mp hx with rfl | hx
          · rw [hab]
            have := hw a List.mem_cons_self
            exact this
          · exact ih (fun y hy => hw y (List.mem_cons_of_mem _ hy)) x hx
      · unfold AMWt.list at k3
        obtain ⟨h0, -⟩ := List.forall₂_cons.mp k3
        change gcov g = gcov w.g
        rw [h0]
        rfl

/-- C51, the centre finder, whatever the generator gives: from a width the weight is the round gaussian of that width about
the centre of the jacobian, whose size the result reports when it is not flagged; the centre is NaN exactly when the result
is flagged, and otherwise it is the weighted centroid of the image to which the weight has been moved. -/
theorem C51_find_cen_fwhm (conf : AMConf) (pixels : List Pixel) (area scale : ℝ) (ntry : ℤ) (rng : Option (ℕ → ℝ))
    (fwhm : ℝ) (hmax : 0 < conf.maxiter) (hpx : ∀ px ∈ pixels, px.ierr ≠ 0) (o : AMOut) (cen : Option (ℝ × ℝ))
    (h : findCenRun conf pixels area scale ntry rng none (some fwhm) = .ok (o, cen)) :
    (o.flags ≠ 0 → cen = none) ∧
    (o.flags = 0 → ∃ w1 w, cen = some (w.g.row, w.g.col) ∧ Recentred pixels w1 w ∧
      gcov w.g = (fwhmToSigma fwhm ^ 2, 0, fwhmToSigma fwhm ^ 2) ∧ o.T = .fin (2 * fwhmToSigma fwhm ^ 2)) := by
  obtain ⟨ob, g, hob, hd, hp, ⟨s1, s2, s3, s4, s5⟩, hdc, -⟩ := gauss_weight 0.0 0.0 0.0 0.0 (fwhmToT fwhm)
    (by norm_num [InDisk])
  unfold findCenRun at h
  by_cases hr : ntry > 1 ∧ rng = none
  · rw [if_pos hr] at h; cases h
  rw [if_neg hr] at h
  simp only [findCenStart, hob, Except.bind, amWeight, hd] at h
  have hTT : fwhmToT fwhm = 2 * fwhmToSigma fwhm ^ 2 := rfl
  have e4 : g.icc - g.irr = 0 := by rw [s4]; norm_num
  have e5 : 2 * g.irc = 0 := by rw [s5]; norm_num
  have c1 : g.irr = fwhmToSigma fwhm ^ 2 := by rw [hTT] at s3; linarith
  have c2 : g.icc = fwhmToSigma fwhm ^ 2 := by rw [hTT] at s3; linarith
  have c3 : g.irc = 0 := by linarith
  obtain ⟨f1, f2⟩ := C51_find_cen conf pixels area _ ntry rng.isSome ⟨g, []⟩ o cen (by
      intro x hx
      simp only [AMWt.list, List.mem_singleton] at hx
      rw [hx]; exact hdc) hmax hpx (fun i w w' hw he => findCenMove_same scale _ i w w' hw he) h
  refine ⟨f1, fun hz => ?_⟩
  obtain ⟨w1, w, q1, q2, q3, q4⟩ := f2 hz
  refine ⟨w1, w, q1, q2, by rw [q3]; simp only [gcov, c1, c2, c3], ?_⟩
  rw [q4]
  simp only [c1, c2]
  congr 1
  ring

/-- C51, the centre finder from a mixture: it works on a copy, with the covariance of its first gaussian. -/
theorem C51_find_cen_mixture (conf : AMConf) (pixels : List Pixel) (area scale : ℝ) (ntry : ℤ) (rng : Option (ℕ → ℝ))
    (gmix : GMixObj) (hgm : ModelReach gmix) (g : Gauss) (gs : List Gauss) (hd : gmix.data = g :: gs)
    (hdc : ∀ x ∈ gmix.data, DetCurrent x) (fwhm : Option ℝ) (hmax : 0 < conf.maxiter)
    (hpx : ∀ px ∈ pixels, px.ierr ≠ 0) (o : AMOut) (cen : Option (ℝ × ℝ))
    (h : findCenRun conf pixels area scale ntry rng (some gmix) fwhm = .ok (o, cen)) :
    (o.flags ≠ 0 → cen = none) ∧
    (o.flags = 0 → ∃ w1 w, cen = some (w.g.row, w.g.col) ∧ Recentred pixels w1 w ∧ gcov w.g = gcov g ∧
      o.T = .fin (g.irr + g.icc)) := by
  unfold findCenRun at h
  by_cases hr : ntry > 1 ∧ rng = none
  · rw [if_pos hr] at h; cases h
  rw [if_neg hr] at h
  simp only [findCenStart, C24_copy gmix hgm, Except.bind, amWeight, hd] at h
  exact C51_find_cen conf pixels area _ ntry rng.isSome ⟨g, gs⟩ o cen (by rw [hd] at hdc; exact hdc) hmax hpx
    (fun i w w' hw he => findCenMove_same scale _ i w w' hw he) h

/-- C51, the centre finder, wrong calls: several tries without a generator, and neither a mixture nor a width. -/
theorem C51_find_cen_calls (conf : AMConf) (pixels : List Pixel) (area scale : ℝ) (ntry : ℤ) (rng : Option (ℕ → ℝ))
    (gmix : Option GMixObj) (fwhm : Option ℝ) :
    (1 < ntry → findCenRun conf pixels area scale ntry none gmix fwhm = .error .value) ∧
    findCenRun conf pixels area scale ntry rng none none = .error .value := by
  constructor
  · intro h
    unfold findCenRun
    rw [if_pos ⟨h, rfl⟩]
  · unfold findCenRun
    split_ifs <;> rfl

/-! ### Examples -/

/-- A generator that always gives one half: the weight is at the centre, round, and of the size asked for. -/
example : ∃ g, amGetGuess (⟨fun n : ℕ => (1 / 2, n + 1)⟩ : URng ℕ) 1 (.size 4) 0 = .ok (⟨g, []⟩, 5) ∧ g.p = 1 ∧ Usable g := by
  obtain ⟨g, row, col, g1, g2, T', h, hp, -, -, -, -, -, -, -, -, hu⟩ :=
    C51_size_guess (⟨fun n : ℕ => (1 / 2, n + 1)⟩ : URng ℕ) (fun _ => by norm_num) 1 4 (by norm_num) (by norm_num) 0
  exact ⟨g, h, hp, hu (by norm_num)⟩

/-- The weight `exG` moved after the first try. -/
example : ∃ w', findCenMove 1 (fun _ => 1 / 4) 0 ⟨exG, []⟩ = .ok w' ∧ Flux (AMWt.list ⟨exG, []⟩) ≠ 0 ∧
    w'.g.row = -(1 / 4) := by
  refine ⟨⟨{ exG with row := -(1 / 4), col := -(1 / 4) }, []⟩, ?_, by simp [Flux, AMWt.list, exG, gauss2dSet], rfl⟩
  simp [findCenMove, setCen, getCen, psum, AMWt.list, exG, gauss2dSet]
  norm_num

end

end Ngmix.Props
