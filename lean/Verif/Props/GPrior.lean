import Verif.Model.GPrior
import Verif.Props.Samplers
import Mathlib.MeasureTheory.Measure.Lebesgue.Basic
import Mathlib.Topology.Order.IntermediateValue
import Mathlib.Analysis.SpecialFunctions.Exp

/-!
# The life of a shape prior (C94)
-/

namespace Ngmix.Spec

/-- The density of `|g|` that `GPriorBA(sigma, A=A)` is documented to have, up to its normalisation: inside the unit
interval `A 2π g (1 - g²)² exp(-g²/(2σ²))`. -/
noncomputable def baDensity (sigma A g : ℝ) : ℝ :=
  open Classical in
  if g ^ 2 < 1 then A * (2 * Real.pi * g * (1 - g ^ 2) ^ 2 * Real.exp (-(g ^ 2 / (2 * sigma ^ 2)))) else 0

/-- The density of `(g1, g2)`. -/
noncomputable def baDensity2d (sigma A g1 g2 : ℝ) : ℝ :=
  open Classical in
  if g1 ^ 2 + g2 ^ 2 < 1 then
    A * ((1 - (g1 ^ 2 + g2 ^ 2)) ^ 2 * Real.exp (-((g1 ^ 2 + g2 ^ 2) / (2 * sigma ^ 2)))) else 0

end Ngmix.Spec

namespace Ngmix.Props

open Ngmix Ngmix.Spec MeasureTheory

/-- The prior has amplitude `A` and width `sigma`, all attributes agreeing. -/
def BaAt (s : BaState) (sigma A : ℝ) : Prop :=
  s.A = .fin A ∧ s.sigma = .fin sigma ∧ s.sig2inv = .fin (1 / sigma ^ 2) ∧ sigma ≠ 0

theorem baAt_setPars (np : Bool) (sigma A : ℝ) (h : sigma ≠ 0) (s : BaState) :
    (s.setPars np [.fin A, .fin sigma]).2 = .ok () ∧ BaAt (s.setPars np [.fin A, .fin sigma]).1 sigma A ∧
    (s.setPars np [.fin A, .fin sigma]).1.maxval = s.maxval := by
  have h2 : sigma * sigma ≠ 0 := mul_self_ne_zero.mpr h
  simp [BaState.setPars, BaState.setSigma, h, BaAt, Fl.fin_div _ _ h2, pow_two]

theorem prob1dElem_at {s : BaState} {sigma A : ℝ} (h : BaAt s sigma A) (g : ℝ) :
    s.prob1dElem g = .fin (baDensity sigma A g) := by
  obtain ⟨h1, -, h3, h4⟩ := h
  unfold BaState.prob1dElem baDensity
  rw [h1, h3]
  by_cases hg : g ^ 2 < 1
  · rw [if_pos hg]
    dsimp only
    rw [if_pos (by nlinarith)]
    simp only [Fl.fin_mul, expFl]
    congr 1
    rw [show -0.5 * (g * g) * (1 / sigma ^ 2) = -(g ^ 2 / (2 * sigma ^ 2)) by ring]
    ring
  · rw [if_neg hg]
    dsimp only
    rw [if_neg (by nlinarith)]

theorem prob1d_at {s : BaState} {sigma A : ℝ} (h : BaAt s sigma A) (g : ℝ) :
    s.prob1d g = .fin (baDensity sigma A g) := by
  obtain ⟨h1, -, h3, h4⟩ := h
  unfold BaState.prob1d baDensity
  rw [h1, h3]
  by_cases hg : g ^ 2 < 1
  · rw [if_pos hg]
    dsimp only
    rw [if_pos (by nlinarith)]
    simp only [Fl.fin_mul, expFl]
    congr 1
    rw [show -0.5 * (g * g) * (1 / sigma ^ 2) = -(g ^ 2 / (2 * sigma ^ 2)) by ring]
    ring
  · rw [if_neg hg]
    dsimp only
    rw [if_neg (by nlinarith)]
    simp

theorem prob2dElem_at {s : BaState} {sigma A : ℝ} (h : BaAt s sigma A) (g1 g2 : ℝ) :
    s.prob2dElem g1 g2 = .fin (baDensity2d sigma A g1 g2) := by
  obtain ⟨h1, -, h3, h4⟩ := h
  unfold BaState.prob2dElem baDensity2d
  rw [h1, h3]
  by_cases hg : g1 ^ 2 + g2 ^ 2 < 1
  · rw [if_pos hg]
    dsimp only
    rw [if_pos (by nlinarith)]
    simp only [Fl.fin_mul, expFl]
    congr 1
    rw [show -0.5 * (g1 * g1 + g2 * g2) * (1 / sigma ^ 2) = -((g1 ^ 2 + g2 ^ 2) / (2 * sigma ^ 2)) by ring]
    ring
  · rw [if_neg hg]
    dsimp only
    rw [if_neg (by nlinarith)]

/-! ### Histories -/

theorem setSigma_maxval (np : Bool) (x : Fl) (s : BaState) : (s.setSigma np x).1.maxval = s.maxval := by
  unfold BaState.setSigma; split_ifs <;> rfl

theorem setPars_maxval (np : Bool) (p : List Fl) (s : BaState) : (s.setPars np p).1.maxval = s.maxval := by
  rcases p with _ | ⟨a, _ | ⟨b, l⟩⟩
  · rfl
  · rfl
  · exact setSigma_maxval np b _

theorem calcFdiff_fst (data : List (ℝ × ℝ)) (p : List (Option ℝ)) (s : BaState) :
    (BaState.calcFdiff data p s).1 = (s.setPars true (p.map BaState.ofPar)).1 := by
  unfold BaState.calcFdiff
  rcases h : s.setPars true (p.map BaState.ofPar) with ⟨s', _ | _⟩ <;> rfl

theorem after_maxval (data : List (ℝ × ℝ)) (tr : List (List (Option ℝ))) : ∀ s : BaState,
    (s.after data tr).maxval = s.maxval := by
  induction tr with
  | nil => intro s; rfl
  | cons p tr ih =>
    intro s
    change (BaState.after data tr (BaState.calcFdiff data p s).1).maxval = _
    rw [ih, calcFdiff_fst, setPars_maxval]

theorem fit_maxval (lsq : BaState.Lsq) (eig : (Fin 2 → Fin 2 → Fl) → Option (List Fl)) (xy : List (ℝ × ℝ))
    (guess : Option (ℝ × ℝ)) (u1 u2 : ℝ) (s : BaState) : (s.fit lsq eig xy guess u1 u2).1.maxval = s.maxval := by
  unfold BaState.fit
  dsimp only
  split
  · rfl
  · split
    · exact after_maxval _ _ _
    · split <;> exact after_maxval _ _ _

theorem sample_some (mi : BaState.Minimise) (g : Option ℝ) (u0 : ℝ) (n : ℕ) (d : ℕ → ℕ → List (ℝ × ℝ)) (f : ℕ)
    (s : BaState) (m : ℝ) (h : s.maxval = some m) : (s.sample mi g u0 n d f).1 = s := by
  unfold BaState.sample BaState.ensureMax
  simp only [h]

/-- C94: once found, the maximum of the one dimensional probability is never looked for again: no later sample, change
of parameters or fit, whether it raises or not, changes it.  Only an explicit search does. -/
theorem C94_maximum_kept (s : BaState) (m : ℝ) (h : s.maxval = some m) (ops : List BaOp)
    (hops : ∀ mi g, BaOp.setMaxval mi g ∉ ops) : (baRun s ops).maxval = some m := by
  induction ops generalizing s with
  | nil => exact h
  | cons op ops ih =>
    change (baRun (BaOp.step s op) ops).maxval = _
    refine ih _ ?_ (fun mi g hm => hops mi g (List.mem_cons_of_mem _ hm))
    cases op with
    | setSigma np x => exact (setSigma_maxval np x s).trans h
    | setPars np p => exact (setPars_maxval np p s).trans h
    | setMaxval mi g => exact absurd (List.mem_cons_self) (hops mi g)
    | sample mi g u0 n d f => simp only [BaOp.step]; rw [sample_some mi g u0 n d f s m h, h]
    | fit lsq eig xy g u1 u2 => exact (fit_maxval lsq eig xy g u1 u2 s).trans h

/-- C94: the first sample looks for the maximum of the probability at that time; a search that fails raises
RuntimeError and changes nothing, so that the next sample searches again. -/
theorem C94_first_sample (mi : BaState.Minimise) (g : Option ℝ) (u0 : ℝ) (n : ℕ) (d : ℕ → ℕ → List (ℝ × ℝ)) (f : ℕ)
    (s : BaState) (sigma A : ℝ) (hs : BaAt s sigma A) (h : s.maxval = none) :
    let found := mi (fun x => .fin (-baDensity sigma A x)) (match g with | some g => .fin g | none => .fin (sigma + 0.0001 * u0))
    (found.1 ≠ 0 → s.sample mi g u0 n d f = (s, .error .runtime)) ∧
    (found.1 = 0 → (s.sample mi g u0 n d f).1 = { s with maxval := some (-found.2) } ∧
      ∃ r, (s.sample mi g u0 n d f).2 = .ok r) := by
  intro found
  have hneg : (fun x => -s.prob1d x) = fun x => .fin (-baDensity sigma A x) := by
    funext x; rw [prob1d_at hs]; rfl
  have hg : s.maxGuess g u0 = match g with | some g => .fin g | none => .fin (sigma + 0.0001 * u0) := by
    cases g with
    | some g => rfl
    | none => simp only [BaState.maxGuess, hs.2.1, Fl.fin_add]
  have hset : s.setMaxval mi (s.maxGuess g u0) =
      if found.1 ≠ 0 then (s, .error .runtime) else ({ s with maxval := some (-found.2) }, .ok ()) := by
    unfold BaState.setMaxval
    rw [hneg, hg]
  unfold BaState.sample BaState.ensureMax
  simp only [h, hset]
  constructor
  · intro h0; rw [if_pos h0]
  · intro h0
    rw [if_neg (not_not.mpr h0)]
    exact ⟨rfl, _, rfl⟩

/-! ### What a trial does -/

theorem keep_volume (t p : ℝ) (ht : 0 < t) (hp : 0 ≤ p) :
    volume {v : ℝ | 0 ≤ v ∧ v < 1 ∧ t * v < p} = ENNReal.ofReal (min 1 (p / t)) := by
  have : {v : ℝ | 0 ≤ v ∧ v < 1 ∧ t * v < p} = Set.Ico 0 (min 1 (p / t)) := by
    ext v
    simp only [Set.mem_setOf_eq, Set.mem_Ico, lt_min_iff, lt_div_iff₀ ht]
    rw [mul_comm t v]
  rw [this, Real.volume_Ico, sub_zero]

theorem baDensity_nonneg (sigma A g : ℝ) (hA : 0 ≤ A) (hg : 0 ≤ g) : 0 ≤ baDensity sigma A g := by
  unfold baDensity; split_ifs
  · have := Real.pi_pos; positivity
  · exact le_refl _

theorem baDensity_scale (sigma A c g : ℝ) : baDensity sigma (c * A) g = c * baDensity sigma A g := by
  unfold baDensity; split_ifs <;> ring

/-- C94: in a trial at the ellipticity `g = gmax u`, the measure of the uniforms `v` with which the trial is kept is
`p(g)/(1.1 m)`, but at most one, where `p` is the present density and `m` the remembered maximum. -/
theorem C94_kept_fraction (s : BaState) (sigma A m u : ℝ) (hs : BaAt s sigma A) (hA : 0 ≤ A) (hm : 0 < m) (hu : 0 ≤ u) :
    volume {v : ℝ | 0 ≤ v ∧ v < 1 ∧ s.keeps m u v} =
      ENNReal.ofReal (min 1 (baDensity sigma A ((1 - 1.0e-4) * u) / (1.1 * m))) := by
  have : {v : ℝ | 0 ≤ v ∧ v < 1 ∧ s.keeps m u v} =
      {v : ℝ | 0 ≤ v ∧ v < 1 ∧ 1.1 * m * v < baDensity sigma A ((1 - 1.0e-4) * u)} := by
    ext v
    simp only [Set.mem_setOf_eq, BaState.keeps, prob1dElem_at hs, Fl.lt]
    rw [mul_comm m]
  rw [this]
  exact keep_volume _ _ (by positivity) (baDensity_nonneg _ _ _ hA (by norm_num; linarith))

/-- C94: if the maximum found is that of the present density, or at least its 1.1th part, trials are kept in exact
proportion to the density. -/
theorem C94_exact (s : BaState) (sigma A m : ℝ) (hs : BaAt s sigma A) (hA : 0 ≤ A) (hm : 0 < m)
    (hmax : ∀ g, 0 ≤ g → g ≤ 1 - 1.0e-4 → baDensity sigma A g ≤ 1.1 * m) (u : ℝ) (hu : 0 ≤ u) (hu1 : u < 1) :
    volume {v : ℝ | 0 ≤ v ∧ v < 1 ∧ s.keeps m u v} =
      ENNReal.ofReal (baDensity sigma A ((1 - 1.0e-4) * u) / (1.1 * m)) := by
  rw [C94_kept_fraction s sigma A m u hs hA hm hu, min_eq_right]
  rw [div_le_one (by positivity)]
  exact hmax _ (by norm_num; linarith) (by norm_num; linarith)

theorem baDensity_continuousOn (sigma A : ℝ) :
    ContinuousOn (baDensity sigma A) (Set.Icc 0 (1 - 1.0e-4)) := by
  have hc : Continuous fun g : ℝ => A * (2 * Real.pi * g * (1 - g ^ 2) ^ 2 * Real.exp (-(g ^ 2 / (2 * sigma ^ 2)))) := by
    fun_prop
  refine hc.continuousOn.congr ?_
  intro g hg
  unfold baDensity
  rw [if_pos]
  have := hg.2
  have h0 := hg.1
  norm_num at this
  nlinarith

/-- C94 (defect of the unchanged code): a sample, then an amplitude larger by a factor above 1.1, as a fit to counts
gives.  The remembered maximum is that of the old amplitude, so that there are two ellipticities of different density
at both of which every trial is kept. -/
theorem C94_stale_maximum (mi : BaState.Minimise) (g : Option ℝ) (u0 : ℝ) (n n' : ℕ) (d d' : ℕ → ℕ → List (ℝ × ℝ))
    (f f' : ℕ) (sigma A c M gM : ℝ) (hsig : sigma ≠ 0) (hA : 0 < A) (hc : 1.1 < c) (np : Bool) (s : BaState)
    (hs : BaAt s sigma A) (h0 : s.maxval = none)
    (hfound : ∀ F G, mi F G = (0, -M)) (hgM : 0 ≤ gM ∧ gM < 1 - 1.0e-4) (hM : baDensity sigma A gM = M) (hM0 : 0 < M) :
    let t := baRun s [.sample mi g u0 n d f, .setPars np [.fin (c * A), .fin sigma], .sample mi g u0 n' d' f']
    BaAt t sigma (c * A) ∧ t.maxval = some M ∧
    ∃ u1 u2 : ℝ, (0 ≤ u1 ∧ u1 < 1) ∧ (0 ≤ u2 ∧ u2 < 1) ∧
      baDensity sigma (c * A) ((1 - 1.0e-4) * u1) < baDensity sigma (c * A) ((1 - 1.0e-4) * u2) ∧
      (∀ v, 0 ≤ v → v < 1 → t.keeps M u1 v) ∧ (∀ v, 0 ≤ v → v < 1 → t.keeps M u2 v) := by
  intro t
  have hs1 := ((C94_first_sample mi g u0 n d f s sigma A hs h0).2 (by rw [hfound])).1
  rw [hfound] at hs1
  simp only [neg_neg] at hs1
  obtain ⟨-, hat, hmv⟩ := baAt_setPars np sigma (c * A) hsig { s with maxval := some M }
  have ht : t = (({ s with maxval := some M } : BaState).setPars np [.fin (c * A), .fin sigma]).1 := by
    change (BaState.sample mi g u0 n' d' f' ((s.sample mi g u0 n d f).1.setPars np [.fin (c * A), .fin sigma]).1).1 = _
    rw [hs1]
    exact sample_some mi g u0 n' d' f' _ M hmv
  rw [ht]
  refine ⟨hat, hmv, ?_⟩
  generalize (({ s with maxval := some M } : BaState).setPars np [.fin (c * A), .fin sigma]).1 = t' at hat hmv
  have hdM : baDensity sigma (c * A) gM = c * M := by rw [baDensity_scale, hM]
  have hd0 : baDensity sigma (c * A) 0 = 0 := by simp [baDensity]
  have hcM : 1.1 * M < c * M := by nlinarith
  -- an ellipticity between 0 and gM at which the density is 1.1 M
  have hIVT := intermediate_value_Icc hgM.1
    ((baDensity_continuousOn sigma (c * A)).mono (Set.Icc_subset_Icc le_rfl hgM.2.le))
  rw [hd0, hdM] at hIVT
  obtain ⟨g1, hg1, hg1v⟩ := hIVT (show 1.1 * M ∈ Set.Icc 0 (c * M) from ⟨by positivity, hcM.le⟩)
  have hgm : (0 : ℝ) < 1 - 1.0e-4 := by norm_num
  have hk : ∀ x, 0 ≤ x → x < 1 - 1.0e-4 → 1.1 * M ≤ baDensity sigma (c * A) x →
      ∀ v, 0 ≤ v → v < 1 → t'.keeps M (x / (1 - 1.0e-4)) v := by
    intro x hx0 hx1 hx v hv0 hv1
    unfold BaState.keeps
    rw [mul_div_cancel₀ _ hgm.ne', prob1dElem_at hat]
    change M * 1.1 * v < _
    have : M * 1.1 * v < M * 1.1 * 1 := mul_lt_mul_of_pos_left hv1 (by positivity)
    linarith
  have hg1lt : g1 < 1 - 1.0e-4 := lt_of_le_of_lt hg1.2 hgM.2
  refine ⟨g1 / (1 - 1.0e-4), gM / (1 - 1.0e-4), ⟨div_nonneg hg1.1 hgm.le, (div_lt_one hgm).mpr hg1lt⟩,
    ⟨div_nonneg hgM.1 hgm.le, (div_lt_one hgm).mpr hgM.2⟩, ?_, hk g1 hg1.1 hg1lt hg1v.ge,
    hk gM hgM.1 hgM.2 (by rw [hdM]; exact hcM.le)⟩
  rw [mul_div_cancel₀ _ hgm.ne', mul_div_cancel₀ _ hgm.ne', hdM, hg1v]
  exact hcM

/-! ### Setting the parameters -/

/-- C94: setting the parameters sets both; too few raise IndexError, with the amplitude already changed.  A width of
zero that is a Python number raises ZeroDivisionError after the amplitude and the width have been changed, while the
densities go on using the old width. -/
theorem C94_set_pars (s : BaState) (sigma A sigma' A' : ℝ) (hs : BaAt s sigma A) (np : Bool) :
    (sigma' ≠ 0 → (s.setPars np [.fin A', .fin sigma']).2 = .ok () ∧ BaAt (s.setPars np [.fin A', .fin sigma']).1 sigma' A') ∧
    (s.setPars np [] = (s, .error .index)) ∧
    (s.setPars np [.fin A']).2 = .error .index ∧ BaAt (s.setPars np [.fin A']).1 sigma A' ∧
    (s.setPars false [.fin A', .fin 0]).2 = .error .zeroDiv ∧
    (s.setPars false [.fin A', .fin 0]).1.sigma = .fin 0 ∧
    ∀ g, (s.setPars false [.fin A', .fin 0]).1.prob1d g = .fin (baDensity sigma A' g) := by
  obtain ⟨h1, h2, h3, h4⟩ := hs
  refine ⟨fun h => ⟨(baAt_setPars np sigma' A' h s).1, (baAt_setPars np sigma' A' h s).2.1⟩, rfl, rfl,
    ⟨rfl, h2, h3, h4⟩, by simp [BaState.setPars, BaState.setSigma], by simp [BaState.setPars, BaState.setSigma], ?_⟩
  intro g
  have : (s.setPars false [.fin A', .fin 0]).1.prob1d g = ({ s with A := .fin A' } : BaState).prob1d g := by
    simp [BaState.setPars, BaState.setSigma, BaState.prob1d]
  rw [this]
  exact prob1d_at (s := { s with A := .fin A' }) ⟨rfl, h2, h3, h4⟩ g

/-- C94: a prior can be made with any width but zero. -/
theorem C94_new (sigma A : ℝ) :
    (sigma = 0 → BaState.new sigma A = .error .zeroDiv) ∧
    (sigma ≠ 0 → ∃ s, BaState.new sigma A = .ok s ∧ BaAt s sigma A ∧ s.maxval = none) := by
  constructor
  · rintro rfl; simp [BaState.new, BaState.setPars, BaState.setSigma, Except.map]
  · intro h
    obtain ⟨h1, h2, h3⟩ := baAt_setPars false sigma A h ⟨.fin 0, .fin 0, .fin 0, none⟩
    exact ⟨_, by unfold BaState.new; dsimp only; rw [h1]; rfl, h2, h3⟩

/-! ### Brute force -/

theorem keeps2d_iff {s : BaState} {sigma A : ℝ} (hs : BaAt s sigma A) (g1 g2 v : ℝ) :
    s.keeps2d g1 g2 v ↔ A * v < baDensity2d sigma A g1 g2 := by
  unfold BaState.keeps2d
  rw [prob2dElem_at hs]
  have : s.prob2d 0 0 = .fin A := by
    unfold BaState.prob2d
    rw [hs.1, hs.2.2.1]
    simp [expFl]
  rw [this]
  exact Iff.rfl

/-- C94: the brute force sampler has no remembered maximum.  With a positive amplitude the measure of the uniforms with
which a trial at `(g1, g2)` is kept is the density over its value at the origin; if the sampler ends it gives `n` pairs
strictly inside the unit disk. -/
theorem C94_brute (s : BaState) (sigma A : ℝ) (hs : BaAt s sigma A) (hA : 0 < A) :
    (∀ g1 g2, volume {v : ℝ | 0 ≤ v ∧ v < 1 ∧ s.keeps2d g1 g2 v} =
      ENNReal.ofReal (baDensity2d sigma A g1 g2 / baDensity2d sigma A 0 0)) ∧
    ∀ (n : ℕ) (draws : ℕ → ℕ → List (ℝ × ℝ × ℝ)) (fuel : ℕ) (l : List (ℝ × ℝ)),
      (∀ k m, (draws k m).length = m) → (∀ k m, ∀ d ∈ draws k m, 0 ≤ d.2.2) →
      s.sampleBrute2d n draws fuel = some l → l.length = n ∧ ∀ g ∈ l, g.1 ^ 2 + g.2 ^ 2 < 1 := by
  classical
  have h00 : baDensity2d sigma A 0 0 = A := by simp [baDensity2d]
  constructor
  · intro g1 g2
    simp only [keeps2d_iff hs]
    have hnn : 0 ≤ baDensity2d sigma A g1 g2 := by
      unfold baDensity2d; split_ifs
      · positivity
      · exact le_refl _
    have hle : baDensity2d sigma A g1 g2 ≤ A := by
      unfold baDensity2d; split_ifs with h
      · have e1 : Real.exp (-((g1 ^ 2 + g2 ^ 2) / (2 * sigma ^ 2))) ≤ 1 := by
          rw [Real.exp_le_one_iff]; have : 0 ≤ (g1 ^ 2 + g2 ^ 2) / (2 * sigma ^ 2) := by positivity
          linarith
        have e2 : (1 - (g1 ^ 2 + g2 ^ 2)) ^ 2 ≤ 1 := by nlinarith [sq_nonneg g1, sq_nonneg g2]
        have e3 : (1 - (g1 ^ 2 + g2 ^ 2)) ^ 2 * Real.exp (-((g1 ^ 2 + g2 ^ 2) / (2 * sigma ^ 2))) ≤ 1 :=
          mul_le_one₀ e2 (Real.exp_pos _).le e1
        nlinarith
      · exact hA.le
    rw [keep_volume A _ hA hnn, h00, min_eq_right ((div_le_one hA).mpr hle)]
  · intro n draws fuel l hd hv h
    unfold BaState.sampleBrute2d at h
    rw [Option.map_eq_some_iff] at h
    obtain ⟨l0, hl0, rfl⟩ := h
    obtain ⟨hlen, hacc, m, sizes, -, he, -⟩ := C45_rejection _ _ n draws hd fuel l0 hl0
    refine ⟨by simpa using hlen, ?_⟩
    intro g hg
    obtain ⟨t, ht, rfl⟩ := List.mem_map.mp hg
    have hk := of_decide_eq_true (hacc t ht)
    rw [keeps2d_iff hs] at hk
    have hv0 : 0 ≤ t.2.2 := by
      rw [he] at ht
      have := (List.mem_filter.mp ht).1
      unfold drawn at this
      obtain ⟨k, -, hk⟩ := List.mem_flatMap.mp this
      exact hv _ _ t hk
    by_contra hcon
    unfold baDensity2d at hk
    rw [if_neg hcon] at hk
    have := mul_nonneg hA.le hv0
    linarith

/-- C94: with a remembered maximum `m`, a sampler that ends gives `n` values: the ellipticities `(1 - 1e-4) u` of the
trials `(u, v)` of its passes that have `1.1 m v` below the present density there, in order and with none left out.  With
uniforms of `[0, 1)` they are in `[0, 1 - 1.0e-4)`. -/
theorem C94_samples (mi : BaState.Minimise) (g : Option ℝ) (u0 : ℝ) (n : ℕ) (draws : ℕ → ℕ → List (ℝ × ℝ)) (fuel : ℕ)
    (s : BaState) (sigma A m : ℝ) (hs : BaAt s sigma A) (hm : s.maxval = some m) (hd : ∀ k j, (draws k j).length = j)
    (l : List ℝ) (h : (s.sample mi g u0 n draws fuel).2 = .ok (some l)) :
    l.length = n ∧
    (∃ (passes : ℕ) (sizes : ℕ → ℕ),
      List.Forall₂ (fun t x => x = (1 - 1.0e-4) * t.1)
        ((drawn draws sizes passes).filter fun t => open Classical in
          decide (1.1 * m * t.2 < baDensity sigma A ((1 - 1.0e-4) * t.1))) l) ∧
    ((∀ k j, ∀ t ∈ draws k j, 0 ≤ t.1 ∧ t.1 < 1) → ∀ x ∈ l, 0 ≤ x ∧ x < 1 - 1.0e-4) := by
  classical
  unfold BaState.sample BaState.ensureMax at h
  simp only [hm] at h
  injection h with h
  rw [Option.map_eq_some_iff] at h
  obtain ⟨l0, hl0, rfl⟩ := h
  obtain ⟨hlen, -, p, sizes, -, he, -⟩ := C45_rejection _ _ n draws hd fuel l0 hl0
  refine ⟨by simpa using hlen, ⟨p, sizes, ?_⟩, ?_⟩
  · have hkeep : (fun t : ℝ × ℝ => decide (s.keeps m t.1 t.2)) =
        fun t => decide (1.1 * m * t.2 < baDensity sigma A ((1 - 1.0e-4) * t.1)) := by
      funext t
      refine decide_eq_decide.mpr ?_
      simp only [BaState.keeps, prob1dElem_at hs, Fl.lt]
      rw [mul_comm m]
    rw [hkeep] at he
    rw [← he, List.forall₂_map_right_iff]
    exact List.forall₂_same.mpr fun t _ => rfl
  · intro hu x hx
    obtain ⟨t, ht, rfl⟩ := List.mem_map.mp hx
    rw [he] at ht
    obtain ⟨k, -, hk⟩ := List.mem_flatMap.mp (List.mem_filter.mp ht).1
    obtain ⟨h0, h1⟩ := hu _ _ t hk
    norm_num
    constructor
    · linarith
    · linarith

/-- C94: the pairs the brute force sampler gives are those of the trials of its passes, two uniforms of `[0, 1)` taken to
`[-1, 1)` each, that have `v` times the density at the origin below the density there, in order and with none left out. -/
theorem C94_brute_samples (s : BaState) (sigma A : ℝ) (hs : BaAt s sigma A) (n : ℕ)
    (draws : ℕ → ℕ → List (ℝ × ℝ × ℝ)) (fuel : ℕ) (hd : ∀ k j, (draws k j).length = j) (l : List (ℝ × ℝ))
    (h : s.sampleBrute2d n draws fuel = some l) :
    l.length = n ∧ ∃ (passes : ℕ) (sizes : ℕ → ℕ),
      List.Forall₂ (fun t x => x = (2 * t.1 - 1, 2 * t.2.1 - 1))
        ((drawn draws sizes passes).filter fun t => open Classical in
          decide (A * t.2.2 < baDensity2d sigma A (2 * t.1 - 1) (2 * t.2.1 - 1))) l := by
  classical
  have hc : ∀ u, BaState.cube u = 2 * u - 1 := by
    intro u; unfold BaState.cube; norm_num; ring
  unfold BaState.sampleBrute2d at h
  rw [Option.map_eq_some_iff] at h
  obtain ⟨l0, hl0, rfl⟩ := h
  obtain ⟨hlen, -, p, sizes, -, he, -⟩ := C45_rejection _ _ n draws hd fuel l0 hl0
  refine ⟨by simpa using hlen, p, sizes, ?_⟩
  have hkeep : (fun t : ℝ × ℝ × ℝ => decide (s.keeps2d (BaState.cube t.1) (BaState.cube t.2.1) t.2.2)) =
      fun t => decide (A * t.2.2 < baDensity2d sigma A (2 * t.1 - 1) (2 * t.2.1 - 1)) := by
    funext t
    refine decide_eq_decide.mpr ?_
    rw [hc, hc]
    exact keeps2d_iff hs _ _ _
  rw [hkeep] at he
  rw [← he, List.forall₂_map_right_iff]
  exact List.forall₂_same.mpr fun t _ => by rw [hc, hc]

/-- C94 (limitation of the unchanged code): with a negative amplitude, which a fit can leave, the brute force sampler
keeps every trial outside the unit disk except at `v = 0`. -/
theorem C94_brute_negative (s : BaState) (sigma A : ℝ) (hs : BaAt s sigma A) (hA : A < 0) (g1 g2 v : ℝ)
    (hg : 1 ≤ g1 ^ 2 + g2 ^ 2) (hv : 0 < v) : s.keeps2d g1 g2 v := by
  rw [keeps2d_iff hs]
  unfold baDensity2d
  rw [if_neg (not_lt.mpr hg)]
  exact mul_neg_of_neg_of_pos hA hv

/-! ### The fit -/

theorem setPars_indep (p : List Fl) (s s' : BaState) :
    (s.setPars true p).2 = (s'.setPars true p).2 ∧
    ((s.setPars true p).2 = .ok () → ∀ g, (s.setPars true p).1.prob1dElem g = (s'.setPars true p).1.prob1dElem g) := by
  rcases p with _ | ⟨a, _ | ⟨b, l⟩⟩
  · exact ⟨rfl, fun h => by cases h⟩
  · exact ⟨rfl, fun h => by cases h⟩
  · simp [BaState.setPars, BaState.setSigma, BaState.prob1dElem]

/-- C94: the residuals of the fit do not depend on the state of the prior, so the minimiser sees a function of the
parameters. -/
theorem C94_residuals_pure (data : List (ℝ × ℝ)) (p : List (Option ℝ)) (s s' : BaState) :
    (BaState.calcFdiff data p s).2 = (BaState.calcFdiff data p s').2 := by
  obtain ⟨h1, h2⟩ := setPars_indep (p.map BaState.ofPar) s s'
  unfold BaState.calcFdiff
  rcases hs : s.setPars true (p.map BaState.ofPar) with ⟨t, e | u⟩ <;>
    rcases hs' : s'.setPars true (p.map BaState.ofPar) with ⟨t', e' | u'⟩ <;> rw [hs, hs'] at h1
  · cases h1; rfl
  · cases h1
  · cases h1
  · rw [hs, hs'] at h2
    have h3 := h2 rfl
    simp only at h3
    cases u; cases u'
    simp only [h3]

/-- C94: the residuals at amplitude `a` and width `b`: the density minus the ordinate, over the root of the ordinate,
for the points of positive ordinate. -/
theorem C94_residuals (data : List (ℝ × ℝ)) (a b : ℝ) (hb : b ≠ 0) (s : BaState) :
    (BaState.calcFdiff data [some a, some b] s).2 =
      .ok (data.map fun d => .fin ((baDensity b a d.1 - d.2) / Real.sqrt d.2)) := by
  obtain ⟨h1, h2, -⟩ := baAt_setPars true b a hb s
  unfold BaState.calcFdiff
  simp only [List.map_cons, List.map_nil, BaState.ofPar]
  rcases hs : s.setPars true [.fin a, .fin b] with ⟨t, e | u⟩ <;> rw [hs] at h1 h2
  · cases h1
  · cases u
    simp only
    congr 1
    apply List.map_congr_left
    intro d _
    rw [prob1dElem_at h2, Fl.fin_sub, Fl.fin_mul]
    congr 1
    norm_num [div_eq_mul_inv]

theorem after_append (data : List (ℝ × ℝ)) (tr : List (List (Option ℝ))) (p : List (Option ℝ)) (s : BaState) :
    s.after data (tr ++ [p]) = ((s.after data tr).setPars true (p.map BaState.ofPar)).1 := by
  unfold BaState.after
  rw [List.foldl_append, List.foldl_cons, List.foldl_nil, calcFdiff_fst]

/-- C94: how a fit ends, given the points `tr` tried by the minimiser and what it returned.  A solution with a
covariance becomes the parameters of the prior, and is what `fit_pars` holds.  Without a covariance `fit_pars` is the
solution, but the prior stays at the last point tried.  When the minimiser gives up, `fit_pars` is -9.999e9 and the prior
stays at the last point tried.  When it raises because of values that are not finite, the fit raises KeyError, the
parameters having been set. -/
theorem C94_fit (lsq : BaState.Lsq) (eig : (Fin 2 → Fin 2 → Fl) → Option (List Fl)) (xy : List (ℝ × ℝ))
    (u1 u2 : ℝ) (s : BaState) (g : ℝ × ℝ) (tr : List (List (Option ℝ))) (out : Except LmErr (LmTup 2))
    (hlsq : ∀ f, lsq f g = (tr, out)) :
    let data := open Classical in xy.filter fun d => decide (0 < d.2)
    let r := s.fit lsq eig xy (some g) u1 u2
    (∀ (a b : ℝ) (C : Fin 2 → Fin 2 → Fl) (nfev : ℕ) (info : ℤ), 1 ≤ info → info ≤ 4 → b ≠ 0 →
      out = .ok ⟨[some a, some b], some C, nfev, info⟩ →
      BaAt r.1 b a ∧ r.2.1 = some [some a, some b] ∧ r.2.2 = .ok ()) ∧
    (∀ (x : List (Option ℝ)) (nfev : ℕ) (info : ℤ), 1 ≤ info → info ≤ 4 → out = .ok ⟨x, none, nfev, info⟩ →
      r.1 = s.after data tr ∧ r.2.1 = some x ∧ r.2.2 = .ok ()) ∧
    (∀ (t : LmTup 2), 5 ≤ t.info → out = .ok t →
      r.1 = s.after data tr ∧ r.2.1 = some [some (-9.999e9), some (-9.999e9)] ∧ r.2.2 = .ok ()) ∧
    (out = .error .notFinite →
      r.1 = s.after data tr ∧ r.2.1 = some [some (-9.999e9), some (-9.999e9)] ∧ r.2.2 = .error .key) := by
  intro data r
  have hdata : (open Classical in xy.filter fun d => decide (d.2 > 0)) = data := rfl
  have hr : r = (let func := fun pars => (BaState.calcFdiff data pars s).2
      let s' := s.after data (BaState.lsqTrace (tr, out))
      match runLeastsq 2 func eig 0 false out with
      | .error e => (s', none, .error e)
      | .ok res =>
          match res.parsErr with
          | none => (s', some res.pars, .error .key)
          | some _ => (s', some res.pars, .ok ())) := by
    change s.fit lsq eig xy (some g) u1 u2 = _
    unfold BaState.fit
    dsimp only
    rw [hdata, hlsq]
    rfl
  have hdef : defPars 2 = [some (-9.999e9), some (-9.999e9)] := rfl
  refine ⟨?_, ?_, ?_, ?_⟩
  · intro a b C nfev info h1 h4 hb hout
    subst hout
    have htr : BaState.lsqTrace (tr, .ok ⟨[some a, some b], some C, nfev, info⟩) = tr ++ [[some a, some b]] := by
      simp only [BaState.lsqTrace]
      rw [if_pos ⟨by omega, h4, rfl⟩]
    obtain ⟨-, hat, -⟩ := baAt_setPars true b a hb (s.after data tr)
    rw [htr, after_append] at hr
    simp only [List.map_cons, List.map_nil, BaState.ofPar] at hr
    have hres : ∃ res, runLeastsq 2 (fun pars => (BaState.calcFdiff data pars s).2) eig 0 false
        (.ok ⟨[some a, some b], some C, nfev, info⟩) = .ok res ∧ res.pars = [some a, some b] ∧ res.parsErr.isSome := by
      unfold runLeastsq runLeastsqTry
      dsimp only
      rw [if_neg (by omega), if_neg (by omega), C94_residuals data a b hb s]
      dsimp only
      split_ifs <;> exact ⟨_, rfl, rfl, rfl⟩
    obtain ⟨res, hres, hp, he⟩ := hres
    rw [hres] at hr
    dsimp only at hr
    obtain ⟨pe, hpe⟩ := Option.isSome_iff_exists.mp he
    rw [hpe] at hr
    dsimp only at hr
    rw [hr]
    exact ⟨hat, by rw [hp], rfl⟩
  · intro x nfev info h1 h4 hout
    subst hout
    have htr : BaState.lsqTrace (tr, .ok ⟨x, none, nfev, info⟩) = tr := by
      simp [BaState.lsqTrace]
    rw [htr] at hr
    dsimp only at hr
    have hres : runLeastsq 2 (fun pars => (BaState.calcFdiff data pars s).2) eig 0 false (.ok ⟨x, none, nfev, info⟩) =
        .ok ⟨Flags.LM_SINGULAR_MATRIX, nfev, some info, x, some (defErr 2), none, defCov 2⟩ := by
      unfold runLeastsq runLeastsqTry
      dsimp only
      rw [if_neg (by omega), if_neg (by omega)]
      rfl
    rw [hres] at hr
    rw [hr]
    exact ⟨rfl, rfl, rfl⟩
  · intro t ht hout
    subst hout
    have htr : BaState.lsqTrace (tr, .ok t) = tr := by
      simp only [BaState.lsqTrace]
      rw [if_neg (by omega)]
    rw [htr] at hr
    dsimp only at hr
    have hres : runLeastsq 2 (fun pars => (BaState.calcFdiff data pars s).2) eig 0 false (.ok t) =
        .ok ⟨2 ^ (t.info - 5).toNat, t.nfev, some t.info, defPars 2, some (defErr 2), t.cov, defCov 2⟩ := by
      unfold runLeastsq runLeastsqTry
      dsimp only
      rw [if_neg (by omega), if_pos (by omega)]
      rfl
    rw [hres] at hr
    rw [hr]
    exact ⟨rfl, by rw [← hdef], rfl⟩
  · intro hout
    subst hout
    have hres : runLeastsq 2 (fun pars => (BaState.calcFdiff data pars s).2) eig 0 false (.error .notFinite) =
        .ok ⟨Flags.LM_FUNC_NOTFINITE, -1, none, defPars 2, none, some (defCov 2), defCov 2⟩ := rfl
    dsimp only at hr
    rw [hres] at hr
    rw [hr]
    exact ⟨rfl, by rw [← hdef], rfl⟩

/-- C94: without a guess, fewer than two points of positive ordinate raise IndexError and the prior is as before; with
two or more, the guess is within 20 per cent of the documented one. -/
theorem C94_fit_guess (lsq : BaState.Lsq) (eig : (Fin 2 → Fin 2 → Fl) → Option (List Fl)) (xy : List (ℝ × ℝ))
    (u1 u2 : ℝ) (s : BaState) :
    let data := open Classical in xy.filter fun d => decide (0 < d.2)
    (data.length < 2 → s.fit lsq eig xy none u1 u2 = (s, none, .error .index)) ∧
    (∀ p0 p1 rest, data = p0 :: p1 :: rest →
      s.fit lsq eig xy none u1 u2 = s.fit lsq eig xy
        (some (1.3 * (data.map Prod.snd).sum * (p1.1 - p0.1) * (1 + 0.2 * u1), 0.16 * (1 + 0.2 * u2))) u1 u2) := by
  intro data
  have hdata : (open Classical in xy.filter fun d => decide (d.2 > 0)) = data := rfl
  constructor
  · intro h
    unfold BaState.fit
    dsimp only
    rw [hdata]
    match data, h with
    | [], _ => rfl
    | [_], _ => rfl
  · intro p0 p1 rest h
    unfold BaState.fit
    dsimp only
    rw [hdata]
    have : BaState.fitGuess data u1 u2 =
        .ok (1.3 * (data.map Prod.snd).sum * (p1.1 - p0.1) * (1 + 0.2 * u1), 0.16 * (1 + 0.2 * u2)) := by
      rw [h]; simp only [BaState.fitGuess]; norm_num
    rw [this]

/-! ### Concrete cases -/

/-- A prior of width 0.3: sampling, then amplitude 2, gives trials kept at the same rate at different densities. -/
example : ∃ s u1 u2, BaState.new 0.3 1 = .ok s ∧
    let M := baDensity 0.3 1 0.5
    let mi : BaState.Minimise := fun _ _ => (0, -M)
    let t := baRun s [.sample mi none 0 5 (fun _ m => List.replicate m (0.5, 0.5)) 9, .setPars false [.fin (2 * 1), .fin 0.3],
      .sample mi none 0 5 (fun _ m => List.replicate m (0.5, 0.5)) 9]
    baDensity 0.3 (2 * 1) ((1 - 1.0e-4) * u1) < baDensity 0.3 (2 * 1) ((1 - 1.0e-4) * u2) ∧
    (∀ v, 0 ≤ v → v < 1 → t.keeps M u1 v) ∧ ∀ v, 0 ≤ v → v < 1 → t.keeps M u2 v := by
  obtain ⟨s, hs, hat, hm⟩ := (C94_new 0.3 1).2 (by norm_num)
  have hM : 0 < baDensity 0.3 1 0.5 := by
    unfold baDensity
    rw [if_pos (by norm_num)]
    have := Real.pi_pos
    have h : (0 : ℝ) < 1 - 0.5 ^ 2 := by norm_num
    positivity
  obtain ⟨-, -, u1, u2, -, -, h1, h2, h3⟩ := C94_stale_maximum (fun _ _ => (0, -baDensity 0.3 1 0.5)) none 0 5 5
    (fun _ m => List.replicate m (0.5, 0.5)) (fun _ m => List.replicate m (0.5, 0.5)) 9 9 0.3 1 2
    (baDensity 0.3 1 0.5) 0.5 (by norm_num) one_pos (by norm_num) false s hat hm (fun _ _ => rfl) (by norm_num) rfl hM
  exact ⟨s, u1, u2, hs, h1, h2, h3⟩

/-- A sampler that ends: one value wanted, the first trial is kept. -/
example (s : BaState) (hs : BaAt s 0.3 1) (hm : s.maxval = some 2) :
    (∃ l, (s.sample (fun _ _ => (0, 0)) none 0 1 (fun _ j => List.replicate j (0.5, 0)) 1).2 = .ok (some l)) ∧
    ∃ l, s.sampleBrute2d 1 (fun _ j => List.replicate j (0.5, 0.5, 0)) 1 = some l := by
  have hM : 0 < baDensity 0.3 1 ((1 - 1.0e-4) * 0.5) := by
    unfold baDensity
    rw [if_pos (by norm_num)]
    have := Real.pi_pos
    have h : (0 : ℝ) < 1 - ((1 - 1.0e-4) * 0.5) ^ 2 := by norm_num
    have h' : (0 : ℝ) < (1 - 1.0e-4) * 0.5 := by norm_num
    positivity
  have hk : s.keeps 2 0.5 0 := by
    simp only [BaState.keeps, prob1dElem_at hs, Fl.lt]
    simpa using hM
  have hk2 : s.keeps2d (BaState.cube 0.5) (BaState.cube 0.5) 0 := by
    rw [keeps2d_iff hs]
    have : BaState.cube 0.5 = 0 := by unfold BaState.cube; norm_num
    rw [this]
    simp [baDensity2d]
  constructor
  · unfold BaState.sample BaState.ensureMax
    simp [hm, rejLoop, rejStep, rejInit, hk]
  · unfold BaState.sampleBrute2d
    simp [rejLoop, rejStep, rejInit, hk2]

/-- A fit whose minimiser gave up after trying amplitude 1 and width 0.2: the prior has these, `fit_pars` does not. -/
example (s : BaState) : BaAt (s.fit (fun _ _ => ([[some 1, some 0.2]], .ok ⟨[some 7, some 8], none, 4000, 5⟩)) (fun _ => none)
      [(0.1, 3), (0.2, 0), (0.3, 4)] (some (1, 0.3)) 0 0).1 0.2 1 ∧
    (s.fit (fun _ _ => ([[some 1, some 0.2]], .ok ⟨[some 7, some 8], none, 4000, 5⟩)) (fun _ => none)
      [(0.1, 3), (0.2, 0), (0.3, 4)] (some (1, 0.3)) 0 0).2.1 = some [some (-9.999e9), some (-9.999e9)] := by
  obtain ⟨-, -, h, -⟩ := C94_fit (fun _ _ => ([[some 1, some 0.2]], .ok ⟨[some 7, some 8], none, 4000, 5⟩)) (fun _ => none)
    [(0.1, 3), (0.2, 0), (0.3, 4)] 0 0 s (1, 0.3) [[some 1, some 0.2]] (.ok ⟨[some 7, some 8], none, 4000, 5⟩) (fun _ => rfl)
  obtain ⟨h1, h2, -⟩ := h _ (le_refl _) rfl
  refine ⟨?_, h2⟩
  rw [h1]
  exact (baAt_setPars true 0.2 1 (by norm_num) s).2.1

end Ngmix.Props
