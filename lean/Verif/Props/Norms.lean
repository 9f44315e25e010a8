import Verif.Props.GMix
import Verif.Props.Ellip
import Verif.Props.Moments
import Mathlib.Analysis.SpecialFunctions.Gaussian.GaussianIntegral
import Mathlib.MeasureTheory.Integral.Prod

/-!
# Norms and determinants (C20), gaussians as densities (C21)
-/

namespace Ngmix.Props

open Ngmix Ngmix.Spec

/-! ## C20 -/

theorem lowDet_pos : 0 < gmixLowDetval := by norm_num [gmixLowDetval]

/-- A gaussian whose norms can be set. -/
def Usable (g : Gauss) : Prop :=
  gmixLowDetval ≤ g.irr * g.icc - g.irc * g.irc ∧ gmixLowDetval < g.irr + g.icc

/-- C20: setting a gaussian stores the six numbers and the determinant, and marks the norms as not
set (they are NaN). -/
theorem C20_set (p row col irr irc icc : ℝ) :
    DetCurrent (gauss2dSet p row col irr irc icc) ∧
    (gauss2dSet p row col irr irc icc).normSet = false ∧ (gauss2dSet p row col irr irc icc).d = none ∧
    SameGauss (gauss2dSet p row col irr irc icc) ⟨p, row, col, irr, irc, icc, 0, false, none⟩ :=
  ⟨rfl, rfl, rfl, rfl, rfl, rfl, rfl, rfl, rfl⟩

/-- C20: norms can be set exactly when determinant and size are above the thresholds; they are then
those of the stored parameters; otherwise GMixRangeError and nothing changed. -/
theorem C20_set_norm (g : Gauss) (hd : DetCurrent g) :
    (Usable g → (gauss2dSetNorm g).2 = .ok () ∧ NormsCurrent (gauss2dSetNorm g).1 ∧
      (gauss2dSetNorm g).1.normSet = true ∧ SameGauss g (gauss2dSetNorm g).1 ∧
      DetCurrent (gauss2dSetNorm g).1) ∧
    (¬ Usable g → gauss2dSetNorm g = (g, .error .gmixRange)) := by
  have hl := lowDet_pos
  unfold DetCurrent at hd
  constructor
  · rintro ⟨h1, h2⟩
    have e : gauss2dSetNorm g = ({ g with
        d := some ⟨g.irr * (1 / g.det), g.irc * (1 / g.det), g.icc * (1 / g.det),
          1 / (2 * Real.pi * Real.sqrt g.det), g.p * (1 / (2 * Real.pi * Real.sqrt g.det))⟩
        normSet := true }, .ok ()) := by
      unfold gauss2dSetNorm
      rw [if_neg (by rw [hd]; exact not_lt.mpr h1)]
      simp only
      rw [if_neg (not_le.mpr h2)]
    rw [e]
    refine ⟨rfl, ⟨_, rfl, lt_of_lt_of_le hl h1, ?_, ?_, ?_, ?_, ?_⟩, rfl,
      ⟨rfl, rfl, rfl, rfl, rfl, rfl⟩, hd⟩ <;> simp only [hd, mul_one_div]
  · intro h
    unfold gauss2dSetNorm
    by_cases h1 : g.det < gmixLowDetval
    · rw [if_pos h1]
    · rw [if_neg h1]
      simp only
      rw [if_pos]
      by_contra h2
      exact h ⟨by rw [← hd]; exact not_lt.mp h1, not_le.mp h2⟩

/-- C20: norms of a whole mixture. On success all of them are current; the first unusable gaussian
stops the loop with GMixRangeError. -/
theorem C20_set_norms (gm : List Gauss) (hd : ∀ g ∈ gm, DetCurrent g) :
    ((∀ g ∈ gm, Usable g) → (gmixSetNorms gm).2 = .ok () ∧
      List.Forall₂ (fun g g' => SameGauss g g' ∧ DetCurrent g' ∧ NormsCurrent g' ∧ g'.normSet = true) gm
        (gmixSetNorms gm).1) ∧
    (∀ good bad rest, gm = good ++ bad :: rest → (∀ g ∈ good, Usable g) → ¬ Usable bad →
      (gmixSetNorms gm).2 = .error .gmixRange ∧
      (gmixSetNorms gm).1 = (gmixSetNorms good).1 ++ bad :: rest) := by
  constructor
  · induction gm with
    | nil => intro _; exact ⟨rfl, .nil⟩
    | cons g gm ih =>
      intro hu
      obtain ⟨h1, h2, h3, h4, h5⟩ := (C20_set_norm g (hd g List.mem_cons_self)).1
        (hu g List.mem_cons_self)
      obtain ⟨k1, k2⟩ := ih (fun x hx => hd x (List.mem_cons_of_mem _ hx))
        (fun x hx => hu x (List.mem_cons_of_mem _ hx))
      simp only [gmixSetNorms]
      rcases hs : gauss2dSetNorm g with ⟨g', r⟩
      rw [hs] at h1 h2 h3 h4 h5
      simp only at h1 h2 h3 h4 h5
      subst h1
      exact ⟨k1, .cons ⟨h4, h5, h2, h3⟩ k2⟩
  · intro good
    induction good generalizing gm with
    | nil =>
      rintro bad rest rfl _ hb
      have := (C20_set_norm bad (hd bad (by simp))).2 hb
      simp [gmixSetNorms, this]
    | cons g good ih =>
      rintro bad rest rfl hu hb
      obtain ⟨h1, -⟩ := (C20_set_norm g (hd g (by simp))).1 (hu g List.mem_cons_self)
      obtain ⟨k1, k2⟩ := ih (good ++ bad :: rest) (fun x hx => hd x (List.mem_cons_of_mem _ hx)) bad rest
        rfl (fun x hx => hu x (List.mem_cons_of_mem _ hx)) hb
      rcases hs : gauss2dSetNorm g with ⟨g', r⟩
      rw [hs] at h1
      simp only at h1
      subst h1
      simp only [List.cons_append, gmixSetNorms, hs]
      exact ⟨k1, by rw [k2]⟩

/-- What can be done with a mixture. -/
inductive GmOp
  | fill (pars : List ℝ)
  | setFlux (f : ℝ)
  | setCen (r c : ℝ)
  | setNorms
  | use
  | shear (s1 s2 : ℝ)
  | convolve (psf : List Gauss)

/-- One operation on the data array (`none`: the numbers are no longer real). `use` is any evaluation:
rendering, likelihood, residuals, weighted sums. `shear` and `convolve` continue with the new mixture;
when they fail the old one stays. -/
noncomputable def gmStep (gm : List Gauss) : GmOp → Option (List Gauss × Except PyErr Unit)
  | .fill pars => some (fillFull pars, .ok ())
  | .setFlux f => (setFlux gm f).map fun g => (g, .ok ())
  | .setCen r c => (setCen gm r c).map fun g => (g, .ok ())
  | .setNorms => some (gmixSetNorms gm)
  | .use => some (setNormsIfNeeded gm)
  | .shear s1 s2 =>
      match shearData s1 s2 gm with
      | .ok g => some (g, .ok ())
      | .error e => some (gm, .error e)
  | .convolve psf =>
      match gmixConvolve gm psf with
      | .ok g => some (g, .ok ())
      | .error e => some (gm, .error e)

/-- Reachable data arrays of a history in which no attempt to set norms failed. -/
inductive GmReach : List Gauss → Prop
  | start (pars : List ℝ) : GmReach (fillFull pars)
  | step (gm gm' : List Gauss) (op : GmOp) (r : Except PyErr Unit) (h : GmReach gm)
      (hs : gmStep gm op = some (gm', r)) (hok : op = .setNorms ∨ op = .use → r = .ok ()) : GmReach gm'

theorem fillFull_fresh : ∀ (n : ℕ) (pars : List ℝ), pars.length ≤ n →
    ∀ g ∈ fillFull pars, DetCurrent g ∧ g.normSet = false := by
  intro n
  induction n using Nat.strong_induction_on with
  | _ n ih =>
    intro pars hn
    match pars, hn with
    | p :: row :: col :: irr :: irc :: icc :: rest, hn =>
      simp only [List.length_cons] at hn
      intro g hg
      simp only [fillFull, List.mem_cons] at hg
      rcases hg with rfl | hg
      · exact ⟨rfl, rfl⟩
      · exact ih rest.length (by omega) rest (le_refl _) g hg
    | [], _ => simp [fillFull]
    | [_], _ => simp [fillFull]
    | [_, _], _ => simp [fillFull]
    | [_, _, _], _ => simp [fillFull]
    | [_, _, _, _], _ => simp [fillFull]
    | [_, _, _, _, _], _ => simp [fillFull]

theorem setNorms_ok_usable (gm : List Gauss) (hd : ∀ g ∈ gm, DetCurrent g)
    (h : (gmixSetNorms gm).2 = .ok ()) : ∀ g ∈ gm, Usable g := by
  induction gm with
  | nil => simp
  | cons g gm ih =>
    by_cases hu : Usable g
    · obtain ⟨h1, -⟩ := (C20_set_norm g (hd g List.mem_cons_self)).1 hu
      rcases hs : gauss2dSetNorm g with ⟨g', r⟩
      rw [hs] at h1
      simp only at h1
      subst h1
      simp only [gmixSetNorms, hs] at h
      intro x hx
      rcases List.mem_cons.mp hx with rfl | hx
      · exact hu
      · exact ih (fun x hx => hd x (List.mem_cons_of_mem _ hx)) h x hx
    · have := (C20_set_norm g (hd g List.mem_cons_self)).2 hu
      simp [gmixSetNorms, this] at h

/-- C20 (invariant): in every mixture obtained by such a history the stored determinants are those of
the stored covariances, and either no gaussian claims to have norms or all do and they are current. -/
theorem C20_history (gm : List Gauss) (h : GmReach gm) :
    (∀ g ∈ gm, DetCurrent g) ∧
    ((∀ g ∈ gm, g.normSet = false) ∨ (∀ g ∈ gm, g.normSet = true ∧ NormsCurrent g)) := by
  have norms : ∀ gm : List Gauss, (∀ g ∈ gm, DetCurrent g) → (gmixSetNorms gm).2 = .ok () →
      (∀ g ∈ (gmixSetNorms gm).1, DetCurrent g ∧ g.normSet = true ∧ NormsCurrent g) := by
    intro gm hd hok
    obtain ⟨-, h2⟩ := (C20_set_norms gm hd).1 (setNorms_ok_usable gm hd hok)
    intro g hg
    obtain ⟨i, hi, rfl⟩ := List.getElem_of_mem hg
    have hl := h2.length_eq
    have := (List.forall₂_iff_get.mp h2).2 i (by omega) hi
    exact ⟨this.2.1, this.2.2.2, this.2.2.1⟩
  induction h with
  | start pars =>
    exact ⟨fun g hg => (fillFull_fresh _ pars (le_refl _) g hg).1,
      Or.inl fun g hg => (fillFull_fresh _ pars (le_refl _) g hg).2⟩
  | step gm gm' op r _ hs hok ih =>
    obtain ⟨hd, hn⟩ := ih
    cases op with
    | fill pars =>
      simp only [gmStep, Option.some.injEq, Prod.mk.injEq] at hs
      obtain ⟨rfl, -⟩ := hs
      exact ⟨fun g hg => (fillFull_fresh _ pars (le_refl _) g hg).1,
        Or.inl fun g hg => (fillFull_fresh _ pars (le_refl _) g hg).2⟩
    | setFlux f =>
      simp only [gmStep, Option.map_eq_some_iff] at hs
      obtain ⟨g', h1, h2⟩ := hs
      simp only [Prod.mk.injEq] at h2
      obtain ⟨rfl, -⟩ := h2
      unfold setFlux at h1
      split_ifs at h1
      simp only [Option.some.injEq] at h1
      subst h1
      refine ⟨?_, Or.inl ?_⟩ <;> intro g hg <;> rw [List.mem_map] at hg <;> obtain ⟨a, ha, rfl⟩ := hg
      · exact hd a ha
      · rfl
    | setCen r c =>
      simp only [gmStep, Option.map_eq_some_iff] at hs
      obtain ⟨g', h1, h2⟩ := hs
      simp only [Prod.mk.injEq] at h2
      obtain ⟨rfl, -⟩ := h2
      rw [setCen, Option.map_eq_some_iff] at h1
      obtain ⟨c0, -, rfl⟩ := h1
      refine ⟨?_, ?_⟩
      · intro g hg
        rw [List.mem_map] at hg
        obtain ⟨a, ha, rfl⟩ := hg
        exact hd a ha
      · rcases hn with hn | hn
        · refine Or.inl fun g hg => ?_
          rw [List.mem_map] at hg
          obtain ⟨a, ha, rfl⟩ := hg
          exact hn a ha
        · refine Or.inr fun g hg => ?_
          rw [List.mem_map] at hg
          obtain ⟨a, ha, rfl⟩ := hg
          exact hn a ha
    | setNorms =>
      have hr := hok (Or.inl rfl)
      subst hr
      simp only [gmStep, Option.some.injEq] at hs
      have h2 : (gmixSetNorms gm).2 = .ok () := by rw [hs]
      have h1 : (gmixSetNorms gm).1 = gm' := by rw [hs]
      have := norms gm hd h2
      rw [h1] at this
      exact ⟨fun g hg => (this g hg).1, Or.inr fun g hg => (this g hg).2⟩
    | use =>
      have hr := hok (Or.inr rfl)
      subst hr
      simp only [gmStep, Option.some.injEq] at hs
      cases gm with
      | nil =>
        simp only [setNormsIfNeeded, Prod.mk.injEq] at hs
        obtain ⟨rfl, -⟩ := hs
        exact ⟨hd, hn⟩
      | cons g gs =>
        simp only [setNormsIfNeeded] at hs
        split_ifs at hs with h0
        · simp only [Prod.mk.injEq] at hs
          obtain ⟨rfl, -⟩ := hs
          exact ⟨hd, hn⟩
        · have h2 : (gmixSetNorms (g :: gs)).2 = .ok () := by rw [hs]
          have h1 : (gmixSetNorms (g :: gs)).1 = gm' := by rw [hs]
          have := norms _ hd h2
          rw [h1] at this
          exact ⟨fun g hg => (this g hg).1, Or.inr fun g hg => (this g hg).2⟩
    | shear s1 s2 =>
      have key : ∀ (l l' : List Gauss), shearData s1 s2 l = .ok l' →
          ∀ g ∈ l', DetCurrent g ∧ g.normSet = false := by
        intro l
        induction l with
        | nil => intro l' h; simp only [shearData, Except.ok.injEq] at h; subst h; simp
        | cons a l ih =>
          intro l' h
          simp only [shearData] at h
          rcases ha : shearGauss s1 s2 a with e | a'
          · rw [ha] at h; simp [Except.bind] at h
          · rw [ha] at h
            simp only [Except.bind] at h
            rcases hl : shearData s1 s2 l with e | l2
            · rw [hl] at h; simp [Except.map] at h
            · rw [hl] at h
              simp only [Except.map, Except.ok.injEq] at h
              subst h
              intro g hg
              rcases List.mem_cons.mp hg with rfl | hg
              · unfold shearGauss at ha
                rcases hm : getShearedMoments a.irr a.irc a.icc s1 s2 with e | m
                · rw [hm] at ha; simp [Except.map] at ha
                · rw [hm] at ha
                  simp only [Except.map, Except.ok.injEq] at ha
                  subst ha
                  exact ⟨rfl, rfl⟩
              · exact ih l2 hl g hg
      simp only [gmStep] at hs
      rcases hsh : shearData s1 s2 gm with e | l2
      · rw [hsh] at hs
        simp only [Option.some.injEq, Prod.mk.injEq] at hs
        obtain ⟨rfl, -⟩ := hs
        exact ⟨hd, hn⟩
      · rw [hsh] at hs
        simp only [Option.some.injEq, Prod.mk.injEq] at hs
        obtain ⟨rfl, -⟩ := hs
        exact ⟨fun g hg => (key gm _ hsh g hg).1, Or.inl fun g hg => (key gm _ hsh g hg).2⟩
    | convolve psf =>
      simp only [gmStep] at hs
      rcases hsh : gmixConvolve gm psf with e | l2
      · rw [hsh] at hs
        simp only [Option.some.injEq, Prod.mk.injEq] at hs
        obtain ⟨rfl, -⟩ := hs
        exact ⟨hd, hn⟩
      · rw [hsh] at hs
        simp only [Option.some.injEq, Prod.mk.injEq] at hs
        obtain ⟨rfl, -⟩ := hs
        have : ∀ g ∈ l2, DetCurrent g ∧ g.normSet = false := by
          rw [gmixConvolve] at hsh
          rcases hc : gmixGetCen psf with e | c
          · rw [hc] at hsh; simp [Except.map] at hsh
          · rw [hc] at hsh
            simp only [Except.map, Except.ok.injEq] at hsh
            subst hsh
            intro g hg
            simp only [List.mem_flatMap, List.mem_map] at hg
            obtain ⟨a, -, b, -, rfl⟩ := hg
            exact ⟨rfl, rfl⟩
        exact ⟨fun g hg => (this g hg).1, Or.inl fun g hg => (this g hg).2⟩

/-- C20: after a successful evaluation at the end of such a history, every gaussian was evaluated with
norms of its current parameters. -/
theorem C20_use_is_current (gm : List Gauss) (h : GmReach gm)
    (hok : (setNormsIfNeeded gm).2 = .ok ()) : ∀ g ∈ (setNormsIfNeeded gm).1, NormsCurrent g := by
  cases gm with
  | nil => simp [setNormsIfNeeded]
  | cons g0 gs =>
    obtain ⟨hd, hn⟩ := C20_history _ h
    by_cases h0 : g0.normSet = true
    · simp only [setNormsIfNeeded, h0, if_true]
      rcases hn with hn | hn
      · have := hn g0 List.mem_cons_self
        rw [h0] at this; simp at this
      · exact fun g hg => (hn g hg).2
    · simp only [setNormsIfNeeded, h0, if_false, Bool.false_eq_true] at hok ⊢
      obtain ⟨-, h2⟩ := (C20_set_norms _ hd).1 (setNorms_ok_usable _ hd hok)
      intro g hg
      obtain ⟨i, hi, rfl⟩ := List.getElem_of_mem hg
      have hl := h2.length_eq
      exact ((List.forall₂_iff_get.mp h2).2 i (by omega) hi).2.2.1

/-- C20 (violation): when setting norms fails part way the mixture claims to be ready. The next
evaluation succeeds and silently drops the failed gaussian and all after it. -/
theorem C20_partial_failure (g bad : Gauss) (rest : List Gauss) (hg : DetCurrent g) (hu : Usable g)
    (hgn : g.normSet = false) (hb : DetCurrent bad) (hbad : ¬ Usable bad) (hbn : bad.d = none)
    (hrest : ∀ x ∈ rest, DetCurrent x ∧ x.d = none) :
    ∃ gm', setNormsIfNeeded (g :: bad :: rest) = (gm', .error .gmixRange) ∧
      setNormsIfNeeded gm' = (gm', .ok ()) ∧ gm'.length = rest.length + 2 ∧
      ∀ v u area, gmixEvalFast gm' v u area = gaussEvalFast (gauss2dSetNorm g).1 v u area := by
  have hd : ∀ x ∈ g :: bad :: rest, DetCurrent x := by
    intro x hx
    simp only [List.mem_cons] at hx
    rcases hx with rfl | rfl | hx
    · exact hg
    · exact hb
    · exact (hrest x hx).1
  obtain ⟨h1, h2⟩ := (C20_set_norms _ hd).2 [g] bad rest rfl (by simpa using hu) hbad
  obtain ⟨k1, k2, k3, -⟩ := (C20_set_norm g hg).1 hu
  have e : (gmixSetNorms [g]).1 = [(gauss2dSetNorm g).1] := by
    rcases hs : gauss2dSetNorm g with ⟨g', r⟩
    rw [hs] at k1
    simp only at k1
    subst k1
    simp [gmixSetNorms, hs]
  rw [e] at h2
  refine ⟨(gauss2dSetNorm g).1 :: bad :: rest, ?_, ?_, by simp, ?_⟩
  · simp only [setNormsIfNeeded, hgn, Bool.false_eq_true, if_false]
    exact Prod.ext (by rw [h2]; rfl) h1
  · simp only [setNormsIfNeeded, k3, if_true]
  · intro v u area
    have z : ∀ x : Gauss, x.d = none → gaussEvalFast x v u area = 0 := by
      intro x hx; simp [gaussEvalFast, hx]
    have fold : ∀ (l : List Gauss) (a : ℝ), (∀ x ∈ l, x.d = none) →
        l.foldl (fun acc g => acc + gaussEvalFast g v u area) a = a := by
      intro l
      induction l with
      | nil => intros; rfl
      | cons x l ih =>
        intro a hl
        rw [List.foldl_cons, z x (hl x List.mem_cons_self), add_zero]
        exact ih a fun y hy => hl y (List.mem_cons_of_mem _ hy)
    simp only [gmixEvalFast, List.foldl_cons, zero_add]
    rw [z bad hbn, add_zero]
    exact fold rest _ fun x hx => (hrest x hx).2

/-- The hypotheses of the violation are met, with flux lost. -/
example : Usable (gauss2dSet 1 0 0 1 0 1) ∧ ¬ Usable (gauss2dSet 1 0 0 0 0 0) ∧
    (gauss2dSet 1 0 0 0 0 0).d = none := by
  have : gmixLowDetval < 1 := by norm_num [gmixLowDetval]
  have := lowDet_pos
  refine ⟨⟨?_, ?_⟩, ?_, rfl⟩
  · simp only [gauss2dSet]; linarith
  · simp only [gauss2dSet]; linarith
  · rintro ⟨h, -⟩
    simp only [gauss2dSet] at h
    linarith

/-- C20 (violation): `make_round(preserve_size=True)` leaves the old determinant in place, so the
norms set afterwards are not those of the round covariance. -/
theorem C20_make_round_stale :
    ∃ gm', makeRound [gauss2dSet 1 0 0 1 0 3] true = some (.ok gm') ∧ (gmixSetNorms gm').2 = .ok () ∧
      ∀ g ∈ (gmixSetNorms gm').1, g.irr = 3 ∧ g.irc = 0 ∧ g.icc = 3 ∧ ¬ NormsCurrent g := by
  have hm : SecondMoments [gauss2dSet 1 0 0 1 0 3] 1 0 3 := by
    refine ⟨0, 0, ⟨?_, ?_, ?_⟩, ?_, ?_, ?_⟩ <;> norm_num [Flux, gauss2dSet]
  have he := (C18_size_and_shape _ _ _ _ hm).2 (by norm_num)
  have hf : maxEig (e2mom ((3 - 1) / (1 + 3)) (2 * 0 / (1 + 3)) (1 + 3)).1
      (e2mom ((3 - 1) / (1 + 3)) (2 * 0 / (1 + 3)) (1 + 3)).2.1
      (e2mom ((3 - 1) / (1 + 3)) (2 * 0 / (1 + 3)) (1 + 3)).2.2 / ((1 + 3) / 2) = 3 / 2 := by
    simp only [maxEig, e2mom]
    norm_num
  have hr : makeRound [gauss2dSet 1 0 0 1 0 3] true =
      some (.ok (roundData (3 / 2) [gauss2dSet 1 0 0 1 0 3])) := by
    simp only [makeRound, roundFactorOf, he, if_true, Option.map_some, Except.map, hf]
  have hset : gmixSetNorms (roundData (3 / 2) [gauss2dSet 1 0 0 1 0 3]) =
      ([{ p := 1, row := 0, col := 0, irr := 3, irc := 0, icc := 3, det := 3, normSet := true,
          d := some ⟨1, 0, 1, 1 / (2 * Real.pi * Real.sqrt 3), 1 * (1 / (2 * Real.pi * Real.sqrt 3))⟩ }],
        .ok ()) := by
    have h1 : ¬ ((3:ℝ) < gmixLowDetval) := by norm_num [gmixLowDetval]
    have h2 : ¬ ((3:ℝ) + 3 ≤ gmixLowDetval) := by norm_num [gmixLowDetval]
    simp only [roundData, gauss2dSet, List.map_cons, List.map_nil, gmixSetNorms, gauss2dSetNorm]
    norm_num [h1, h2]
    rw [if_neg (by norm_num [gmixLowDetval])]
  refine ⟨_, hr, by rw [hset], ?_⟩
  intro g hg
  rw [hset, List.mem_singleton] at hg
  subst hg
  refine ⟨rfl, rfl, rfl, ?_⟩
  rintro ⟨d, hd, -, h1, -⟩
  simp only [Option.some.injEq] at hd
  subst hd
  norm_num at h1

/-- C20: `make_round` keeps fluxes and positions, makes every covariance isotropic with the trace multiplied by one
factor, and marks the norms as not set; the stored determinants are not updated.  With `preserve_size` the factor
takes half the total size to the larger eigenvalue of the second moments; otherwise it is that of a shear. -/
theorem C20_make_round (gm gm' : List Gauss) (preserve : Bool) (h : makeRound gm preserve = some (.ok gm')) :
    ∃ f : ℝ,
      List.Forall₂ (fun g g' => g'.p = g.p ∧ g'.row = g.row ∧ g'.col = g.col ∧ g'.irr = f * ((g.irr + g.icc) / 2) ∧
        g'.icc = f * ((g.irr + g.icc) / 2) ∧ g'.irc = 0 ∧ g'.det = g.det ∧ g'.normSet = false) gm gm' ∧
      (preserve = true → ∀ rr rc cc, SecondMoments gm rr rc cc →
        (f * ((rr + cc) / 2) - rr) * (f * ((rr + cc) / 2) - cc) = rc ^ 2 ∧ (rr + cc) / 2 ≤ f * ((rr + cc) / 2)) ∧
      (preserve = false → ∃ g1 g2 T, gmGetG1g2T gm = some (.ok (g1, g2, T)) ∧
        f = (1 - (g1 ^ 2 + g2 ^ 2)) / (1 + (g1 ^ 2 + g2 ^ 2))) := by
  unfold makeRound at h
  rcases hr : roundFactorOf gm preserve with _ | (e | f)
  · rw [hr] at h; simp at h
  · rw [hr] at h; simp [Except.map] at h
  rw [hr] at h
  simp only [Option.map_some, Except.map, Option.some.injEq, Except.ok.injEq] at h
  refine ⟨f, ?_, ?_, ?_⟩
  · subst h
    unfold roundData
    rw [List.forall₂_map_right_iff, List.forall₂_same]
    intro g _
    refine ⟨rfl, rfl, rfl, ?_, ?_, rfl, rfl, rfl⟩ <;> · simp only; ring
  · rintro rfl rr rc cc hm
    unfold roundFactorOf at hr
    rw [if_pos rfl] at hr
    by_cases h0 : rr + cc = 0
    · exfalso
      have : gmGetE1e2T gm = none := by
        rw [← getMoms_iff] at hm
        simp [gmGetE1e2T, hm, h0]
      rw [this] at hr
      simp at hr
    · rw [(C18_size_and_shape gm rr rc cc hm).2 h0] at hr
      simp only [Option.map_some, Option.some.injEq, Except.ok.injEq] at hr
      have hmom : e2mom ((cc - rr) / (rr + cc)) (2 * rc / (rr + cc)) (rr + cc) = (rr, rc, cc) := by
        simp only [e2mom, Prod.mk.injEq]
        refine ⟨?_, ?_, ?_⟩ <;> field_simp <;> ring
      rw [hmom] at hr
      have hf : f * ((rr + cc) / 2) = maxEig rr rc cc := by
        rw [← hr]; field_simp
      rw [hf]
      have hs := Real.sq_sqrt (show (0:ℝ) ≤ ((rr - cc) / 2) ^ 2 + rc ^ 2 by positivity)
      have hn := Real.sqrt_nonneg (((rr - cc) / 2) ^ 2 + rc ^ 2)
      unfold maxEig
      generalize Real.sqrt (((rr - cc) / 2) ^ 2 + rc ^ 2) = s at hs hn
      exact ⟨by nlinarith, by linarith⟩
  · rintro rfl
    unfold roundFactorOf at hr
    simp only [Bool.false_eq_true, if_false] at hr
    rcases hg : gmGetG1g2T gm with _ | (e | ⟨g1, g2, T⟩)
    · rw [hg] at hr; simp at hr
    · rw [hg] at hr; simp [Except.map] at hr
    · rw [hg] at hr
      simp only [Option.map_some, Except.map, Option.some.injEq, Except.ok.injEq] at hr
      exact ⟨g1, g2, T, rfl, by rw [← hr]; rfl⟩

/-- A case: the mixture of the violation. -/
example : ∃ gm', makeRound [gauss2dSet 1 0 0 1 0 3] true = some (.ok gm') :=
  C20_make_round_stale.imp fun _ h => h.1

theorem modify_at (p : List (Option ℝ)) (x : Option ℝ) (r : List (Option ℝ)) (F : Option ℝ → Option ℝ) :
    (p ++ x :: r).modify p.length F = p ++ F x :: r := by
  induction p with
  | nil => simp
  | cons a p ih => simpa using ih

theorem render_adds (val : Coord → Option ℝ) (coords : List Coord) : ∀ (pre image : List (Option ℝ)),
    image.length = coords.length →
    (coords.foldl (fun (st : ℕ × List (Option ℝ)) c =>
        (st.1 + 1, st.2.modify st.1 fun x => x.bind fun a => (val c).map fun b => a + b))
        (pre.length, pre ++ image)).2 =
      pre ++ List.zipWith (fun x c => x.bind fun a => (val c).map fun b => a + b) image coords := by
  induction coords with
  | nil => intro pre image h; simp [List.length_eq_zero_iff.mp h]
  | cons c coords ih =>
    intro pre image h
    cases image with
    | nil => simp at h
    | cons x image =>
      simp only [List.foldl_cons, List.zipWith_cons_cons]
      rw [modify_at]
      have := ih (pre ++ [x.bind fun a => (val c).map fun b => a + b]) image (by simpa using h)
      rw [List.length_append, List.length_singleton] at this
      simp only [List.append_assoc, List.singleton_append] at this
      exact this

/-- C21: rendering adds to every pixel of the image the value of the mixture there, with the norms set. -/
theorem C21_render_adds (gm gm' : List Gauss) (h : setNormsIfNeeded gm = (gm', .ok ())) (coords : List Coord)
    (image : List (Option ℝ)) (hl : image.length = coords.length) (fast : Bool) :
    ∃ out, render gm coords image fast = (gm', .ok out) ∧ out.length = coords.length ∧
      ∀ (i : ℕ) (h1 : i < image.length) (h2 : i < coords.length) (h3 : i < out.length) (a : ℝ), image[i] = some a →
        (fast = true → out[i] = some (a + gmixEvalFast gm' coords[i].v coords[i].u coords[i].area)) ∧
        (fast = false → ∀ b, gmixEval gm' coords[i].v coords[i].u coords[i].area = some b → out[i] = some (a + b)) := by
  have hr := render_adds (fun c => if fast then some (gmixEvalFast gm' c.v c.u c.area) else gmixEval gm' c.v c.u c.area)
    coords [] image hl
  simp only [List.nil_append, List.length_nil] at hr
  refine ⟨_, by simp only [render, h]; rw [hr], by simp [hl], ?_⟩
  intro i h1 h2 h3 a ha
  constructor
  · rintro rfl
    simp [ha]
  · rintro rfl b hb
    simp [ha, hb]

/-- A case: a unit gaussian. -/
example : ∃ gm', setNormsIfNeeded [gauss2dSet 1 0 0 1 0 1] = (gm', .ok ()) := by
  have h1 : ¬ ((1:ℝ) < gmixLowDetval) := by norm_num [gmixLowDetval]
  have h2 : ¬ ((1:ℝ) + 1 ≤ gmixLowDetval) := by norm_num [gmixLowDetval]
  refine ⟨(setNormsIfNeeded [gauss2dSet 1 0 0 1 0 1]).1, ?_⟩
  simp only [setNormsIfNeeded, gauss2dSet, gmixSetNorms, gauss2dSetNorm]
  norm_num [h1, h2]
  rw [if_neg (by norm_num [gmixLowDetval])]

end Ngmix.Props
