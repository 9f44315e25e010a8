import Verif.Spec.GMixNDObj
import Verif.Spec.GMixND
import Verif.Props.GMixND

/-!
# Property C90: `GMixND` over its history
-/

namespace Ngmix.Props

open Ngmix Ngmix.Spec

variable {n : ℕ} {σ : Type}

/-- The world after a history (latest operation first) on an object made without arguments. -/
noncomputable def ndAfter (x : NDExt n σ) (files : String → Except PyErr (List (NDIn n))) (rng : σ)
    (h : List (NDOp n σ)) : NDWorld n σ :=
  h.foldr (fun op w => ndStep x w op) ⟨⟨none, none, none⟩, files, rng⟩

/-- The norms belong to the mixture held, when that can be inverted. -/
def NormsOf (o : NDObj n) : Prop :=
  (∀ gm ds, o.mix = some gm → ndSetMixture gm = .ok ds → o.norms = some (ds.map fun d => (d.logPnorm, d.icovar))) ∧
  (o.mix = none → o.norms = none)

theorem setMixture_mix (o : NDObj n) (gm : List (NDIn n)) : (o.setMixture gm).1.mix = some gm ∧
    (o.setMixture gm).1.gmm = o.gmm ∧ NormsOf (o.setMixture gm).1 := by
  unfold NDObj.setMixture NormsOf
  cases h : ndSetMixture gm with
  | error e =>
    refine ⟨rfl, rfl, ?_, ?_⟩
    · intro gm' ds h1 h2
      simp only [Option.some.injEq] at h1
      subst h1
      rw [h] at h2
      cases h2
    · simp
  | ok ds =>
    refine ⟨rfl, rfl, ?_, ?_⟩
    · intro gm' ds' h1 h2
      simp only [Option.some.injEq] at h1
      subst h1
      rw [h] at h2
      cases h2
      rfl
    · simp

theorem nd_invariant (x : NDExt n σ) (files : String → Except PyErr (List (NDIn n))) (rng : σ) :
    ∀ h : List (NDOp n σ),
      (ndAfter x files rng h).obj.mix = heldMix files x.lost h ∧
      (∀ f, (ndAfter x files rng h).files f = fileMix files x.lost h f) ∧
      (ndAfter x files rng h).obj.gmm.map (·.mix) = samplerMix files x h ∧
      NormsOf (ndAfter x files rng h).obj := by
  intro h
  induction h with
  | nil => simp [ndAfter, heldMix, fileMix, samplerMix, NormsOf]
  | cons op h ih =>
    have hs : ndAfter x files rng (op :: h) = ndStep x (ndAfter x files rng h) op := rfl
    rw [hs]
    generalize ndAfter x files rng h = w at ih
    obtain ⟨i1, i2, i3, i4⟩ := ih
    cases op with
    | set gm =>
      obtain ⟨q1, q2, q3⟩ := setMixture_mix w.obj gm
      refine ⟨by simp [ndStep, q1, heldMix], fun f => by simp [ndStep, i2, fileMix], ?_, q3⟩
      simp [ndStep, q2, i3, samplerMix]
    | load f =>
      have hf := i2 f
      simp only [ndStep, ndLoad, heldMix, samplerMix, fileMix]
      cases hc : w.files f with
      | error e =>
        rw [hc] at hf
        refine ⟨by simp [← hf, i1], i2, i3, i4⟩
      | ok gm =>
        rw [hc] at hf
        obtain ⟨q1, q2, q3⟩ := setMixture_mix w.obj gm
        refine ⟨by simp [← hf, q1], i2, by simp [q2, i3], q3⟩
    | save f =>
      simp only [ndStep, ndSave, heldMix, samplerMix, fileMix]
      cases hm : w.obj.mix with
      | none =>
        refine ⟨by simp [← i1, hm], fun g => ?_, i3, i4⟩
        rw [← i1, hm]
        by_cases hg : g = f
        · subst hg; simp
        · simp [hg, i2]
      | some gm =>
        refine ⟨by simp [← i1, hm], fun g => ?_, i3, i4⟩
        rw [← i1, hm]
        by_cases hg : g = f
        · subst hg; simp
        · simp [hg, i2]
    | fit r' r =>
      cases r with
      | error e => exact ⟨by simp [ndStep, ndFit, heldMix, i1], fun f => by simp [ndStep, ndFit, fileMix, i2],
          by simp [ndStep, ndFit, samplerMix, i3], i4⟩
      | ok r =>
        obtain ⟨gm, cv⟩ := r
        obtain ⟨q1, q2, q3⟩ := setMixture_mix ({ w.obj with gmm := some ⟨gm, some cv⟩ } : NDObj n) gm
        refine ⟨by simp [ndStep, ndFit, heldMix, q1], fun f => by simp [ndStep, ndFit, fileMix, i2], ?_, q3⟩
        simp [ndStep, ndFit, samplerMix, q2]
    | sample num =>
      simp only [ndStep, ndSample, heldMix, samplerMix, fileMix]
      cases hg : w.obj.gmm with
      | some g =>
        rw [hg] at i3
        simp only [Option.map_some] at i3
        rw [← i3]
        simp only [hg]
        exact ⟨i1, i2, by simp [hg], i4⟩
      | none =>
        rw [hg] at i3
        simp only [Option.map_none] at i3
        rw [← i3, ← i1]
        unfold NDObj.setGmm
        cases hm : w.obj.mix with
        | none => exact ⟨by simp [hm], i2, by simp [hg], i4⟩
        | some gm =>
          simp only
          cases hc : x.chol (gm.map (·.covar)) with
          | error e => exact ⟨by simp [hm], i2, by simp [hg], i4⟩
          | ok u =>
            refine ⟨by simp, i2, by simp, ?_⟩
            refine ⟨fun gm' ds h1 h2 => i4.1 gm' ds (hm.trans h1) h2, fun h1 => ?_⟩
            simp at h1
    | other f c =>
      refine ⟨by simp [ndStep, heldMix, i1], fun g => ?_, by simp [ndStep, samplerMix, i3], i4⟩
      simp only [ndStep, fileMix]
      by_cases hg : g = f
      · subst hg; simp
      · simp [hg, i2]

theorem ndSet_mean (gm : List (NDIn n)) : ∀ ds, ndSetMixture gm = .ok ds →
    List.Forall₂ (fun (c : NDIn n) d => d.mean = c.mean) gm ds := by
  induction gm with
  | nil => intro ds h; cases h; exact .nil
  | cons c cs ih =>
    intro ds h
    unfold ndSetMixture at h
    cases hd : ndComp c with
    | error e => simp [hd, Except.bind] at h
    | ok d =>
      cases hs : ndSetMixture cs with
      | error e => simp [hd, hs, Except.bind, Except.map] at h
      | ok ds' =>
        simp only [hd, hs, Except.bind, Except.map, Except.ok.injEq] at h
        subst h
        refine .cons ?_ (ih ds' hs)
        unfold ndComp at hd
        split at hd
        · cases hd
        · cases hd; rfl

theorem zip_norms (gm : List (NDIn n)) (ds : List (NDComp n))
    (h : List.Forall₂ (fun (c : NDIn n) d => d.mean = c.mean) gm ds) :
    List.zipWith (fun (a : Fl × Matrix (Fin n) (Fin n) ℝ) (c : NDIn n) => (⟨a.1, c.mean, a.2⟩ : NDComp n))
      (ds.map fun d => (d.logPnorm, d.icovar)) gm = ds := by
  induction h with
  | nil => rfl
  | cons hc _ ih => simp only [List.map_cons, List.zipWith_cons_cons, ih, ← hc]

/-- C90: after any history the probability of an object is that of the mixture sent last, if its covariances can be
inverted; an object that was never sent one raises AttributeError.  For positive determinants and nonnegative
weights it is the density of that mixture. -/
theorem C90_prob (x : NDExt n σ) (files : String → Except PyErr (List (NDIn n))) (rng : σ) (h : List (NDOp n σ)) :
    (heldMix files x.lost h = none →
      ∀ p dolog k, (ndAfter x files rng h).obj.prob p dolog k = some (.error .attribute)) ∧
    (∀ gm, heldMix files x.lost h = some gm →
      (∀ ds, ndSetMixture gm = .ok ds →
        ∀ p dolog k, (ndAfter x files rng h).obj.prob p dolog k = some (ndProb ds p dolog k)) ∧
      ((∀ c ∈ gm, 0 < c.covar.det ∧ 0 ≤ c.weight) → ∀ p,
        (ndAfter x files rng h).obj.prob p false none = some (.ok (.fin (mixDensity gm p))) ∧
        (ndAfter x files rng h).obj.prob p true none = some (.ok (lnDensity (mixDensity gm p))))) := by
  obtain ⟨i1, -, -, i4⟩ := nd_invariant x files rng h
  generalize ndAfter x files rng h = w at i1 i4
  constructor
  · intro hh p dolog k
    rw [hh] at i1
    simp [NDObj.prob, i4.2 i1]
  · intro gm hgm
    rw [hgm] at i1
    have key : ∀ ds, ndSetMixture gm = .ok ds → ∀ p dolog k, w.obj.prob p dolog k = some (ndProb ds p dolog k) := by
      intro ds hds p dolog k
      have hf := ndSet_mean gm ds hds
      simp only [NDObj.prob, i1, i4.1 gm ds i1 hds, List.length_map]
      rw [if_neg (by rw [hf.length_eq]; omega), zip_norms gm ds hf]
    refine ⟨key, fun hp p => ?_⟩
    obtain ⟨ds, hds, hx⟩ := (C58_prob gm).2 hp
    rw [key ds hds, key ds hds, (hx p).1, (hx p).2.1]
    exact ⟨rfl, rfl⟩

/-- C90: samples come from the mixture of the last fit or, without a fit, from the one held when the first sample was
drawn; `sample()` gives one of them and `sample(num)` as many as the sampler draws, as numbers in one dimension and
points otherwise.  Before that, no mixture is AttributeError, and one without Cholesky factors raises what computing
these raises. -/
theorem C90_sample (x : NDExt n σ) (files : String → Except PyErr (List (NDIn n))) (rng : σ) (h : List (NDOp n σ))
    (num : Option ℤ) :
    (∀ gm, samplerMix files x (.sample num :: h) = some gm →
      (ndSample x (ndAfter x files rng h) num).2 =
        (x.draw gm (num.getD 1) (ndAfter x files rng h).rng).2.bind (ndShapeSample num.isNone)) ∧
    (samplerMix files x (.sample num :: h) = none →
      (heldMix files x.lost h = none → (ndSample x (ndAfter x files rng h) num).2 = .error .attribute) ∧
      (∀ gm, heldMix files x.lost h = some gm → ∃ e, x.chol (gm.map (·.covar)) = .error e ∧
        (ndSample x (ndAfter x files rng h) num).2 = .error e)) := by
  obtain ⟨i1, -, i3, -⟩ := nd_invariant x files rng h
  generalize ndAfter x files rng h = w at i1 i3
  simp only [samplerMix]
  rw [← i3, ← i1]
  unfold ndSample
  cases hg : w.obj.gmm with
  | some g =>
    simp only [Option.map_some, Option.some.injEq, hg]
    exact ⟨fun gm hgm => by rw [hgm], by simp⟩
  | none =>
    simp only [Option.map_none]
    unfold NDObj.setGmm
    cases hm : w.obj.mix with
    | none => simp
    | some gm =>
      simp only
      cases hc : x.chol (gm.map (·.covar)) with
      | error e => simpa using hc
      | ok u => simp

/-- C90: the shapes of the samples: `sample()` is the first row, a number exactly in one dimension; a sampler that
gives nothing makes it an IndexError. -/
theorem C90_sample_shape (isOne : Bool) (ps : List (Fin n → ℝ)) :
    (isOne = false → (n = 1 → ∃ xs : List ℝ, ndShapeSample isOne ps = .ok (.values xs) ∧
        List.Forall₂ (fun p a => ∀ i, p i = a) ps xs) ∧
      (n ≠ 1 → ndShapeSample isOne ps = .ok (.points ps))) ∧
    (isOne = true → (ps = [] → ndShapeSample isOne ps = .error .index) ∧
      (∀ p rest, ps = p :: rest → (n = 1 → ∃ a, ndShapeSample isOne ps = .ok (.value a) ∧ ∀ i, p i = a) ∧
        (n ≠ 1 → ndShapeSample isOne ps = .ok (.point p)))) := by
  unfold ndShapeSample
  have h1 : ∀ (hn : n = 1) (p : Fin n → ℝ) (i : Fin n), p i = p ⟨0, by omega⟩ := by
    intro hn p i
    congr 1
    apply Fin.ext
    have := i.2
    simp only
    omega
  constructor
  · rintro rfl
    refine ⟨fun hn => ?_, fun hn => ?_⟩
    · refine ⟨ps.map fun p : Fin n → ℝ => p ⟨0, by omega⟩, by rw [dif_pos hn]; rfl, ?_⟩
      rw [List.forall₂_map_right_iff, List.forall₂_same]
      exact fun p _ i => h1 hn p i
    · simp [hn]
  · rintro rfl
    constructor
    · rintro rfl
      by_cases hn : n = 1 <;> simp [hn]
    · rintro p rest rfl
      refine ⟨fun hn => ⟨p ⟨0, by omega⟩, by simp [hn], h1 hn p⟩, fun hn => by simp [hn]⟩

/-- No fit that ended. -/
def NoFit (h : List (NDOp n σ)) : Prop := ∀ r g, NDOp.fit r (.ok g) ∉ h

/-- C90 (violation): once samples were drawn, nothing but a fit changes the mixture they come from: not `set_mixture`,
not `load_mixture`, although the probabilities follow these (`C90_prob`). -/
theorem C90_sampler_stale (x : NDExt n σ) (files : String → Except PyErr (List (NDIn n))) (h later : List (NDOp n σ))
    (gm : List (NDIn n)) (hs : samplerMix files x h = some gm) (hf : NoFit later) :
    samplerMix files x (later ++ h) = some gm := by
  induction later with
  | nil => exact hs
  | cons op later ih =>
    have ih := ih fun r g hm => hf r g (List.mem_cons_of_mem _ hm)
    cases op with
    | fit r g =>
      cases g with
      | error e => simpa [samplerMix] using ih
      | ok g => exact absurd (by simp) (hf r g)
    | sample num => simp [samplerMix, ih]
    | set _ => simpa [samplerMix] using ih
    | load _ => simpa [samplerMix] using ih
    | save _ => simpa [samplerMix] using ih
    | other _ _ => simpa [samplerMix] using ih

/-- C90 (violation): the sampler and the probabilities of one object can belong to different mixtures. -/
theorem C90_sampler_disagrees (x : NDExt n σ) (files : String → Except PyErr (List (NDIn n))) (rng : σ)
    (gm gm' : List (NDIn n)) (hc : x.chol (gm.map (·.covar)) = .ok ())
    (hp : ∀ c ∈ gm', 0 < c.covar.det ∧ 0 ≤ c.weight) (num : Option ℤ) :
    (ndSample x (ndAfter x files rng [.set gm', .sample none, .set gm]) num).2 =
      (x.draw gm (num.getD 1) (ndAfter x files rng [.set gm', .sample none, .set gm]).rng).2.bind
        (ndShapeSample num.isNone) ∧
    ∀ p, (ndAfter x files rng [.set gm', .sample none, .set gm]).obj.prob p false none =
      some (.ok (.fin (mixDensity gm' p))) := by
  constructor
  · refine (C90_sample x files rng [.set gm', .sample none, .set gm] num).1 gm ?_
    simp [samplerMix, heldMix, hc]
  · intro p
    exact (((C90_prob x files rng [.set gm', .sample none, .set gm]).2 gm' rfl).2 hp p).1

/-- Does not write the file. -/
def KeepsFile (f : String) : NDOp n σ → Prop
  | .save g => g ≠ f
  | .other g _ => g ≠ f
  | _ => True

theorem fileMix_keeps (files : String → Except PyErr (List (NDIn n))) (lost : PyErr) (f : String)
    (h : List (NDOp n σ)) : ∀ later : List (NDOp n σ), (∀ op ∈ later, KeepsFile f op) →
      fileMix files lost (later ++ h) f = fileMix files lost h f := by
  intro later
  induction later with
  | nil => intro _; rfl
  | cons op later ih =>
    intro hk
    have ih := ih fun o ho => hk o (List.mem_cons_of_mem _ ho)
    have h0 := hk op (by simp)
    cases op with
    | save g => simp only [List.cons_append, fileMix]; rw [if_neg (Ne.symm h0), ih]
    | other g c => simp only [List.cons_append, fileMix]; rw [if_neg (Ne.symm h0), ih]
    | set _ => simpa [fileMix] using ih
    | load _ => simpa [fileMix] using ih
    | fit _ _ => simpa [fileMix] using ih
    | sample _ => simpa [fileMix] using ih

/-- C90: a mixture saved to a file and loaded again, by the same object or any other that sees the file, whatever
happened in between that does not write the file, is the mixture held when it was saved: the object then gives its
probabilities.  Saving without a mixture raises AttributeError and loses the file. -/
theorem C90_save_load (x : NDExt n σ) (files : String → Except PyErr (List (NDIn n))) (rng : σ)
    (h later : List (NDOp n σ)) (f : String) (hk : ∀ op ∈ later, KeepsFile f op) :
    (∀ gm, heldMix files x.lost h = some gm →
      (ndSave x (ndAfter x files rng h) f).2 = .ok () ∧
      (ndAfter x files rng (later ++ .save f :: h)).files f = .ok gm ∧
      heldMix files x.lost (.load f :: (later ++ .save f :: h)) = some gm) ∧
    (heldMix files x.lost h = none →
      (ndSave x (ndAfter x files rng h) f).2 = .error .attribute ∧
      (ndLoad (ndAfter x files rng (later ++ .save f :: h)) f).2 = .error x.lost) := by
  have e1 := fileMix_keeps files x.lost f (.save f :: h) later hk
  obtain ⟨i1, -, -, -⟩ := nd_invariant x files rng h
  obtain ⟨-, j2, -, -⟩ := nd_invariant x files rng (later ++ .save f :: h)
  constructor
  · intro gm hgm
    have e2 : fileMix files x.lost (.save f :: h) f = .ok gm := by simp [fileMix, hgm]
    refine ⟨by simp [ndSave, i1, hgm], by rw [j2, e1, e2], by simp [heldMix, e1, e2]⟩
  · intro hn
    have e2 : fileMix files x.lost (.save f :: h) f = .error x.lost := by simp [fileMix, hn]
    refine ⟨by simp [ndSave, i1, hn], ?_⟩
    unfold ndLoad
    rw [j2, e1, e2]

theorem pos_density_norm (c : NDIn n) (d : NDComp n) (mean : Fin n → ℝ) (h : ndComp c = .ok d) :
    ndComp { c with mean := mean } = .ok { d with mean := mean } := by
  unfold ndComp at h ⊢
  simp only at h ⊢
  split at h
  · cases h
  · next hd => rw [if_neg hd]; cases h; rfl

theorem ndSet_hybrid (gm : List (NDIn n)) : ∀ (gm' : List (NDIn n)) ds, ndSetMixture gm = .ok ds →
    gm.length ≤ gm'.length →
    ndSetMixture (List.zipWith (fun c c' => { c with mean := c'.mean }) gm gm') =
      .ok (List.zipWith (fun a c' => (⟨a.1, c'.mean, a.2⟩ : NDComp n)) (ds.map fun d => (d.logPnorm, d.icovar)) gm') := by
  induction gm with
  | nil => intro gm' ds h _; cases h; rfl
  | cons c cs ih =>
    intro gm' ds h hl
    cases gm' with
    | nil => simp at hl
    | cons c' cs' =>
      unfold ndSetMixture at h
      cases hd : ndComp c with
      | error e => simp [hd, Except.bind] at h
      | ok d =>
        cases hs : ndSetMixture cs with
        | error e => simp [hd, hs, Except.bind, Except.map] at h
        | ok ds' =>
          simp only [hd, hs, Except.bind, Except.map, Except.ok.injEq] at h
          subst h
          simp only [List.zipWith_cons_cons, List.map_cons]
          unfold ndSetMixture
          rw [pos_density_norm c d c'.mean hd, ih cs' ds' hs (by simpa using hl)]
          rfl

/-- C90 (violation): a mixture with a singular covariance raises LinAlgError, but its means stay: with at least as many
gaussians as before, the probabilities are then those of the former weights and covariances at the new means.
(With fewer, means past the end of the array are read.) -/
theorem C90_failed_set (x : NDExt n σ) (files : String → Except PyErr (List (NDIn n))) (rng : σ) (h : List (NDOp n σ))
    (gm gm' : List (NDIn n)) (hh : heldMix files x.lost h = some gm)
    (hp : ∀ c ∈ gm, 0 < c.covar.det ∧ 0 ≤ c.weight) (hs : ∃ c ∈ gm', c.covar.det = 0) :
    ((ndAfter x files rng h).obj.setMixture gm').2 = .error .linAlg ∧
    heldMix files x.lost (.set gm' :: h) = some gm' ∧
    (gm.length ≤ gm'.length → ∀ p, (ndAfter x files rng (.set gm' :: h)).obj.prob p false none =
      some (.ok (.fin (mixDensity (List.zipWith (fun c c' => { c with mean := c'.mean }) gm gm') p)))) ∧
    (gm'.length < gm.length → ∀ p b k, (ndAfter x files rng (.set gm' :: h)).obj.prob p b k = none) := by
  have herr := (C58_prob gm').1 hs
  obtain ⟨i1, -, -, i4⟩ := nd_invariant x files rng h
  obtain ⟨ds, hds, -⟩ := (C58_prob gm).2 hp
  have hst : ndAfter x files rng (.set gm' :: h) = ndStep x (ndAfter x files rng h) (.set gm') := rfl
  rw [hst]
  generalize ndAfter x files rng h = w at i1 i4
  rw [hh] at i1
  have hn := i4.1 gm ds i1 hds
  have hlen := (ndSet_mean gm ds hds).length_eq
  have hobj : (ndStep x w (.set gm')).obj = { w.obj with mix := some gm' } := by
    simp [ndStep, NDObj.setMixture, herr]
  refine ⟨by simp [NDObj.setMixture, herr], rfl, fun hl p => ?_, fun hl p b k => ?_⟩
  · rw [hobj]
    simp only [NDObj.prob, hn, List.length_map]
    rw [if_neg (by omega)]
    have hyb := ndSet_hybrid gm gm' ds hds hl
    obtain ⟨ds2, h2, hx⟩ := (C58_prob (List.zipWith (fun c c' => { c with mean := c'.mean }) gm gm')).2 (by
      intro c hc
      obtain ⟨i, hi, rfl⟩ := List.getElem_of_mem hc
      simp only [List.getElem_zipWith]
      exact hp _ (List.getElem_mem _))
    rw [hyb] at h2
    cases h2
    rw [(hx p).1]
  · rw [hobj]
    simp only [NDObj.prob, hn, List.length_map]
    rw [if_pos (by omega)]

/-- C90: the constructor: a file wins over arrays; all three arrays set the mixture, none leaves an object without one,
anything else is a RuntimeError. -/
theorem C90_init (files : String → Except PyErr (List (NDIn n))) (rng : σ) (ws : Option (List ℝ))
    (ms : Option (List (Fin n → ℝ))) (cs : Option (List (Matrix (Fin n) (Fin n) ℝ))) :
    (∀ f, ndInit files rng (some f) ws ms cs = ndLoad ⟨⟨none, none, none⟩, files, rng⟩ f) ∧
    (∀ w m c, ws = some w → ms = some m → cs = some c → m.length = w.length → c.length = w.length →
      ∃ gm, (ndInit files rng none ws ms cs).1.obj.mix = some gm ∧ gm.map (·.weight) = w ∧ gm.map (·.mean) = m ∧
        gm.map (·.covar) = c ∧
        ((ndInit files rng none ws ms cs).2 = .ok () ↔ ∀ a ∈ c, a.det ≠ 0)) ∧
    (ws = none → ms = none → cs = none → ndInit files rng none ws ms cs = (⟨⟨none, none, none⟩, files, rng⟩, .ok ())) ∧
    ((ndInit files rng none ws ms cs).2 = .error .runtime ↔
      (ws.isSome ∨ ms.isSome ∨ cs.isSome) ∧ ¬ (ws.isSome ∧ ms.isSome ∧ cs.isSome)) := by
  refine ⟨fun f => rfl, ?_, ?_, ?_⟩
  · rintro w m c rfl rfl rfl hm hc
    refine ⟨List.zipWith (fun a mc => ⟨a, mc.1, mc.2⟩) w (m.zip c), ?_, ?_, ?_, ?_, ?_⟩
    · exact (setMixture_mix _ _).1
    · apply List.ext_getElem <;> simp [hm, hc]
    · apply List.ext_getElem <;> simp [hm, hc]
    · apply List.ext_getElem <;> simp [hm, hc]
    · have hcov : (List.zipWith (fun a (mc : (Fin n → ℝ) × Matrix (Fin n) (Fin n) ℝ) => (⟨a, mc.1, mc.2⟩ : NDIn n))
          w (m.zip c)).map (·.covar) = c := by apply List.ext_getElem <;> simp [hm, hc]
      generalize hgm : List.zipWith (fun a (mc : (Fin n → ℝ) × Matrix (Fin n) (Fin n) ℝ) => (⟨a, mc.1, mc.2⟩ : NDIn n))
          w (m.zip c) = gm at hcov
      have hr : (ndInit files rng none (some w) (some m) (some c)).2 =
          ((⟨none, none, none⟩ : NDObj n).setMixture gm).2 := by rw [← hgm]; rfl
      rw [hr]
      constructor
      · intro hok a ha hdet
        rw [← hcov] at ha
        obtain ⟨d, hd, rfl⟩ := List.mem_map.mp ha
        simp [NDObj.setMixture, (C58_prob gm).1 ⟨d, hd, hdet⟩] at hok
      · intro hall
        obtain ⟨ds, hds, -⟩ := (ndSet_spec gm).2 (fun d hd => hall _ (hcov ▸ List.mem_map_of_mem hd))
        simp [NDObj.setMixture, hds]
  · rintro rfl rfl rfl; rfl
  · have hno : ∀ gm : List (NDIn n), ((⟨none, none, none⟩ : NDObj n).setMixture gm).2 ≠ .error .runtime := by
      intro gm
      by_cases hs : ∃ d ∈ gm, d.covar.det = 0
      · simp [NDObj.setMixture, (C58_prob gm).1 hs]
      · push Not at hs
        obtain ⟨ds, hds, -⟩ := (ndSet_spec gm).2 hs
        simp [NDObj.setMixture, hds]
    cases ws <;> cases ms <;> cases cs <;> simp [ndInit]
    exact hno _

/-- C90: `converged` is what the last fit said, AttributeError without one. -/
theorem C90_converged (x : NDExt n σ) (files : String → Except PyErr (List (NDIn n))) (rng : σ)
    (h : List (NDOp n σ)) :
    (NoFit h → (ndAfter x files rng h).obj.isConverged = .error .attribute) ∧
    (∀ later earlier r gm cv, h = later ++ .fit r (.ok (gm, cv)) :: earlier → NoFit later →
      (ndAfter x files rng h).obj.isConverged = .ok cv) := by
  have step : ∀ (w : NDWorld n σ) (op : NDOp n σ), (∀ r g, op ≠ .fit r (.ok g)) →
      (ndStep x w op).obj.isConverged = w.obj.isConverged := by
    intro w op hop
    cases op with
    | set gm => simp [ndStep, NDObj.isConverged, (setMixture_mix w.obj gm).2.1]
    | load f =>
      simp only [ndStep, ndLoad]
      cases w.files f with
      | error e => rfl
      | ok gm => simp [NDObj.isConverged, (setMixture_mix w.obj gm).2.1]
    | save f =>
      simp only [ndStep, ndSave]
      cases w.obj.mix <;> rfl
    | fit r g =>
      cases g with
      | error e => rfl
      | ok g => exact absurd rfl (hop r g)
    | other f c => rfl
    | sample num =>
      simp only [ndStep, ndSample]
      cases hg : w.obj.gmm with
      | some g => simp [hg, NDObj.isConverged]
      | none =>
        simp only
        unfold NDObj.setGmm
        cases hm : w.obj.mix with
        | none => simp
        | some gm =>
          simp only
          cases hc : x.chol (gm.map (·.covar)) with
          | error e => simp
          | ok u => simp [NDObj.isConverged, hg]
  have base : ∀ (later h : List (NDOp n σ)), NoFit later →
      (ndAfter x files rng (later ++ h)).obj.isConverged = (ndAfter x files rng h).obj.isConverged := by
    intro later h hl
    induction later with
    | nil => rfl
    | cons op later ih =>
      have : ndAfter x files rng (op :: later ++ h) = ndStep x (ndAfter x files rng (later ++ h)) op := rfl
      rw [this, step _ _ (fun r g e => hl r g (by simp [e])), ih fun r g hm => hl r g (List.mem_cons_of_mem _ hm)]
  constructor
  · intro hn
    have := base h [] hn
    rw [List.append_nil] at this
    rw [this]
    rfl
  · rintro later earlier r gm cv rfl hl
    rw [base _ _ hl]
    have : ndAfter x files rng (.fit r (.ok (gm, cv)) :: earlier) =
      ndStep x (ndAfter x files rng earlier) (.fit r (.ok (gm, cv))) := rfl
    rw [this]
    simp [ndStep, ndFit, NDObj.isConverged, (setMixture_mix _ gm).2.1]

/-- A case: in one dimension, a unit normal replaced by one at 5 after a first sample, with a sampler that returns the
means. -/
example : (ndSample (⟨fun _ => .ok (), fun gm _ s => (s, .ok (gm.map (·.mean))), .value⟩ : NDExt 1 Unit)
    (ndAfter ⟨fun _ => .ok (), fun gm _ s => (s, .ok (gm.map (·.mean))), .value⟩ (fun _ => .error .value) ()
      [.set [⟨1, fun _ => 5, 1⟩], .sample none, .set [⟨1, fun _ => 0, 1⟩]]) none).2 = .ok (.value 0) := by
  rw [(C90_sampler_disagrees _ _ () [⟨1, fun _ => 0, 1⟩] [⟨1, fun _ => 5, 1⟩] rfl (by simp) none).1]
  simp [Except.bind, ndShapeSample]

end Ngmix.Props
