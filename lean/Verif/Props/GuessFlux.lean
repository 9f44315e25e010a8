import Verif.Props.Guessers
import Verif.Props.PSFFlux

/-! # C62 (psf fluxes) and C63 (their cache) -/

namespace Ngmix.Props

open Spec JointPrior

/-- The psf flux fit of every band ran; `fs` has the flux of the bands with flags 0 and a finite flux. -/
def BandResults (bands : List (List PFObs)) (fs : List (Option ℝ)) : Prop :=
  List.Forall₂ (fun b f => ∃ res, psfFlux b true true = .ok res ∧
    ∀ x, f = some x ↔ res.flags = 0 ∧ res.flux = .fin x) bands fs

theorem band_entry (res : PFResult) : ∀ x, usableFlux res = some x ↔ res.flags = 0 ∧ res.flux = .fin x := by
  intro x
  unfold usableFlux
  split
  · rename_i h1 h2
    rw [h1, h2]
    simp
  · rename_i h
    simp only [reduceCtorEq, false_iff]
    rintro ⟨h1, h2⟩
    exact h x h1 h2

theorem bandFluxes_ok {bands : List (List PFObs)} {fs : List (Option ℝ)} (h : BandResults bands fs) :
    bandFluxes bands = .ok fs := by
  induction h with
  | nil => rfl
  | cons h _ ih =>
      obtain ⟨res, hr, hf⟩ := h
      simp only [bandFluxes, hr, Except.bind, ih, Except.map, Except.ok.injEq, List.cons.injEq, and_true]
      apply Option.ext
      intro x
      rw [band_entry, hf]

theorem bandFluxes_inv {bands : List (List PFObs)} {fs : List (Option ℝ)} (h : bandFluxes bands = .ok fs) :
    BandResults bands fs := by
  induction bands generalizing fs with
  | nil => cases h; exact .nil
  | cons b bs ih =>
      obtain ⟨res, hr, h2⟩ := exBind_ok h
      obtain ⟨fs', hfs, rfl⟩ := exMap_ok h2
      exact .cons ⟨res, hr, band_entry res⟩ (ih hfs)

theorem filterMap_length (fs : List (Option ℝ)) : (fs.filterMap id).length ≤ fs.length := List.length_filterMap_le _ _

theorem fillBad_ok (m : ℝ) (fs : List (Option ℝ)) (ds : List ℝ) (hl : fs.length - (fs.filterMap id).length ≤ ds.length)
    (hd : ∀ d ∈ ds, Between (-0.1) 0.1 d) :
    List.Forall₂ (fun f x => match f with
      | some y => x = y
      | none => Between (tenPercent m).1 (tenPercent m).2 x) fs (fillBad m fs ds) := by
  induction fs generalizing ds with
  | nil => exact .nil
  | cons f fs ih =>
      cases f with
      | some y =>
          refine .cons rfl (ih ds ?_ hd)
          simpa using hl
      | none =>
          have hle := filterMap_length fs
          rw [List.filterMap_cons_none rfl, List.length_cons] at hl
          cases ds with
          | nil => simp only [List.length_nil] at hl; omega
          | cons d ds =>
              refine .cons ?_ (ih ds (by simp only [List.length_cons] at hl; omega) (fun x hx => hd x (by simp [hx])))
              have := between_affine (affine_rel m) (hd d (by simp))
              have e1 : m * (1.0 + -0.1) = (tenPercent m).1 := by simp only [tenPercent]; norm_num; ring
              have e2 : m * (1.0 + 0.1) = (tenPercent m).2 := by simp only [tenPercent]; norm_num; ring
              rw [e1, e2] at this
              exact this

theorem all_good (fs : List (Option ℝ)) (h : (fs.filterMap id).length = fs.length) (P : ℝ → Prop) :
    List.Forall₂ (fun f x => match f with
      | some y => x = y
      | none => P x) fs (fs.filterMap id) := by
  induction fs with
  | nil => exact .nil
  | cons f fs ih =>
      cases f with
      | some y => exact .cons rfl (ih (by simpa using h))
      | none =>
          have hle := filterMap_length fs
          rw [List.filterMap_cons_none rfl, List.length_cons] at h
          omega

/-- **C62 (psf fluxes).** When the psf flux fits of all bands ran: if there are bands and none has a good flux,
`PSFFluxFailure`; otherwise every band gets a flux, its own if good and otherwise one within 10% of the mean of the good ones;
nothing is drawn when all are good.  An error of a fit escapes. -/
theorem C62_fluxes {σ : Type} {r : URng σ} (h : r.Unit) (bands : List (List PFObs)) (s : σ) :
    (∀ fs, BandResults bands fs →
      ((bands ≠ [] ∧ ∀ f ∈ fs, f = none) → getPsfFluxes r bands s = .error .psfFlux) ∧
      (¬ (bands ≠ [] ∧ ∀ f ∈ fs, f = none) → ∃ out s', getPsfFluxes r bands s = .ok (out, s') ∧ Filled fs out ∧
        ((∀ f ∈ fs, f ≠ none) → s' = s))) ∧
    (∀ b before after, bands = before ++ b :: after → (∃ fs, BandResults before fs) → ∀ e, psfFlux b true true = .error e →
      getPsfFluxes r bands s = .error e) := by
  constructor
  · intro fs hfs
    have hb := bandFluxes_ok hfs
    have hlen := hfs.length_eq
    have hle := filterMap_length fs
    have hnone : (fs.filterMap id).length = 0 ↔ ∀ f ∈ fs, f = none := by
      rw [List.length_eq_zero_iff, List.filterMap_eq_nil_iff]
      rfl
    constructor
    · rintro ⟨hne, hall⟩
      have h0 := hnone.2 hall
      have : fs.length ≠ 0 := by
        rw [← hlen]
        simpa using hne
      simp only [getPsfFluxes, hb, Except.bind]
      rw [if_pos (by omega), if_pos h0]
    · intro hno
      by_cases hg : (fs.filterMap id).length = fs.length
      · refine ⟨fs.filterMap id, s, ?_, all_good fs hg _, fun _ => rfl⟩
        simp only [getPsfFluxes, hb, Except.bind]
        rw [if_neg (not_not.2 hg)]
      · have h0 : (fs.filterMap id).length ≠ 0 := by
          intro h0
          refine hno ⟨?_, hnone.1 h0⟩
          rintro rfl
          cases hfs
          exact hg rfl
        obtain ⟨hl, hd⟩ := uniforms_spec h (-0.1) 0.1 (fs.length - (fs.filterMap id).length) s
        refine ⟨_, (r.uniforms (-0.1) 0.1 (fs.length - (fs.filterMap id).length) s).2, ?_, fillBad_ok (goodMean fs) fs _ (le_of_eq hl.symm) hd, fun hall => ?_⟩
        · simp only [getPsfFluxes, hb, Except.bind]
          rw [if_pos hg, if_neg h0]
        · exfalso
          apply hg
          clear * - hall
          induction fs with
          | nil => rfl
          | cons f fs ih =>
              cases f with
              | none => exact absurd rfl (hall none (by simp))
              | some y =>
                  have := ih (fun f hf => hall f (by simp [hf]))
                  rw [List.filterMap_cons_some (f := id) (b := y) rfl, List.length_cons, this, List.length_cons]
  · rintro b before after rfl ⟨fs, hfs⟩ e he
    have : bandFluxes (before ++ b :: after) = .error e := by
      clear * - hfs he
      induction hfs with
      | nil => simp [bandFluxes, he, Except.bind]
      | cons h _ ih =>
          obtain ⟨res, hr, _⟩ := h
          simp only [List.cons_append, bandFluxes, hr, Except.bind, ih, Except.map]
    simp only [getPsfFluxes, this, Except.bind]

/-! ### C63: the cache -/

/-- `f` is what the flux computation gives for these bands, from some state of the random numbers. -/
def FluxesOf {σ : Type} (r : URng σ) (bands : List (List PFObs)) (f : List ℝ) : Prop :=
  ∃ s s', getPsfFluxes r bands s = .ok (f, s')

/-- Successive requests for the fluxes of observations (identity and bands) to one guesser: the results, and the cache and
random state left.  A failing computation draws nothing. -/
noncomputable def requests {σ : Type} (r : URng σ) : List (ℕ × List (List PFObs)) → FluxCache → σ → List (Except PyErr (List ℝ)) × FluxCache
  | [], c, _ => ([], c)
  | q :: qs, c, s =>
      match cachedFluxes c q.1 (getPsfFluxes r q.2) s with
      | (c', .error e) => let x := requests r qs c' s; (.error e :: x.1, x.2)
      | (c', .ok f) => let x := requests r qs c' f.2; (.ok f.1 :: x.1, x.2)

/-- A new guesser. -/
def freshCache : FluxCache := ⟨none, none⟩

/-- The cache holds fluxes of the observation it names. -/
def CacheRight {σ : Type} (r : URng σ) (bandsOf : ℕ → List (List PFObs)) (c : FluxCache) : Prop :=
  ∀ i, c.idLast = some i → ∃ f, c.fluxes = some f ∧ FluxesOf r (bandsOf i) f

theorem cached_step {σ : Type} (r : URng σ) (bandsOf : ℕ → List (List PFObs)) (c : FluxCache) (i : ℕ) (s : σ)
    (h : CacheRight r bandsOf c ∨ c.idLast ≠ some i) :
    (∃ c' f s', cachedFluxes c i (getPsfFluxes r (bandsOf i)) s = (c', .ok (f, s')) ∧ FluxesOf r (bandsOf i) f ∧
      CacheRight r bandsOf c' ∧ c'.idLast = some i) ∨
    (∃ e, cachedFluxes c i (getPsfFluxes r (bandsOf i)) s = (⟨some i, c.fluxes⟩, .error e) ∧
      getPsfFluxes r (bandsOf i) s = .error e) := by
  by_cases hi : c.idLast = some i
  · rcases h with h | h
    · obtain ⟨f, hf, hfo⟩ := h i hi
      exact Or.inl ⟨c, f, s, by simp [cachedFluxes, hi, hf], hfo, h, hi⟩
    · exact absurd hi h
  · rcases hg : getPsfFluxes r (bandsOf i) s with e | x
    · exact Or.inr ⟨e, by simp [cachedFluxes, hi, hg], rfl⟩
    · refine Or.inl ⟨⟨some i, some x.1⟩, x.1, x.2, by simp [cachedFluxes, hi, hg], ⟨s, x.2, hg⟩, ?_, rfl⟩
      intro j hj
      simp only [Option.some.injEq] at hj
      subst hj
      exact ⟨x.1, rfl, s, x.2, hg⟩

theorem requests_right {σ : Type} (r : URng σ) (bandsOf : ℕ → List (List PFObs)) (ids : List ℕ) (c : FluxCache) (s : σ)
    (hc : CacheRight r bandsOf c)
    (hok : ∀ x ∈ (requests r (ids.map fun i => (i, bandsOf i)) c s).1, ∃ f, x = .ok f) :
    List.Forall₂ (fun i x => ∃ f, x = .ok f ∧ FluxesOf r (bandsOf i) f) ids
      (requests r (ids.map fun i => (i, bandsOf i)) c s).1 := by
  induction ids generalizing c s with
  | nil => exact .nil
  | cons i ids ih =>
      rcases cached_step r bandsOf c i s (Or.inl hc) with ⟨c', f, s', h1, h2, h3, _⟩ | ⟨e, h1, _⟩
      · simp only [List.map_cons, requests, h1] at hok ⊢
        exact .cons ⟨f, rfl, h2⟩ (ih c' s' h3 fun x hx => hok x (by simp [hx]))
      · simp only [List.map_cons, requests, h1] at hok
        obtain ⟨f, hf⟩ := hok (.error e) (by simp)
        cases hf

/-- **C63.** As long as identities are unique and observations unchanged (`bandsOf`), in every history of requests none of
which failed, each request gets fluxes computed for the observation passed. -/
theorem C63_history {σ : Type} (r : URng σ) (bandsOf : ℕ → List (List PFObs)) (ids : List ℕ) (s : σ)
    (hok : ∀ x ∈ (requests r (ids.map fun i => (i, bandsOf i)) freshCache s).1, ∃ f, x = .ok f) :
    List.Forall₂ (fun i x => ∃ f, x = .ok f ∧ FluxesOf r (bandsOf i) f) ids
      (requests r (ids.map fun i => (i, bandsOf i)) freshCache s).1 :=
  requests_right r bandsOf ids freshCache s (fun i hi => by cases hi) hok

/-- **C63 (any cache).** Whatever happened before, failures included, a request for an observation other than the last one is
answered from that observation: with its fluxes, or with the error of their computation.  After a success a request for the
same observation gets the same fluxes without drawing. -/
theorem C63_other {σ : Type} (r : URng σ) (c : FluxCache) (i : ℕ) (bands : List (List PFObs)) (s : σ)
    (hi : c.idLast ≠ some i) :
    (cachedFluxes c i (getPsfFluxes r bands) s).2 = getPsfFluxes r bands s ∧
      ∀ c' f s', cachedFluxes c i (getPsfFluxes r bands) s = (c', .ok (f, s')) →
        ∀ (compute : GM σ (List ℝ)) (s'' : σ), cachedFluxes c' i compute s'' = (c', .ok (f, s'')) := by
  have hval : cachedFluxes c i (getPsfFluxes r bands) s = match getPsfFluxes r bands s with
      | .error e => (⟨some i, c.fluxes⟩, .error e)
      | .ok x => (⟨some i, some x.1⟩, .ok x) := by
    rw [cachedFluxes, if_pos hi]
    rfl
  rcases hg : getPsfFluxes r bands s with e | x <;> rw [hg] at hval <;> rw [hval]
  · refine ⟨rfl, ?_⟩
    intro c' f s' h
    cases h
  · refine ⟨rfl, ?_⟩
    intro c' f s' h compute s''
    cases h
    simp [cachedFluxes]

/-- **C63 (violation).** When a request for an observation fails, the next request for it does not fail but gets the fluxes of
whatever observation succeeded before; if none did, it raises AttributeError. -/
theorem C63_stale {σ : Type} (r : URng σ) (i j : ℕ) (hij : i ≠ j) (A B : List (List PFObs)) (f : List ℝ) (s s' : σ) (e : PyErr)
    (hA : getPsfFluxes r A s = .ok (f, s')) (hB : ∀ s, getPsfFluxes r B s = .error e) :
    (requests r [(i, A), (j, B), (j, B)] freshCache s).1 = [.ok f, .error e, .ok f] ∧
      (requests r [(j, B), (j, B)] freshCache s).1 = [.error e, .error .attribute] := by
  constructor
  · simp [requests, cachedFluxes, freshCache, hA, hB, hij]
  · simp [requests, cachedFluxes, freshCache, hB]

theorem fluxes_length {σ : Type} {r : URng σ} (h : r.Unit) {bands : List (List PFObs)} {s s' : σ} {f : List ℝ}
    (hg : getPsfFluxes r bands s = .ok (f, s')) : f.length = bands.length := by
  obtain ⟨fs, hfs, hrest⟩ := exBind_ok (show (bandFluxes bands).bind _ = .ok (f, s') from hg)
  have hB := bandFluxes_inv hfs
  obtain ⟨h1, h2⟩ := (C62_fluxes h bands s).1 fs hB
  by_cases hno : bands ≠ [] ∧ ∀ f ∈ fs, f = none
  · rw [h1 hno] at hg; cases hg
  · obtain ⟨out, s2, ho, hfill, _⟩ := h2 hno
    rw [ho] at hg
    cases hg
    rw [← hfill.length_eq, ← hB.length_eq]

/-- **C63 (guesses).** `TPSFFluxGuesser` called with an observation other than the last one: the error of the flux computation,
or guesses in the ranges for the size and the fluxes of that observation. -/
theorem C63_guess {σ : Type} {r : URng σ} (h : r.Unit) (T : ℝ) (prior : Option (GuessPrior σ)) (c : FluxCache) (i : ℕ)
    (bands : List (List PFObs)) (n : ℕ) (s : σ) (hi : c.idLast ≠ some i)
    (hp : ∀ p, prior = some p → p.Sized (5 + bands.length)) :
    (∃ e, getPsfFluxes r bands s = .error e ∧ (tpsfFluxGuess r T prior c i bands n s).2 = .error e) ∨
      ∃ f s', getPsfFluxes r bands s = .ok (f, s') ∧ f.length = bands.length ∧
        RangesOutcome n (tfluxRanges T f) prior (tpsfFluxGuess r T prior c i bands n s).2 := by
  rcases hg : getPsfFluxes r bands s with e | ⟨f, s'⟩
  · exact Or.inl ⟨e, rfl, by simp [tpsfFluxGuess, cachedFluxes, hi, hg]⟩
  · right
    have hlen := fluxes_length h hg
    refine ⟨f, s', rfl, hlen, ?_⟩
    have := C62_tflux h T f prior n (by rw [hlen]; exact hp) s'
    simpa [tpsfFluxGuess, cachedFluxes, hi, hg] using this

/-- **C63 (guesses from the prior).** `TPSFFluxAndPriorGuesser` and `BDFPSFFluxGuesser` called with an observation other than the
last one: the error of the flux computation, or samples of the prior with size and fluxes (and the bulge fraction) replaced by
numbers in the ranges for the fluxes of that observation. -/
theorem C63_guess_prior {σ : Type} {r : URng σ} (h : r.Unit) (T : ℝ) (p : GuessPrior σ) (c : FluxCache) (i : ℕ)
    (bands : List (List PFObs)) (n : ℕ) (s : σ) (hi : c.idLast ≠ some i) {L : ℕ} (hp : p.Sized L) (hL : 6 + bands.length ≤ L) :
    (∃ e, getPsfFluxes r bands s = .error e ∧ (tpsfFluxPriorGuess r T p c i bands n s).2 = .error e ∧
      (bdfPsfFluxGuess r T p c i bands n s).2 = .error e) ∨
    ∃ f s', getPsfFluxes r bands s = .ok (f, s') ∧ f.length = bands.length ∧
      GuessOutcome n (p.sampleN n s').1 (columnsFrom 4 (tenPercent T :: f.map tenPercent)) 4 (some p)
        (tpsfFluxPriorGuess r T p c i bands n s).2 ∧
      GuessOutcome n (p.sampleN n s').1 (bdRanges T 6 f) 0 (some p) (bdfPsfFluxGuess r T p c i bands n s).2 := by
  rcases hg : getPsfFluxes r bands s with e | ⟨f, s'⟩
  · exact Or.inl ⟨e, rfl, by simp [tpsfFluxPriorGuess, cachedFluxes, hi, hg], by simp [bdfPsfFluxGuess, cachedFluxes, hi, hg]⟩
  · right
    have hlen := fluxes_length h hg
    refine ⟨f, s', rfl, hlen, ?_, ?_⟩
    · have hr : (tpsfPriorCols T f).map GCol.range = columnsFrom 4 (tenPercent T :: f.map tenPercent) := by
        rw [tpsfPriorCols, List.map_cons, relT_range, mul_range _ _ _ _ rfl rfl]
        rfl
      obtain ⟨h1, h2⟩ := numbered_ok hr
      have hv : (tpsfFluxPriorGuess r T p c i bands n s).2 =
          guessRows r n (priorRows p n) (tpsfPriorCols T f) (fixRows p putTail) s' := by
        simp [tpsfFluxPriorGuess, cachedFluxes, hi, hg]
      rw [hv, ← hr]
      refine prior_guess h p hp n _ putTail_keeps ?_ h1 ?_ s'
      · intro c hc
        rcases List.mem_cons.1 hc with rfl | hc
        · exact affine_rel T
        · exact bandCols_affine _ _ _ affine_mul _ _ c hc
      · intro c hc
        have := h2 c hc
        simp only [List.length_cons, List.length_map] at this
        omega
    · have hv : (bdfPsfFluxGuess r T p c i bands n s).2 = bdfGuess r T f p n s' := by
        simp [bdfPsfFluxGuess, cachedFluxes, hi, hg]
      rw [hv]
      exact C62_bdf h T f p hp (by omega) n s'

/-! ### The hypotheses are met -/

/-- An observation with a psf template, and one whose psf has neither mixture nor template. -/
noncomputable def goodBand : List PFObs := [⟨[2, 4], [1, 1], 2, [], ⟨none, none⟩, some ⟨none, some [1, 3]⟩⟩]
noncomputable def emptyBand : List PFObs := [⟨[2, 4], [1, 1], 2, [], ⟨none, none⟩, some ⟨none, none⟩⟩]

theorem goodBand_flux : ∃ res x, psfFlux goodBand true true = .ok res ∧ res.flags = 0 ∧ res.flux = .fin x := by
  obtain ⟨r, hr, ho⟩ := C46_templates goodBand [[1, 3]] true true (by simp [goodBand])
    (by
      intro o ho s hs
      simp only [goodBand, List.head?_cons, Option.mem_def, Option.some.injEq] at ho
      subst ho
      simp only [pfSource, if_true, Except.ok.injEq] at hs
      rw [← hs])
    (.cons ⟨⟨_, rfl, rfl⟩, by norm_num, rfl, rfl⟩ .nil)
  have e : pixelsOf goodBand (([[1, 3]] : List (List ℝ)).map (unitTemplate true true)) = [(1 / 4, 2, 1), (3 / 4, 4, 1)] := by
    have h4 : ([1, 3] : List ℝ).sum = 4 := by norm_num
    simp [goodBand, pixelsOf, unitTemplate, h4]
  rw [e] at ho
  obtain ⟨h1, h2⟩ := C46_optimum _ _ _ ho (by simp) (by simp [nPositive, goodBand])
  have hp : tPower [((1 / 4 : ℝ), (2 : ℝ), (1 : ℝ)), (3 / 4, 4, 1)] ≠ 0 := by norm_num [tPower]
  obtain ⟨f, hf, _⟩ := h1 hp
  exact ⟨r, f, hr, h2.2 ⟨hp, by simp [goodBand]⟩, hf⟩

example : ∃ f, (requests constRng [(1, [goodBand]), (2, [emptyBand]), (2, [emptyBand])] freshCache ()).1 =
    [.ok f, .error .value, .ok f] := by
  obtain ⟨res, x, h1, h2, h3⟩ := goodBand_flux
  have hb : BandResults [goodBand] [some x] := .cons ⟨res, h1, fun y => by simp [h2, h3]⟩ .nil
  obtain ⟨out, s', ho, _⟩ := ((C62_fluxes constRng_unit [goodBand] ()).1 _ hb).2 (by simp)
  have hbad : ∀ s, getPsfFluxes constRng [emptyBand] s = .error .value := fun s =>
    (C62_fluxes constRng_unit [emptyBand] s).2 emptyBand [] [] rfl ⟨[], .nil⟩ .value
      ((C46_refused _ [] true true).2.2 ⟨none, none⟩ rfl rfl rfl)
  exact ⟨out, (C63_stale constRng 1 2 (by omega) [goodBand] [emptyBand] out () s' .value ho hbad).1⟩

example : ∃ f, (requests constRng [(1, [goodBand]), (1, [goodBand])] freshCache ()).1 = [.ok f, .ok f] := by
  obtain ⟨res, x, h1, h2, h3⟩ := goodBand_flux
  have hb : BandResults [goodBand] [some x] := .cons ⟨res, h1, fun y => by simp [h2, h3]⟩ .nil
  obtain ⟨out, s', ho, _⟩ := ((C62_fluxes constRng_unit [goodBand] ()).1 _ hb).2 (by simp)
  exact ⟨out, by simp [requests, cachedFluxes, freshCache, ho]⟩

end Ngmix.Props
