import Verif.Spec.PsfGuess
import Verif.Props.Guessers
import Verif.Props.Norms
import Verif.Props.Moments
import Verif.Props.GaussMom

/-! # C76: guesses for psf fits -/

namespace Ngmix.Props

open Spec

/-- The range of an entry. -/
noncomputable def GEntry.range : GEntry → ℝ × ℝ
  | .const x => (x, x)
  | .draw low high f => (f low, f high)

theorem range_const (x : ℝ) : GEntry.range (.const x) = (x, x) := rfl
theorem range_draw (low high : ℝ) (f : ℝ → ℝ) : GEntry.range (.draw low high f) = (f low, f high) := rfl

def GEntry.Affine : GEntry → Prop
  | .const _ => True
  | .draw _ _ f => AffineFn f

theorem between_self (x : ℝ) : Between x x x := by simp [Between]

theorem drawEntries_in {σ : Type} {r : URng σ} (h : r.Unit) (es : List GEntry) (hf : ∀ e ∈ es, GEntry.Affine e) (s : σ) :
    RowIn (es.map GEntry.range) (drawEntries r es s).1 := by
  induction es generalizing s with
  | nil => exact .nil
  | cons e es ih =>
      have ih' := fun s => ih (fun e he => hf e (by simp [he])) s
      cases e with
      | const x => exact .cons (between_self x) (ih' s)
      | draw low high f =>
          have hfe : AffineFn f := hf (.draw low high f) (by simp)
          exact .cons (between_affine hfe (uniform_between h low high s)) (ih' _)

/-- The six ranges of a gaussian in the order of the parameters. -/
def six (b : GaussRange) : List (ℝ × ℝ) := [b.flux, b.pos, b.pos, b.var, b.cross, b.var]

theorem fillFull_in (l : List GaussRange) (row : List ℝ) (h : RowIn (l.flatMap six) row) :
    List.Forall₂ GaussIn l (fillFull row) := by
  induction l generalizing row with
  | nil => cases h; exact .nil
  | cons b l ih =>
      rw [List.flatMap_cons, six] at h
      rcases h with _ | ⟨h1, _ | ⟨h2, _ | ⟨h3, _ | ⟨h4, _ | ⟨h5, _ | ⟨h6, h⟩⟩⟩⟩⟩⟩
      exact .cons ⟨h1, h2, h3, h4, h5, h6⟩ (ih _ h)

theorem six_length (l : List GaussRange) : (l.flatMap six).length = 6 * l.length := by
  induction l with
  | nil => rfl
  | cons b l ih => rw [List.flatMap_cons, List.length_append, ih, List.length_cons]; simp only [six, List.length_cons, List.length_nil]; omega

/-- Entries with the ranges of a list of gaussians make a mixture within those ranges. -/
theorem entries_mixture {σ : Type} {r : URng σ} (h : r.Unit) (es : List GEntry) (hf : ∀ e ∈ es, GEntry.Affine e)
    (l : List GaussRange) (hr : es.map GEntry.range = l.flatMap six) (s : σ) :
    ∃ g, newGMix none (some (drawEntries r es s).1) = .ok g ∧ g.kind = .full ∧ List.Forall₂ GaussIn l g.data ∧
      ∀ x ∈ g.data, DetCurrent x ∧ x.normSet = false := by
  have hin := drawEntries_in h es hf s
  rw [hr] at hin
  have hl : (drawEntries r es s).1.length = 6 * l.length := by rw [← hin.length_eq, six_length]
  refine ⟨⟨.full, 6 * l.length, 6 * l.length / 6, (drawEntries r es s).1, fillFull (drawEntries r es s).1⟩, ?_, rfl, fillFull_in l _ hin, fillFull_fresh _ _ (le_refl _)⟩
  simp only [newGMix, hl]
  rw [if_neg (by omega)]
  rfl

theorem jitter_range (x : ℝ) : GEntry.range (jitter x) = tenPercent x := by
  refine Prod.ext ?_ ?_ <;> simp only [GEntry.range, jitter, tenPercent] <;> norm_num <;> ring

theorem mul_entry_range (x : ℝ) : GEntry.range (.draw 0.9 1.1 fun d => x * d) = tenPercent x :=
  Prod.ext (mul_comm _ _) (mul_comm _ _)

theorem mul1_entry_range (x : ℝ) : GEntry.range (.draw 0.99 1.01 fun d => x * d) = onePercent x :=
  Prod.ext (mul_comm _ _) (mul_comm _ _)

theorem cen_range (w : ℝ) : (cenEntries w).map GEntry.range = [(-w, w), (-w, w)] := rfl

theorem em2_ranges (F s2 : ℝ) (pf : ℝ × ℝ) : (em2Entries F s2 pf).map GEntry.range =
    six ⟨(pf.1 * F, pf.1 * F), (-0.1, 0.1), tenPercent (pf.2 * s2), (0, 0)⟩ := by
  simp only [em2Entries, List.map_append, cen_range, List.map_cons, List.map_nil, jitter_range, six, range_const, range_draw, List.cons_append,
    List.nil_append]
  norm_num

theorem em_ranges (F s2 : ℝ) (pf : ℝ × ℝ) : (emEntries F s2 pf).map GEntry.range =
    six ⟨tenPercent (pf.1 * F), (-0.1, 0.1), tenPercent (pf.2 * s2), (-0.01, 0.01)⟩ := by
  simp only [emEntries, List.map_append, cen_range, List.map_cons, List.map_nil, jitter_range, six, range_const, range_draw, List.cons_append,
    List.nil_append, mul_comm F]
  rfl

theorem cen_affine (w : ℝ) : ∀ e ∈ cenEntries w, GEntry.Affine e := by
  intro e he
  simp only [cenEntries, List.mem_cons, List.not_mem_nil, or_false] at he
  rcases he with rfl | rfl <;> exact affine_id

theorem em1_affine (F T : ℝ) : ∀ e ∈ em1Entries F T, GEntry.Affine e := by
  intro e he
  simp only [em1Entries, cenEntries, List.cons_append, List.nil_append, List.mem_cons, List.not_mem_nil, or_false] at he
  rcases he with rfl | rfl | rfl | rfl | rfl | rfl
  · exact affine_mul _
  · exact affine_id
  · exact affine_id
  · exact affine_rel _
  · exact affine_id
  · exact affine_rel _

theorem em2_affine (F s2 : ℝ) (pf : ℝ × ℝ) : ∀ e ∈ em2Entries F s2 pf, GEntry.Affine e := by
  intro e he
  simp only [em2Entries, cenEntries, List.cons_append, List.nil_append, List.mem_cons, List.not_mem_nil, or_false] at he
  rcases he with rfl | rfl | rfl | rfl | rfl | rfl
  · exact trivial
  · exact affine_id
  · exact affine_id
  · exact affine_rel _
  · exact trivial
  · exact affine_rel _

theorem em_affine (F s2 : ℝ) (pf : ℝ × ℝ) : ∀ e ∈ emEntries F s2 pf, GEntry.Affine e := by
  intro e he
  simp only [emEntries, cenEntries, List.cons_append, List.nil_append, List.mem_cons, List.not_mem_nil, or_false] at he
  rcases he with rfl | rfl | rfl | rfl | rfl | rfl
  · exact affine_rel _
  · exact affine_id
  · exact affine_id
  · exact affine_rel _
  · exact affine_id
  · exact affine_rel _

theorem map_flatMap_six {α : Type} (l : List α) (ent : α → List GEntry) (b : α → GaussRange)
    (h : ∀ a, (ent a).map GEntry.range = six (b a)) : (l.flatMap ent).map GEntry.range = (l.map b).flatMap six := by
  induction l with
  | nil => rfl
  | cons a l ih => simp only [List.flatMap_cons, List.map_append, ih, List.map_cons, h]

theorem emEntries_ok (n : ℕ) (h1 : 1 ≤ n) (h5 : n ≤ 5) (F T : ℝ) : ∃ es, emGuessEntries n F T = .ok es ∧
    (∀ e ∈ es, GEntry.Affine e) ∧ es.map GEntry.range = (psfRanges n F T).flatMap six := by
  have hm : ∀ l : List (ℝ × ℝ), ∀ e ∈ l.flatMap (emEntries F (T / 2)), GEntry.Affine e := by
    intro l e he
    obtain ⟨a, _, he⟩ := List.mem_flatMap.1 he
    exact em_affine _ _ a e he
  interval_cases n
  · refine ⟨_, rfl, em1_affine F T, ?_⟩
    simp only [em1Entries, List.map_append, cen_range, List.map_cons, List.map_nil, jitter_range, mul_entry_range F, psfRanges,
      List.flatMap_cons, List.flatMap_nil, six, List.cons_append, List.nil_append, range_draw, id]
  · refine ⟨_, rfl, ?_, map_flatMap_six em2Table _ _ (em2_ranges F (T / 2))⟩
    intro e he
    obtain ⟨a, _, he⟩ := List.mem_flatMap.1 he
    exact em2_affine _ _ a e he
  · exact ⟨_, rfl, hm _, map_flatMap_six em3Table _ _ (em_ranges F (T / 2))⟩
  · exact ⟨_, rfl, hm _, map_flatMap_six em4Table _ _ (em_ranges F (T / 2))⟩
  · exact ⟨_, rfl, hm _, map_flatMap_six em5Table _ _ (em_ranges F (T / 2))⟩

/-- **C76 (mixtures).** `GMixPSFGuesser` with 1 to 5 gaussians, once a flux `F` and a size `T` are found: a mixture with that
many gaussians, each within its ranges, without norms set. -/
theorem C76_mixture {σ : Type} {r : URng σ} (h : r.Unit) (n : ℕ) (h1 : 1 ≤ n) (h5 : n ≤ 5) (fromMoms : Bool) (o : GObs) (F T : ℝ)
    (htf : psfTFlux fromMoms o = .ok (some (T, F))) (s : σ) :
    ∃ g s', gmixPsfGuess r n fromMoms o s = .ok (some (g, s')) ∧ g.data.length = n ∧
      List.Forall₂ GaussIn (psfRanges n F T) g.data ∧ ∀ x ∈ g.data, DetCurrent x ∧ x.normSet = false := by
  obtain ⟨es, hes, hf, hr⟩ := emEntries_ok n h1 h5 F T
  obtain ⟨g, hg, _, hin, hd⟩ := entries_mixture h es hf _ hr s
  refine ⟨g, (drawEntries r es s).2, ?_, ?_, hin, hd⟩
  · rw [gmixPsfGuess, if_neg (by omega)]
    simp only [htf, Except.bind, hes, hg, Except.map]
  · rw [← hin.length_eq]
    interval_cases n <;> rfl

/-- **C76 (number of gaussians).** Other numbers of gaussians are refused with ValueError, whatever the observation. -/
theorem C76_refused {σ : Type} (r : URng σ) (n : ℕ) (fromMoms : Bool) (o : GObs) (s : σ) (hn : n = 0 ∨ 5 < n) :
    gmixPsfGuess r n fromMoms o s = .error .value ∧ coellipPsfGuess r n fromMoms o s = .error .value := by
  rw [gmixPsfGuess, coellipPsfGuess, if_pos hn, if_pos hn]
  exact ⟨rfl, rfl⟩

theorem between_pos {a b x : ℝ} (h : Between a b x) (hab : a ≤ b) : a ≤ x ∧ x ≤ b := by
  obtain ⟨h1, h2⟩ := h
  rw [min_eq_left hab] at h1
  rw [max_eq_right hab] at h2
  exact ⟨h1, h2⟩

theorem between_ten {y x : ℝ} (h : Between (tenPercent y).1 (tenPercent y).2 x) (hy : 0 ≤ y) : 0.9 * y ≤ x ∧ x ≤ 1.1 * y := by
  have h' : Between (0.9 * y) (1.1 * y) x := h
  exact between_pos h' (by linarith)

theorem psfFractions_size (n : ℕ) : ∀ c ∈ psfFractions n, 0.5 ≤ c.2 ∧ 0 ≤ c.1 := by
  rcases n with _ | _ | _ | _ | _ | _ | n <;> intro c hc <;>
    simp only [psfFractions, List.mem_cons, List.not_mem_nil, or_false] at hc
  · rcases hc with rfl | rfl <;> norm_num
  · rcases hc with rfl | rfl | rfl <;> norm_num
  · rcases hc with rfl | rfl | rfl | rfl <;> norm_num
  · rcases hc with rfl | rfl | rfl | rfl | rfl <;> norm_num

theorem forall₂_mem_right {α β : Type} {R : α → β → Prop} {l : List α} {m : List β} (h : List.Forall₂ R l m) :
    ∀ y ∈ m, ∃ x ∈ l, R x y := by
  induction h with
  | nil => simp
  | cons h _ ih =>
      intro y hy
      rcases List.mem_cons.1 hy with rfl | hy
      · exact ⟨_, by simp, h⟩
      · obtain ⟨x, hx, hr⟩ := ih y hy
        exact ⟨x, by simp [hx], hr⟩

/-- **C76 (positive definite).** For a positive size the guesses with one or two gaussians are positive definite, and those
with three to five are when the size is at least 0.045. -/
theorem C76_posdef (n : ℕ) (h1 : 1 ≤ n) (h5 : n ≤ 5) (F T : ℝ) (hT : 0 < T) (hn : n ≤ 2 ∨ 0.045 ≤ T) (gm : List Gauss)
    (h : List.Forall₂ GaussIn (psfRanges n F T) gm) : ∀ g ∈ gm, PosDef g := by
  intro g hg
  obtain ⟨b, hb, _, _, _, hrr, hrc, hcc⟩ := forall₂_mem_right h g hg
  have one : ∀ (y w : ℝ), 0 < y → 0 ≤ w → w < 0.9 * y → b.var = tenPercent y → b.cross = (-w, w) → PosDef g := by
    intro y w hy hw hwy hv hc
    rw [hv] at hrr hcc
    rw [hc] at hrc
    obtain ⟨a1, _⟩ := between_ten hrr hy.le
    obtain ⟨a2, _⟩ := between_ten hcc hy.le
    obtain ⟨a3, a4⟩ := between_pos hrc (by simp only; linarith)
    simp only at a3 a4
    refine ⟨by linarith, by linarith, ?_⟩
    have e1 : g.irc ^ 2 ≤ w ^ 2 := by nlinarith
    have e2 : w ^ 2 < (0.9 * y) ^ 2 := by nlinarith
    have e3 : (0.9 * y) ^ 2 ≤ g.irr * g.icc := by nlinarith
    linarith
  have big : ∀ k, (0.045 ≤ T) → b ∈ (psfFractions k).map (fun c =>
      (⟨tenPercent (c.1 * F), (-0.1, 0.1), tenPercent (c.2 * (T / 2)), (-0.01, 0.01)⟩ : GaussRange)) → PosDef g := by
    intro k hTb hb
    obtain ⟨c, hc, rfl⟩ := List.mem_map.1 hb
    obtain ⟨hc1, _⟩ := psfFractions_size k c hc
    exact one (c.2 * (T / 2)) 0.01 (by nlinarith) (by norm_num) (by nlinarith) rfl rfl
  interval_cases n
  · simp only [psfRanges, List.mem_cons, List.not_mem_nil, or_false] at hb
    subst hb
    refine one (T / 2) (0.2 * (T / 2)) (by linarith) (by linarith) (by linarith) rfl ?_
    exact Prod.ext (by ring) rfl
  · simp only [psfRanges] at hb
    obtain ⟨c, hc, rfl⟩ := List.mem_map.1 hb
    obtain ⟨hc1, _⟩ := psfFractions_size 2 c hc
    refine one (c.2 * (T / 2)) 0 (by nlinarith) (le_refl _) (by nlinarith) rfl ?_
    simp
  · exact big 3 (by rcases hn with hn | hn; omega; exact hn) hb
  · exact big 4 (by rcases hn with hn | hn; omega; exact hn) hb
  · exact big 5 (by rcases hn with hn | hn; omega; exact hn) hb

/-- **C76 (flux).** For a positive flux the total flux of the guess is within 17% of it, and with two gaussians within 2e-7. -/
theorem C76_flux (n : ℕ) (h1 : 1 ≤ n) (h5 : n ≤ 5) (F T : ℝ) (hF : 0 < F) (gm : List Gauss)
    (h : List.Forall₂ GaussIn (psfRanges n F T) gm) :
    |Flux gm - F| ≤ 0.17 * F ∧ (n = 2 → |Flux gm - F| ≤ 2e-7 * F) ∧ (n ≤ 4 → |Flux gm - F| ≤ 0.1001 * F) := by
  have gen : ∀ (lo hi : ℝ) (l : List (ℝ × ℝ)) (f : ℝ × ℝ → GaussRange) (gm : List Gauss), (∀ c ∈ l, 0 ≤ c.1) →
      (∀ c, ∀ g, GaussIn (f c) g → 0 ≤ c.1 → lo * (c.1 * F) ≤ g.p ∧ g.p ≤ hi * (c.1 * F)) → List.Forall₂ GaussIn (l.map f) gm →
      lo * ((l.map Prod.fst).sum * F) ≤ Flux gm ∧ Flux gm ≤ hi * ((l.map Prod.fst).sum * F) := by
    intro lo hi l f gm hl hf h
    induction l generalizing gm with
    | nil => cases h; simp [Flux]
    | cons c l ih =>
        rcases h with _ | ⟨hg, h⟩
        obtain ⟨i1, i2⟩ := ih _ (fun c hc => hl c (by simp [hc])) h
        obtain ⟨j1, j2⟩ := hf c _ hg (hl c (by simp))
        simp only [Flux, List.map_cons, List.sum_cons] at i1 i2 ⊢
        constructor <;> nlinarith
  have big : ∀ k, List.Forall₂ GaussIn ((psfFractions k).map (fun c =>
      (⟨tenPercent (c.1 * F), (-0.1, 0.1), tenPercent (c.2 * (T / 2)), (-0.01, 0.01)⟩ : GaussRange))) gm →
      0.9 * (((psfFractions k).map Prod.fst).sum * F) ≤ Flux gm ∧ Flux gm ≤ 1.1 * (((psfFractions k).map Prod.fst).sum * F) := by
    intro k h
    refine gen 0.9 1.1 _ _ gm (fun c hc => (psfFractions_size k c hc).2) ?_ h
    intro c g hg hc
    exact between_ten hg.1 (by positivity)
  interval_cases n
  · simp only [psfRanges] at h
    rcases h with _ | ⟨hg, h⟩
    cases h
    obtain ⟨a1, a2⟩ := between_ten hg.1 hF.le
    simp only [Flux, List.map_cons, List.map_nil, List.sum_cons, List.sum_nil, add_zero, abs_le]
    refine ⟨⟨by linarith, by linarith⟩, by omega, fun _ => ⟨by linarith, by linarith⟩⟩
  · simp only [psfRanges] at h
    obtain ⟨a1, a2⟩ := gen 1 1 _ _ gm (fun c hc => (psfFractions_size 2 c hc).2) (fun c g hg _ => by
      have := between_pos hg.1 (le_refl _)
      simp only at this
      constructor <;> linarith) h
    simp only [psfFractions, List.map_cons, List.map_nil, List.sum_cons, List.sum_nil] at a1 a2
    have a3 : |Flux gm - F| ≤ 2e-7 * F := by rw [abs_le]; constructor <;> linarith
    refine ⟨by linarith, fun _ => a3, fun _ => by linarith⟩
  · obtain ⟨a1, a2⟩ := big 3 h
    simp only [psfFractions, List.map_cons, List.map_nil, List.sum_cons, List.sum_nil] at a1 a2
    have a3 : |Flux gm - F| ≤ 0.1001 * F := by rw [abs_le]; constructor <;> linarith
    exact ⟨by linarith, by omega, fun _ => a3⟩
  · obtain ⟨a1, a2⟩ := big 4 h
    simp only [psfFractions, List.map_cons, List.map_nil, List.sum_cons, List.sum_nil] at a1 a2
    have a3 : |Flux gm - F| ≤ 0.1001 * F := by rw [abs_le]; constructor <;> linarith
    exact ⟨by linarith, by omega, fun _ => a3⟩
  · obtain ⟨a1, a2⟩ := big 5 h
    simp only [psfFractions, List.map_cons, List.map_nil, List.sum_cons, List.sum_nil] at a1 a2
    refine ⟨?_, by omega, by omega⟩
    rw [abs_le]; constructor <;> linarith

/-- **C76 (no measurement).** Without moments the flux is the sum of the image and the size that of a gaussian with a full
width at half maximum of 3.5 pixels, so positive for a positive pixel scale. -/
theorem C76_default (o : GObs) : ∃ T, psfTFlux false o = .ok (some (T, o.total)) ∧
    (0 < o.scale → 0 < T ∧ TToFwhm T = 3.5 * o.scale) := by
  refine ⟨_, rfl, fun h => ?_⟩
  have hx : 0 < o.scale * 3.5 := by positivity
  have hf : (0 : ℝ) < fwhmFac := by unfold fwhmFac; norm_num
  constructor
  · simp only [fwhmToT, fwhmToSigma]
    positivity
  · rw [(C09_T_inverses (o.scale * 3.5) hx.le).2.1, mul_comm]

/-- **C76 (violation).** With three gaussians and pixels of 0.05 the guess can have a covariance that is not positive definite:
the cross term is drawn from a range that does not follow the size. -/
theorem C76_not_posdef : ∃ g s', gmixPsfGuess constRng 3 false ⟨0.05, 1, []⟩ () = .ok (some (g, s')) ∧
    ∃ x ∈ g.data, ¬ PosDef x := by
  obtain ⟨g, s', hg, hlen, hin, _⟩ := C76_mixture constRng_unit 3 (by omega) (by omega) false ⟨0.05, 1, []⟩ 1 _ rfl ()
  refine ⟨g, s', hg, ?_⟩
  have hgd : g.data.head? = some (gauss2dSet (1 * 0.596510042804182 * (1.0 + (-0.1 + (0.1 - -0.1) * (3 / 4))))
      (-0.1 + (0.1 - -0.1) * (3 / 4)) (-0.1 + (0.1 - -0.1) * (3 / 4))
      (0.5793612389470884 * (fwhmToT (0.05 * 3.5) / 2) * (1.0 + (-0.1 + (0.1 - -0.1) * (3 / 4))))
      (-0.01 + (0.01 - -0.01) * (3 / 4))
      (0.5793612389470884 * (fwhmToT (0.05 * 3.5) / 2) * (1.0 + (-0.1 + (0.1 - -0.1) * (3 / 4))))) := by
    have : gmixPsfGuess constRng 3 false ⟨0.05, 1, []⟩ () = .ok (some (⟨.full, 18, 3, _, _⟩, ())) := rfl
    rw [this] at hg
    cases hg
    rfl
  obtain ⟨x, hx, hx2⟩ : ∃ x, g.data.head? = some x ∧ ¬ PosDef x := by
    refine ⟨_, hgd, ?_⟩
    rintro ⟨_, _, h3⟩
    simp only [gauss2dSet, fwhmToT, fwhmToSigma, fwhmFac] at h3
    norm_num at h3
  exact ⟨x, List.mem_of_mem_head? hx, hx2⟩

/-! ### Sizes and fluxes from moments -/

/-- A successful measurement has a positive size and flux. -/
theorem moments_positive (g : Gauss) (hg : GmReach [g]) (pixels : List Pixel) (rad : ℝ) (w : WMom)
    (hw : (getWeightedMoments [g] pixels (some rad) false).2 = .ok w) (hfl : w.res.flags = 0) :
    ∃ Tm Fm, w.res.T = .fin Tm ∧ w.res.flux = .fin Fm ∧ 0 < Tm ∧ 0 < Fm := by
  rcases hn : setNormsIfNeeded [g] with ⟨data', e | u⟩
  · simp [getWeightedMoments, getWeightedSums, hn] at hw
  cases u
  rcases hd : data' with _ | ⟨g', gs⟩
  · subst hd
    simp [getWeightedMoments, getWeightedSums, hn] at hw
  obtain ⟨W, hW, hz, hnz⟩ := C65_sums [g] data' g' gs hg hn hd pixels (some rad) (rad ^ 2)
    ⟨fun r h => by cases h; rfl, fun h => by cases h⟩ false 0 ⟨0, fun _ => 0, fun _ _ => 0⟩
  by_cases hzero : ∃ px ∈ within g'.row g'.col (rad ^ 2) pixels, px.ierr = 0
  · have := hz hzero
    simp only [getWeightedMoments, WRes.zero, this] at hw
    cases hw
  · obtain ⟨a, ha, _⟩ := hnz (fun px hpx h0 => hzero ⟨px, hpx, h0⟩)
    simp only [getWeightedMoments, WRes.zero, ha, weightedStats] at hw
    obtain ⟨r, hr, rfl⟩ := exMap_ok hw
    have hin := wmom_input false a
    obtain ⟨r', hr', hf, ht, _⟩ := C11_decision_table _ _ _ _ _ _ _ _ hin (some (wsWsum (some a)))
    rw [hr] at hr'
    cases hr'
    obtain ⟨hv, hmf, hmt, _⟩ := (C11_flags_zero_iff _ _ _ _ _ _ _ _ hin _ r hr).1.1 hfl
    exact ⟨_, _, (ht.good (hv 5 (by decide)) (hv 4 (by decide)) hmf).2.1, hf.flux, div_pos hmt hmf, hmf⟩

/-- **C76 (moments).** With moments measured under a gaussian weight of 3.5 pixels full width: if the measurement is flagged, or
the measured size `Tm` has a full width below one pixel, the size and flux are those used without a measurement.  Otherwise,
if `Tm` is below the weight's size `Tw`, the size is the one of the gaussian whose product with the weight has size `Tm`, and
the flux the one whose overlap with the weight is the flux `Fm` measured; if above, `Tm` and `Fm` themselves, and if equal a
size that is not finite. -/
theorem C76_moments (o : GObs) (hs : 0 < o.scale) (Tw : ℝ) (hTw : Tw = fwhmToT (3.5 * o.scale)) (w : WMom)
    (hw : (getWeightedMoments [gauss2dSet 1 0 0 (Tw / 2) 0 (Tw / 2)] o.pixels (some 1.0e9) false).2 = .ok w) :
    (w.res.flags ≠ 0 → psfTFlux true o = psfTFlux false o) ∧
      (w.res.flags = 0 → ∃ Tm Fm, w.res.T = .fin Tm ∧ w.res.flux = .fin Fm ∧ 0 < Tm ∧ 0 < Fm ∧
        (TToFwhm Tm < o.scale → psfTFlux true o = psfTFlux false o) ∧
        (o.scale ≤ TToFwhm Tm →
          (Tm < Tw → ∃ T F, psfTFlux true o = .ok (some (T, F)) ∧ 0 < T ∧ T * Tw = Tm * (T + Tw) ∧
            F * (o.scale ^ 2 / (Real.pi * (T + Tw))) = Fm) ∧
          (Tw < Tm → psfTFlux true o = .ok (some (Tm, Fm))) ∧
          (Tm = Tw → psfTFlux true o = .ok none))) := by
  rw [mul_comm] at hTw
  have hf : (0 : ℝ) < fwhmFac := by unfold fwhmFac; norm_num
  have hTw0 : 0 < Tw := by
    rw [hTw]
    simp only [fwhmToT, fwhmToSigma]
    positivity
  obtain ⟨wt, hwt, hd⟩ := gauss_fill Tw
  have hpos := moments_positive _ (GmReach.start [1, 0, 0, Tw / 2, 0, Tw / 2]) o.pixels 1.0e9 w hw
  rw [← hd] at hw
  have hdef : psfTFlux false o = .ok (some (defaultTFlux o.scale o.total)) := rfl
  rw [hdef]
  constructor
  · intro hfl
    simp only [psfTFlux, if_true, momsTFlux, ← hTw, hwt, Except.bind, hw]
    rw [if_pos hfl]
  · intro hfl
    obtain ⟨Tm, Fm, hT, hF, hTm, hFm⟩ := hpos hfl
    refine ⟨Tm, Fm, hT, hF, hTm, hFm, ?_⟩
    have hval : psfTFlux true o = .ok (deweighted o Tm Fm Tw) := by
      simp only [psfTFlux, if_true, momsTFlux, ← hTw, hwt, Except.bind, hw]
      rw [if_neg (not_not.2 hfl), hT, hF]
    rw [hval]
    constructor
    · intro hlt
      rw [deweighted, if_pos hlt]
    · intro hge
      have hne : ¬ (TToFwhm Tm < o.scale) := not_lt.2 hge
      have hx : 1 / Tm - 1 / Tw = (Tw - Tm) / (Tm * Tw) := by field_simp
      refine ⟨fun hlt => ?_, fun hgt => ?_, fun heq => ?_⟩
      · have hpos : 0 < 1 / Tm - 1 / Tw := by rw [hx]; exact div_pos (by linarith) (by positivity)
        have hT0 : 0 < 1.0 / (1 / Tm - 1 / Tw) := div_pos (by norm_num) hpos
        refine ⟨1.0 / (1 / Tm - 1 / Tw), Fm * Real.pi * (Tw + 1.0 / (1 / Tm - 1 / Tw)) / o.scale ^ 2, ?_, hT0, ?_, ?_⟩
        · simp only [deweighted]
          rw [if_neg hne, if_neg hpos.ne', if_neg (not_lt.2 hT0.le)]
        · have e1 : (1.0 : ℝ) = 1 := by norm_num
          rw [hx, e1]
          have : Tw - Tm ≠ 0 := by linarith
          field_simp
          ring
        · generalize 1.0 / (1 / Tm - 1 / Tw) = T at *
          have : T + Tw ≠ 0 := by positivity
          have hpi := Real.pi_pos
          field_simp
          ring
      · have hneg : 1 / Tm - 1 / Tw < 0 := by rw [hx]; exact div_neg_of_neg_of_pos (by linarith) (by positivity)
        simp only [deweighted]
        rw [if_neg hne, if_neg hneg.ne, if_pos (div_neg_of_pos_of_neg (by norm_num) hneg)]
      · simp only [deweighted]
        rw [if_neg hne, if_pos (by rw [heq]; ring)]

/-! ### Parameter arrays -/

theorem simple_ranges (F T : ℝ) : (simplePsfEntries F T).map GEntry.range = coellipRanges 1 tenPercent F T := by
  simp only [simplePsfEntries, List.map_append, cen_range, List.map_cons, List.map_nil, mul_entry_range, coellipRanges,
    coellipFractions, mul_one, List.cons_append, List.nil_append]

theorem simple_affine (F T : ℝ) : ∀ e ∈ simplePsfEntries F T, GEntry.Affine e := by
  intro e he
  simp only [simplePsfEntries, cenEntries, List.cons_append, List.nil_append, List.mem_cons, List.not_mem_nil, or_false] at he
  rcases he with rfl | rfl | rfl | rfl | rfl | rfl
  · exact affine_id
  · exact affine_id
  · exact affine_id
  · exact affine_id
  · exact affine_mul _
  · exact affine_mul _

/-- **C76 (single gaussian arrays).** `SimplePSFGuesser`: six numbers, centre within 0.01, shape within 0.05, size and flux within
10%. -/
theorem C76_simple {σ : Type} {r : URng σ} (h : r.Unit) (fromMoms : Bool) (o : GObs) (F T : ℝ)
    (htf : psfTFlux fromMoms o = .ok (some (T, F))) (s : σ) :
    ∃ row s', simplePsfGuess r fromMoms o s = .ok (some (row, s')) ∧ RowIn (coellipRanges 1 tenPercent F T) row := by
  refine ⟨_, _, by simp only [simplePsfGuess, htf, Except.map, Option.map_some]; rfl, ?_⟩
  rw [← simple_ranges]
  exact drawEntries_in h _ (simple_affine F T) s

/-- **C76 (coelliptical arrays).** `CoellipPSFGuesser` with 1 to 5 gaussians: `4 + 2 n` numbers, centre within 0.01, shape within
0.05, each size and flux within 1% (with one gaussian 10%) of its fraction of the size and flux. -/
theorem C76_coellip {σ : Type} {r : URng σ} (h : r.Unit) (n : ℕ) (h1 : 1 ≤ n) (h5 : n ≤ 5) (fromMoms : Bool) (o : GObs) (F T : ℝ)
    (htf : psfTFlux fromMoms o = .ok (some (T, F))) (s : σ) :
    ∃ row s', coellipPsfGuess r n fromMoms o s = .ok (some (row, s')) ∧ row.length = 4 + 2 * n ∧
      RowIn (coellipRanges n (if n = 1 then tenPercent else onePercent) F T) row := by
  have key : ∃ es, coellipEntries n F T = .ok es ∧ (∀ e ∈ es, GEntry.Affine e) ∧
      es.map GEntry.range = coellipRanges n (if n = 1 then tenPercent else onePercent) F T := by
    have gen : ∀ l : List (ℝ × ℝ), (∀ e ∈ cenEntries 0.01 ++ cenEntries 0.05 ++
        (l.map fun pf => GEntry.draw 0.99 1.01 fun d => T * pf.2 * d) ++
        (l.map fun pf => GEntry.draw 0.99 1.01 fun d => F * pf.1 * d), GEntry.Affine e) ∧
        (cenEntries 0.01 ++ cenEntries 0.05 ++ (l.map fun pf => GEntry.draw 0.99 1.01 fun d => T * pf.2 * d) ++
        (l.map fun pf => GEntry.draw 0.99 1.01 fun d => F * pf.1 * d)).map GEntry.range =
        [(-0.01, 0.01), (-0.01, 0.01), (-0.05, 0.05), (-0.05, 0.05)] ++ l.map (fun c => onePercent (T * c.2)) ++
          l.map (fun c => onePercent (F * c.1)) := by
      intro l
      constructor
      · intro e he
        rcases List.mem_append.1 he with he | he
        · rcases List.mem_append.1 he with he | he
          · rcases List.mem_append.1 he with he | he
            · exact cen_affine _ e he
            · exact cen_affine _ e he
          · obtain ⟨c, _, rfl⟩ := List.mem_map.1 he
            exact affine_mul _
        · obtain ⟨c, _, rfl⟩ := List.mem_map.1 he
          exact affine_mul _
      · simp only [List.map_append, cen_range, List.map_map, Function.comp_def, mul1_entry_range]
        rfl
    interval_cases n
    · exact ⟨_, rfl, simple_affine F T, simple_ranges F T⟩
    · exact ⟨_, rfl, (gen (moffatTable 2)).1, (gen (moffatTable 2)).2⟩
    · exact ⟨_, rfl, (gen (moffatTable 3)).1, (gen (moffatTable 3)).2⟩
    · exact ⟨_, rfl, (gen (moffatTable 4)).1, (gen (moffatTable 4)).2⟩
    · exact ⟨_, rfl, (gen (moffatTable 5)).1, (gen (moffatTable 5)).2⟩
  obtain ⟨es, hes, hf, hr⟩ := key
  have hin := drawEntries_in h es hf s
  rw [hr] at hin
  refine ⟨(drawEntries r es s).1, (drawEntries r es s).2, ?_, ?_, hin⟩
  · rw [coellipPsfGuess, if_neg (by omega)]
    simp only [htf, Except.bind, hes, Except.map]
  · rw [← hin.length_eq]
    interval_cases n <;> rfl

/-! ### The hypotheses are met -/

/-- An observation with pixels of 0.2 and a total flux of 10 gives the default size and flux. -/
example : ∃ T, psfTFlux false ⟨0.2, 10, []⟩ = .ok (some (T, 10)) ∧ 0.045 ≤ T := by
  refine ⟨_, rfl, ?_⟩
  simp only [fwhmToT, fwhmToSigma, fwhmFac]
  norm_num

/-- The measurement under the weight exists for every image without pixels of zero weight. -/
example (o : GObs) (hz : ∀ px ∈ o.pixels, px.ierr ≠ 0) (Tw : ℝ) (hTw : 1 ≤ Tw) : ∃ w,
    (getWeightedMoments [gauss2dSet 1 0 0 (Tw / 2) 0 (Tw / 2)] o.pixels (some 1.0e9) false).2 = .ok w := by
  have hu : Usable (gauss2dSet 1 0 0 (Tw / 2) 0 (Tw / 2)) := by
    constructor
    · simp only [gauss2dSet, gmixLowDetval]
      nlinarith
    · simp only [gauss2dSet, gmixLowDetval]
      linarith
  obtain ⟨k1, _⟩ := (C20_set_norm (gauss2dSet 1 0 0 (Tw / 2) 0 (Tw / 2)) rfl).1 hu
  rcases hgn : gauss2dSetNorm (gauss2dSet 1 0 0 (Tw / 2) 0 (Tw / 2)) with ⟨g1, r1⟩
  rw [hgn] at k1
  simp only at k1
  subst k1
  have hn : setNormsIfNeeded [gauss2dSet 1 0 0 (Tw / 2) 0 (Tw / 2)] = ([g1], .ok ()) := by
    have hfresh : (gauss2dSet 1 0 0 (Tw / 2) 0 (Tw / 2)).normSet = false := rfl
    simp [setNormsIfNeeded, gmixSetNorms, hgn, hfresh]
  obtain ⟨W, _, _, hnz⟩ := C65_sums [gauss2dSet 1 0 0 (Tw / 2) 0 (Tw / 2)] [g1] g1 [] (GmReach.start [1, 0, 0, Tw / 2, 0, Tw / 2]) hn rfl o.pixels (some 1.0e9) _
    ⟨fun r h => by cases h; rfl, fun h => by cases h⟩ false 0 ⟨0, fun _ => 0, fun _ _ => 0⟩
  obtain ⟨a, ha, _⟩ := hnz (fun px hpx => hz px (List.mem_of_mem_filter hpx))
  obtain ⟨r, hr, _⟩ := C11_decision_table _ _ _ _ _ _ _ _ (wmom_input false a) (some (wsWsum (some a)))
  exact ⟨_, by simp only [getWeightedMoments, WRes.zero, ha, weightedStats, hr, Except.map]; rfl⟩

/-- Two gaussians for pixels of 0.2: positive definite, with the flux asked for. -/
example : ∃ g s', gmixPsfGuess constRng 2 false ⟨0.2, 10, []⟩ () = .ok (some (g, s')) ∧ (∀ x ∈ g.data, PosDef x) ∧
    |Flux g.data - 10| ≤ 2e-7 * 10 := by
  obtain ⟨T, hT, hpos⟩ := C76_default ⟨0.2, 10, []⟩
  obtain ⟨g, s', h1, _, h3, _⟩ := C76_mixture constRng_unit 2 (by omega) (by omega) false ⟨0.2, 10, []⟩ 10 T hT ()
  exact ⟨g, s', h1, C76_posdef 2 (by omega) (by omega) 10 T (hpos (by norm_num)).1 (Or.inl (le_refl _)) _ h3,
    (C76_flux 2 (by omega) (by omega) 10 T (by norm_num) _ h3).2.1 rfl⟩

end Ngmix.Props
