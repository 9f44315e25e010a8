import Verif.Spec.FitUnit
import Verif.Proof.FitInit
import Verif.Proof.ExceptLemmas

/-!
# Model fits with other units of brightness
-/

namespace Ngmix.Props

open Ngmix Ngmix.Spec

noncomputable section

/-- A gaussian with its flux multiplied, and the norms that go with it. -/
def lit (c : ℝ) (g : Gauss) : Gauss :=
  { g with p := c * g.p, d := g.d.map fun d => { d with pnorm := c * d.pnorm } }

theorem lit_set (c p row col a b e : ℝ) : lit c (gauss2dSet p row col a b e) = gauss2dSet (c * p) row col a b e := rfl

theorem lit_norm (c : ℝ) (g : Gauss) :
    gauss2dSetNorm (lit c g) = (lit c (gauss2dSetNorm g).1, (gauss2dSetNorm g).2) := by
  have e : ∀ x : ℝ, (lit c g).p * x = c * (g.p * x) := fun x => mul_assoc _ _ _
  unfold gauss2dSetNorm
  dsimp only
  rw [e]
  change (if g.det < gmixLowDetval then _ else if g.irr + g.icc ≤ gmixLowDetval then _ else _) = _
  by_cases h1 : g.det < gmixLowDetval
  · simp only [if_pos h1]
  · simp only [if_neg h1]
    by_cases h2 : g.irr + g.icc ≤ gmixLowDetval
    · simp only [if_pos h2]
    · simp only [if_neg h2]
      rfl

theorem lit_norms (c : ℝ) (gm : List Gauss) :
    gmixSetNorms (gm.map (lit c)) = ((gmixSetNorms gm).1.map (lit c), (gmixSetNorms gm).2) := by
  induction gm with
  | nil => rfl
  | cons g gm ih =>
    rw [List.map_cons, gmixSetNorms, gmixSetNorms, lit_norm, ih]
    rcases gauss2dSetNorm g with ⟨g', _ | _⟩
    · rfl
    · rfl

theorem lit_ready (c : ℝ) (gm : List Gauss) :
    setNormsIfNeeded (gm.map (lit c)) = ((setNormsIfNeeded gm).1.map (lit c), (setNormsIfNeeded gm).2) := by
  cases gm with
  | nil => rfl
  | cons g gm =>
    have h := lit_norms c (g :: gm)
    rw [List.map_cons] at h ⊢
    unfold setNormsIfNeeded
    simp only [show (lit c g).normSet = g.normSet from rfl]
    cases g.normSet
    · exact h
    · rfl

theorem lit_eval (c : ℝ) (g : Gauss) (v u area : ℝ) :
    gaussEvalFast (lit c g) v u area = c * gaussEvalFast g v u area := by
  rcases hg : g.d with _ | d
  · have h' : (lit c g).d = none := by simp [lit, hg]
    unfold gaussEvalFast
    rw [h', hg]
    exact (mul_zero c).symm
  · have h' : (lit c g).d = some { d with pnorm := c * d.pnorm } := by simp [lit, hg]
    have e : gaussChi2 (lit c g) { d with pnorm := c * d.pnorm } v u = gaussChi2 g d v u := rfl
    unfold gaussEvalFast
    rw [h', hg]
    dsimp only
    rw [e]
    by_cases h : gaussChi2 g d v u < fastexpMaxChi2 ∧ gaussChi2 g d v u ≥ 0
    · rw [if_pos h, if_pos h, mul_assoc, mul_assoc, mul_assoc]
    · rw [if_neg h, if_neg h, mul_zero]

theorem lit_evals (c : ℝ) (gm : List Gauss) (v u area : ℝ) :
    gmixEvalFast (gm.map (lit c)) v u area = c * gmixEvalFast gm v u area := by
  unfold gmixEvalFast
  have : ∀ acc : ℝ, (gm.map (lit c)).foldl (fun acc g => acc + gaussEvalFast g v u area) (c * acc) =
      c * gm.foldl (fun acc g => acc + gaussEvalFast g v u area) acc := by
    induction gm with
    | nil => intro acc; rfl
    | cons g gm ih =>
      intro acc
      rw [List.map_cons, List.foldl_cons, List.foldl_cons, lit_eval, ← mul_add, ih]
  simpa using this 0

/-! ### The pixels -/

theorem unit_fdiff {c : ℝ} (hc : c ≠ 0) (d : List Gauss) {px px' : List Pixel} (h : List.Forall₂ (UnitPixel c) px px')
    (start : ℕ) (fdiff : List Fl) :
    (fillFdiffFl (d.map (lit c)) px' start fdiff).2 = (fillFdiffFl d px start fdiff).2 := by
  unfold fillFdiffFl
  rw [lit_ready]
  rcases setNormsIfNeeded d with ⟨d', _ | _⟩
  · rfl
  · simp only [Except.ok.injEq]
    unfold fdiffLoopFl
    generalize ((0 : ℕ), fdiff) = a
    congr 1
    induction h generalizing a with
    | nil => rfl
    | @cons x x' px px' hx _ ih =>
      obtain ⟨h1, h2, h3, h4, h5⟩ := hx
      rw [List.foldl_cons, List.foldl_cons, lit_evals, h1, h2, h3, h4, h5]
      dsimp only
      rw [show (c * gmixEvalFast d' x.v x.u x.area - c * x.val) * (x.ierr / c) =
          (gmixEvalFast d' x.v x.u x.area - x.val) * x.ierr by field_simp]
      exact ih _

theorem unit_loglike {c : ℝ} (hc : c ≠ 0) (d : List Gauss) {px px' : List Pixel} (h : List.Forall₂ (UnitPixel c) px px') :
    (getLoglike (d.map (lit c)) px').2 = (getLoglike d px).2 := by
  unfold getLoglike
  rw [lit_ready]
  rcases setNormsIfNeeded d with ⟨d', _ | _⟩
  · rfl
  · have key : loglikeLoop (d'.map (lit c)) px' = loglikeLoop d' px := by
      unfold loglikeLoop
      generalize (⟨0, 0, 0, 0⟩ : LogLike) = a
      induction h generalizing a with
      | nil => rfl
      | @cons x x' px px' hx _ ih =>
        obtain ⟨h1, h2, h3, h4, h5⟩ := hx
        rw [List.foldl_cons, List.foldl_cons]
        have e : ∀ y z : ℝ, c * y * (c * z) * (x.ierr / c * (x.ierr / c)) = y * z * (x.ierr * x.ierr) := by
          intro y z; field_simp
        simp only [lit_evals, h1, h2, h3, h4, h5, ← mul_sub, e] at ih ⊢
        exact ih _
    simp only [key]

/-! ### The mixtures -/

theorem unit_cen {c : ℝ} (hc : c ≠ 0) {q q' : List Gauss} (h : List.Forall₂ (fun g g' : Gauss => g'.p = c * g.p ∧
      g'.row = g.row ∧ g'.col = g.col ∧ g'.irr = g.irr ∧ g'.irc = g.irc ∧ g'.icc = g.icc) q q') :
    gmixGetCen q' = (gmixGetCen q).map fun x => (x.1, x.2.1, c * x.2.2) := by
  have key : ∀ a b e : ℝ, q'.foldl (fun (acc : ℝ × ℝ × ℝ) g =>
        (acc.1 + g.p * g.row, acc.2.1 + g.p * g.col, acc.2.2 + g.p)) (c * a, c * b, c * e) =
      (c * (q.foldl (fun (acc : ℝ × ℝ × ℝ) g =>
        (acc.1 + g.p * g.row, acc.2.1 + g.p * g.col, acc.2.2 + g.p)) (a, b, e)).1,
       c * (q.foldl (fun (acc : ℝ × ℝ × ℝ) g =>
        (acc.1 + g.p * g.row, acc.2.1 + g.p * g.col, acc.2.2 + g.p)) (a, b, e)).2.1,
       c * (q.foldl (fun (acc : ℝ × ℝ × ℝ) g =>
        (acc.1 + g.p * g.row, acc.2.1 + g.p * g.col, acc.2.2 + g.p)) (a, b, e)).2.2) := by
    induction h with
    | nil => intro a b e; rfl
    | cons hx _ ih =>
      intro a b e
      obtain ⟨h1, h2, h3, -⟩ := hx
      rw [List.foldl_cons, List.foldl_cons]
      simp only [h1, h2, h3, mul_assoc c, ← mul_add]
      exact ih _ _ _
  have k0 := key 0 0 0
  rw [mul_zero] at k0
  unfold gmixGetCen
  simp only [k0]
  generalize q.foldl (fun (acc : ℝ × ℝ × ℝ) g =>
    (acc.1 + g.p * g.row, acc.2.1 + g.p * g.col, acc.2.2 + g.p)) (0, 0, 0) = s
  by_cases h0 : s.2.2 = 0
  · rw [if_pos (by rw [h0, mul_zero]), if_pos h0]
    rfl
  · rw [if_neg (mul_ne_zero hc h0), if_neg h0]
    simp only [Except.map, mul_div_mul_left _ _ hc]

theorem unit_convolve (c : ℝ) {e : ℝ} (he : e ≠ 0) (d : List Gauss) {q q' : List Gauss}
    (h : List.Forall₂ (fun g g' : Gauss => g'.p = e * g.p ∧
      g'.row = g.row ∧ g'.col = g.col ∧ g'.irr = g.irr ∧ g'.irc = g.irc ∧ g'.icc = g.icc) q q') :
    gmixConvolve (d.map (lit c)) q' = (gmixConvolve d q).map fun l => l.map (lit c) := by
  unfold gmixConvolve
  rw [unit_cen he h]
  cases hc : gmixGetCen q with
  | error x => rfl
  | ok x =>
    have hx : x.2.2 ≠ 0 := by
      unfold gmixGetCen at hc
      simp only at hc
      split_ifs at hc with h0
      rw [Except.ok.injEq] at hc
      rw [← hc]
      exact h0
    simp only [Except.map, Except.ok.injEq, List.map_flatMap, List.flatMap_map]
    congr 1
    funext o
    rw [List.map_map]
    symm
    clear hc
    induction h with
    | nil => rfl
    | cons hg _ ih =>
      obtain ⟨h1, h2, h3, h4, h5, h6⟩ := hg
      rw [List.map_cons, List.map_cons, ih]
      congr 1
      simp only [Function.comp, lit_set]
      simp only [lit, h1, h2, h3, h4, h5, h6]
      congr 1
      field_simp

/-- The parameters of one band with the fluxes in another unit. -/
def bandUnits (n : ℕ) (c : ℝ) (bp : List ℝ) : List ℝ := bp.take n ++ (bp.drop n).map fun F => c * F

theorem bandUnits_length (n : ℕ) (c : ℝ) (bp : List ℝ) : (bandUnits n c bp).length = bp.length := by
  simp only [bandUnits, List.length_append, List.length_take, List.length_map, List.length_drop]
  omega

theorem inUnits_length (kind : FMKind) (k : ℕ → ℝ) (pars : List ℝ) : (inUnits kind k pars).length = pars.length := by
  unfold inUnits
  cases kind <;> simp only [List.length_append, List.length_take, List.length_map, List.length_mapIdx, List.length_drop] <;>
    omega

theorem unit_simple (fv pv : List ℝ) (row col g1 g2 T F c : ℝ) : fillSimple fv pv row col g1 g2 T (c * F) =
    (fillSimple fv pv row col g1 g2 T F).map fun l => l.map (lit c) := by
  unfold fillSimple
  cases g1g2ToE1E2nb g1 g2 with
  | error e => rfl
  | ok e => simp [Except.map, coGauss, Function.comp_def, lit_set, mul_assoc]

theorem unit_composite (row col e1 e2 T F fd Td c : ℝ) : fillComposite row col e1 e2 T (c * F) fd Td =
    (fillComposite row col e1 e2 T F fd Td).map (lit c) := by
  unfold fillComposite
  simp only [List.map_map]
  congr 1
  funext i
  simp only [Function.comp, coGauss, lit_set, mul_assoc]

theorem unit_bulge (row col g1 g2 T F fd Td c : ℝ) (tf : Except PyErr ℝ) :
    (tf.bind fun tf => (g1g2ToE1E2nb g1 g2).map fun e => fillComposite row col e.1 e.2 (T * tf) (c * F) fd Td) =
    (tf.bind fun tf => (g1g2ToE1E2nb g1 g2).map fun e => fillComposite row col e.1 e.2 (T * tf) F fd Td).map
      fun l => l.map (lit c) := by
  cases tf with
  | error e => rfl
  | ok tf =>
    simp only [Except.bind]
    cases g1g2ToE1E2nb g1 g2 with
    | error e => rfl
    | ok e => simp only [Except.map, unit_composite]

/-- How the mixtures of a kind of fit are made. -/
def kindOf : FMKind → GKind
  | .std name => .model name
  | .coellip _ => .coellip

theorem kindOf_fresh (kind : FMKind) (hk : CanFit kind) : ∃ ng, FreshAs kind (kindOf kind) (bandN kind) ng ∧
    CopyAs kind (kindOf kind) (bandN kind) ng := by
  cases kind with
  | coellip n => exact ⟨n, fresh_coellip n⟩
  | std name =>
    simp only [CanFit, List.mem_cons, List.not_mem_nil, or_false] at hk
    rcases hk with rfl | rfl | rfl | rfl | rfl | rfl
    · exact ⟨_, fresh_std "gauss" 1 6 1 rfl rfl rfl rfl rfl (by simp [fillNames]) (by simp) (by simp)⟩
    · exact ⟨_, fresh_std "turb" 2 6 3 rfl rfl rfl rfl rfl (by simp [fillNames]) (by simp) (by simp)⟩
    · exact ⟨_, fresh_std "exp" 3 6 6 rfl rfl rfl rfl rfl (by simp [fillNames]) (by simp) (by simp)⟩
    · exact ⟨_, fresh_std "dev" 4 6 10 rfl rfl rfl rfl rfl (by simp [fillNames]) (by simp) (by simp)⟩
    · exact ⟨_, fresh_std "bd" 10 8 16 rfl rfl rfl rfl rfl (by simp [fillNames]) (by simp) (by simp)⟩
    · exact ⟨_, fresh_std "bdf" 6 7 16 rfl rfl rfl rfl rfl (by simp [fillNames]) (by simp) (by simp)⟩

theorem unit_fill (kind : FMKind) (hk : CanFit kind) (c : ℝ) (bp : List ℝ) (hl : bp.length = bandN kind) :
    fillFunc (kindOf kind) (bandUnits (notFluxes kind) c bp) =
      (fillFunc (kindOf kind) bp).map fun l => l.map (lit c) := by
  cases kind with
  | std name =>
    simp only [CanFit, List.mem_cons, List.not_mem_nil, or_false] at hk
    rcases hk with rfl | rfl | rfl | rfl | rfl | rfl
    · match bp, (hl : bp.length = 6) with
      | [row, col, g1, g2, T, F], _ => exact unit_simple _ _ row col g1 g2 T F c
    · match bp, (hl : bp.length = 6) with
      | [row, col, g1, g2, T, F], _ => exact unit_simple _ _ row col g1 g2 T F c
    · match bp, (hl : bp.length = 6) with
      | [row, col, g1, g2, T, F], _ => exact unit_simple _ _ row col g1 g2 T F c
    · match bp, (hl : bp.length = 6) with
      | [row, col, g1, g2, T, F], _ => exact unit_simple _ _ row col g1 g2 T F c
    · match bp, (hl : bp.length = 8) with
      | [row, col, g1, g2, T, lT, fd, F], _ => exact unit_bulge row col g1 g2 T F fd _ c _
    · match bp, (hl : bp.length = 7) with
      | [row, col, g1, g2, T, fd, F], _ => exact unit_bulge row col g1 g2 T F fd _ c _
  | coellip n =>
    replace hl : bp.length = 4 + 2 * n := hl
    match bp, hl with
    | [], hl => simp at hl; omega
    | [_], hl => simp at hl; omega
    | [_, _], hl => simp at hl; omega
    | [_, _, _], hl => simp at hl; omega
    | row :: col :: g1 :: g2 :: rest, hl =>
      have hr : rest.length = 2 * n := by simp only [List.length_cons] at hl; omega
      have ht : (rest.take n).length = n := by rw [List.length_take]; omega
      have e : bandUnits (notFluxes (.coellip n)) c (row :: col :: g1 :: g2 :: rest) =
          row :: col :: g1 :: g2 :: (rest.take n ++ (rest.drop n).map fun F => c * F) := by
        simp only [bandUnits, notFluxes, show 4 + n = n + 1 + 1 + 1 + 1 by omega, List.take_succ_cons, List.drop_succ_cons,
          List.cons_append]
      have hr' : (rest.take n ++ (rest.drop n).map fun F => c * F).length = 2 * n := by
        rw [List.length_append, List.length_map, List.length_drop, ht]; omega
      rw [e]
      simp only [kindOf, fillFunc, hr', hr, Nat.mul_div_cancel_left n two_pos]
      rw [List.take_left' ht, List.drop_left' ht, List.zip_map_right]
      unfold fillCoellip
      cases g1g2ToE1E2nb g1 g2 with
      | error e => rfl
      | ok e => simp [Except.map, coGauss, Function.comp_def, lit_set]

theorem unit_takeBand (n : ℕ) (k : ℕ → ℝ) (pars : List ℝ) (b : ℕ) :
    takeBand n (pars.take n ++ (pars.drop n).mapIdx fun b F => k b * F) b =
      (takeBand n pars b).map (bandUnits n (k b)) := by
  have hl : (pars.take n ++ (pars.drop n).mapIdx fun b F => k b * F).length = pars.length := by
    simp only [List.length_append, List.length_take, List.length_mapIdx, List.length_drop]; omega
  unfold takeBand
  rw [hl]
  split_ifs with h1 h2
  · rfl
  · rfl
  · push Not at h1
    have ht : (pars.take n).length = n := by rw [List.length_take]; omega
    rw [List.getElem?_append_right (by omega), ht, Nat.add_sub_cancel_left, List.getElem?_mapIdx, List.getElem?_drop]
    cases hF : pars[n + b]? with
    | none => rfl
    | some F =>
      simp only [Option.map_some, Except.map, Except.ok.injEq, bandUnits]
      rw [List.take_left' ht, List.take_left' ht, List.drop_left' ht]
      rfl

theorem unit_bandPars (kind : FMKind) (hk : CanFit kind) (k : ℕ → ℝ) (pars : List ℝ) (b : ℕ)
    (hb : ∀ m, kind = .coellip m → b = 0) :
    kind.bandPars (inUnits kind k pars) b = (kind.bandPars pars b).map (bandUnits (notFluxes kind) (k b)) := by
  cases kind with
  | coellip m => rw [hb m rfl]; rfl
  | std name =>
    simp only [CanFit, List.mem_cons, List.not_mem_nil, or_false] at hk
    have h6 : ∀ name', getModelNpars (.str name') = .ok 6 → name' ≠ "coellip" → name' ≠ "bd" → name' ≠ "bdf" →
        ∀ pars, (FMKind.std name').bandPars pars b = takeBand 5 pars b := by
      intro name' h1 h2 h3 h4 pars
      simp only [FMKind.bandPars, getBandPars, h1, Except.bind, if_neg h2, if_neg h3, if_neg h4]
      cases takeBand 5 pars b <;> simp [Except.map]
    rcases hk with rfl | rfl | rfl | rfl | rfl | rfl
    · rw [h6 _ rfl (by simp) (by simp) (by simp), h6 _ rfl (by simp) (by simp) (by simp)]; exact unit_takeBand 5 k pars b
    · rw [h6 _ rfl (by simp) (by simp) (by simp), h6 _ rfl (by simp) (by simp) (by simp)]; exact unit_takeBand 5 k pars b
    · rw [h6 _ rfl (by simp) (by simp) (by simp), h6 _ rfl (by simp) (by simp) (by simp)]; exact unit_takeBand 5 k pars b
    · rw [h6 _ rfl (by simp) (by simp) (by simp), h6 _ rfl (by simp) (by simp) (by simp)]; exact unit_takeBand 5 k pars b
    · exact unit_takeBand 7 k pars b
    · exact unit_takeBand 6 k pars b

/-! ### All images -/

theorem unit_shOf {k : ℝ} (dopsf : Bool) (gk : GKind) (n ng : ℕ) {i i' : Img} (h : UnitImg k i i') :
    shOf dopsf gk n ng i' = shOf dopsf gk n ng i := by
  obtain ⟨-, hp⟩ := h
  unfold shOf
  cases dopsf with
  | false => rfl
  | true =>
    unfold UnitPsf at hp
    revert hp
    cases i.psf <;> cases i'.psf <;> simp
    intro h _ _ _
    exact .inl h

theorem unit_one (kind : FMKind) (hk : CanFit kind) (dopsf : Bool) (c : ℝ) (bp : List ℝ) {i i' : Img} (h : UnitImg c i i')
    (ng : ℕ) :
    onePure dopsf (bandUnits (notFluxes kind) c bp) i' (shOf dopsf (kindOf kind) (bandN kind) ng i') =
      (onePure dopsf bp i (shOf dopsf (kindOf kind) (bandN kind) ng i)).map fun l => l.map (lit c) := by
  rw [unit_shOf dopsf _ _ ng h]
  obtain ⟨-, hp⟩ := h
  have hf : fillPure (kindOf kind, bandN kind) (bandUnits (notFluxes kind) c bp) =
      (fillPure (kindOf kind, bandN kind) bp).map fun l => l.map (lit c) := by
    unfold fillPure
    rw [bandUnits_length]
    dsimp only
    split_ifs with hl
    · rfl
    · exact unit_fill kind hk c bp (not_not.mp hl)
  unfold onePure shOf
  cases dopsf with
  | false =>
    simp only [Bool.false_eq_true, if_false]
    exact hf
  | true =>
    simp only [if_true]
    unfold UnitPsf at hp
    cases hq : i.psf with
    | error e =>
      cases hq' : i'.psf with
      | error e' => rw [hq, hq'] at hp; rw [hp]; rfl
      | ok q' => rw [hq, hq'] at hp; exact hp.elim
    | ok q =>
      cases hq' : i'.psf with
      | error e' => rw [hq, hq'] at hp; exact hp.elim
      | ok q' =>
        rw [hq, hq'] at hp
        obtain ⟨-, e, he, hp⟩ := hp
        simp only [Except.bind, hf]
        cases fillPure (kindOf kind, bandN kind) bp with
        | error e => rfl
        | ok d => exact unit_convolve c he d hp

theorem unit_band (kind : FMKind) (hk : CanFit kind) (dopsf : Bool) (c : ℝ) (bp : List ℝ) {is is' : List Img}
    (h : List.Forall₂ (UnitImg c) is is') (ng : ℕ) :
    bandPure dopsf (bandUnits (notFluxes kind) c bp) is' (is'.map (shOf dopsf (kindOf kind) (bandN kind) ng)) =
      (bandPure dopsf bp is (is.map (shOf dopsf (kindOf kind) (bandN kind) ng))).map
        fun ds => ds.map fun l => l.map (lit c) := by
  induction h with
  | nil => rfl
  | @cons i i' is is' hi _ ih =>
    rw [List.map_cons, List.map_cons, bandPure, bandPure, unit_one kind hk dopsf c bp hi ng, ih]
    cases onePure dopsf bp i (shOf dopsf (kindOf kind) (bandN kind) ng i) with
    | error e => rfl
    | ok d =>
      simp only [Except.map, Except.bind]
      cases bandPure dopsf bp is (is.map (shOf dopsf (kindOf kind) (bandN kind) ng)) <;> rfl

/-- The mixtures of all bands in the new units. -/
def litAll (k : ℕ → ℝ) : ℕ → List (List (List Gauss)) → List (List (List Gauss))
  | _, [] => []
  | b, ds :: dss => (ds.map fun l => l.map (lit (k b))) :: litAll k (b + 1) dss

theorem unit_all (kind : FMKind) (hk : CanFit kind) (dopsf : Bool) (k : ℕ → ℝ) (pars : List ℝ) (ng : ℕ) :
    ∀ (obs obs' : List (List Img)) (b : ℕ), UnitObs k b obs obs' → (∀ m, kind = .coellip m → b + obs.length ≤ 1) →
    allPure kind dopsf (inUnits kind k pars) b obs'
        (obs'.map fun is => is.map (shOf dopsf (kindOf kind) (bandN kind) ng)) =
      (allPure kind dopsf pars b obs (obs.map fun is => is.map (shOf dopsf (kindOf kind) (bandN kind) ng))).map
        (litAll k b)
  | [], [], _, _, _ => rfl
  | [], _ :: _, _, h, _ => h.elim
  | _ :: _, [], _, h, _ => h.elim
  | is :: obs, is' :: obs', b, h, hb => by
    obtain ⟨h1, h2⟩ := h
    have hb0 : ∀ m, kind = .coellip m → b = 0 := by
      intro m hm
      have := hb m hm
      rw [List.length_cons] at this
      omega
    rw [List.map_cons, List.map_cons, allPure, allPure, unit_bandPars kind hk k pars b hb0]
    have ih := unit_all kind hk dopsf k pars ng obs obs' (b + 1) h2 (by
      intro m hm
      have := hb m hm
      rw [List.length_cons] at this
      omega)
    rw [ih]
    cases kind.bandPars pars b with
    | error e => rfl
    | ok bp =>
      simp only [Except.map, Except.bind]
      have := unit_band kind hk dopsf (k b) bp h1 ng
      rw [this]
      cases bandPure dopsf bp is (is.map (shOf dopsf (kindOf kind) (bandN kind) ng)) with
      | error e => rfl
      | ok ds =>
        simp only [Except.map]
        cases allPure kind dopsf pars (b + 1) obs
          (obs.map fun is => is.map (shOf dopsf (kindOf kind) (bandN kind) ng)) <;> rfl

theorem unit_fdBand {c : ℝ} (hc : c ≠ 0) {is is' : List Img} (h : List.Forall₂ (UnitImg c) is is') :
    ∀ (ds : List (List Gauss)) (fdiff : List Fl) (start : ℕ),
    fdBandPure is' (ds.map fun l => l.map (lit c)) fdiff start = fdBandPure is ds fdiff start := by
  induction h with
  | nil => intro ds fdiff start; cases ds <;> rfl
  | @cons i i' is is' hi _ ih =>
    intro ds fdiff start
    cases ds with
    | nil => rfl
    | cons d ds =>
      rw [List.map_cons, fdBandPure, fdBandPure, unit_fdiff hc d hi.1, hi.1.length_eq]
      congr 1
      funext fdiff'
      exact ih ds _ _

theorem unit_fdAll {k : ℕ → ℝ} (hk : ∀ b, k b ≠ 0) : ∀ (obs obs' : List (List Img)) (b : ℕ), UnitObs k b obs obs' →
    ∀ (dss : List (List (List Gauss))) (fdiff : List Fl) (start : ℕ),
    fdAllPure obs' (litAll k b dss) fdiff start = fdAllPure obs dss fdiff start
  | [], [], b, _ => by intro dss fdiff start; cases dss <;> rfl
  | [], _ :: _, _, h => h.elim
  | _ :: _, [], _, h => h.elim
  | is :: obs, is' :: obs', b, h => by
    obtain ⟨h1, h2⟩ := h
    intro dss fdiff start
    cases dss with
    | nil => rfl
    | cons ds dss =>
      rw [litAll, fdAllPure, fdAllPure, unit_fdBand (hk b) h1]
      congr 1
      funext r
      exact unit_fdAll hk obs obs' (b + 1) h2 dss _ _

theorem unit_llBand {c : ℝ} (hc : c ≠ 0) {is is' : List Img} (h : List.Forall₂ (UnitImg c) is is') :
    ∀ (ds : List (List Gauss)) (acc : LogLike),
    llBandPure is' (ds.map fun l => l.map (lit c)) acc = llBandPure is ds acc := by
  induction h with
  | nil => intro ds acc; cases ds <;> rfl
  | @cons i i' is is' hi _ ih =>
    intro ds acc
    cases ds with
    | nil => rfl
    | cons d ds =>
      rw [List.map_cons, llBandPure, llBandPure, unit_loglike hc d hi.1]
      congr 1
      funext r
      exact ih ds _

theorem unit_llAll {k : ℕ → ℝ} (hk : ∀ b, k b ≠ 0) : ∀ (obs obs' : List (List Img)) (b : ℕ), UnitObs k b obs obs' →
    ∀ (dss : List (List (List Gauss))) (acc : LogLike),
    llAllPure obs' (litAll k b dss) acc = llAllPure obs dss acc
  | [], [], b, _ => by intro dss acc; cases dss <;> rfl
  | [], _ :: _, _, h => h.elim
  | _ :: _, [], _, h => h.elim
  | is :: obs, is' :: obs', b, h => by
    obtain ⟨h1, h2⟩ := h
    intro dss acc
    cases dss with
    | nil => rfl
    | cons ds dss =>
      rw [litAll, llAllPure, llAllPure, unit_llBand (hk b) h1]
      congr 1
      funext r
      exact unit_llAll hk obs obs' (b + 1) h2 dss _

theorem unit_totpix {k : ℕ → ℝ} : ∀ (obs obs' : List (List Img)) (b : ℕ), UnitObs k b obs obs' →
    obs'.length = obs.length ∧
    ((obs'.flatten).map fun i => i.pixels.length).sum = ((obs.flatten).map fun i => i.pixels.length).sum
  | [], [], _, _ => ⟨rfl, rfl⟩
  | [], _ :: _, _, h => h.elim
  | _ :: _, [], _, h => h.elim
  | is :: obs, is' :: obs', b, h => by
    obtain ⟨h1, h2⟩ := h
    obtain ⟨i1, i2⟩ := unit_totpix obs obs' (b + 1) h2
    refine ⟨by rw [List.length_cons, List.length_cons, i1], ?_⟩
    rw [List.flatten_cons, List.flatten_cons, List.map_append, List.map_append, List.sum_append, List.sum_append, i2]
    congr 2
    clear i1 i2 h2
    induction h1 with
    | nil => rfl
    | cons hx _ ih => rw [List.map_cons, List.map_cons, ih, hx.1.length_eq]

end

end Ngmix.Props
