import Verif.Proof.JointPrior

/-!
# Joint priors (C42, C43)
-/

namespace Ngmix.Props

open Ngmix Ngmix.Spec JointPrior

theorem sumTerms_notfin (ts : List (Except PyErr Fl)) : ∀ acc : Fl, (∀ x, acc ≠ .fin x) →
    ∀ L, sumTerms ts acc ≠ .ok (.fin L) := by
  induction ts with
  | nil =>
    intro acc h L hc
    simp only [sumTerms, Except.ok.injEq] at hc
    exact h L hc
  | cons t ts ih =>
    intro acc h L
    cases t with
    | error e => simp [sumTerms, Except.bind]
    | ok v =>
      simp only [sumTerms, Except.bind]
      apply ih
      intro x hx
      cases acc <;> cases v <;> simp [HAdd.hAdd, Add.add, Fl.add] at hx h

theorem sumTerms_fin (ts : List (Except PyErr Fl)) : ∀ (acc L : ℝ),
    sumTerms ts (.fin acc) = .ok (.fin L) →
    ∃ ls : List ℝ, ts = (ls.map Fl.fin).map Except.ok ∧ L = acc + ls.sum := by
  induction ts with
  | nil =>
    intro acc L h
    simp only [sumTerms, Except.ok.injEq, Fl.fin.injEq] at h
    exact ⟨[], by simp, by simp [h]⟩
  | cons t ts ih =>
    intro acc L h
    cases t with
    | error e => simp [sumTerms, Except.bind] at h
    | ok v =>
      simp only [sumTerms, Except.bind] at h
      cases v with
      | fin x =>
        rw [Fl.fin_add] at h
        obtain ⟨ls, e, hL⟩ := ih _ _ h
        exact ⟨x :: ls, by simp [e], by rw [hL, List.sum_cons]; ring⟩
      | nan => exact absurd h (sumTerms_notfin ts _ (by intro x hx; simp at hx) L)
      | pinf => exact absurd h (sumTerms_notfin ts _ (by intro x hx; simp [HAdd.hAdd, Add.add, Fl.add] at hx) L)
      | ninf => exact absurd h (sumTerms_notfin ts _ (by intro x hx; simp [HAdd.hAdd, Add.add, Fl.add] at hx) L)

theorem rootPrefix_fin (ls : List ℝ) (hneg : ∀ l ∈ ls, l ≤ 0) (tail : List Fl) :
    rootPrefix (ls.map Fl.fin ++ tail) ls.length =
      (ls.map fun l => Real.sqrt (-2 * l)).map Fl.fin ++ tail := by
  unfold rootPrefix
  rw [List.take_left' (by simp), List.drop_left' (by simp)]
  congr 1
  rw [List.map_map, List.map_map]
  apply List.map_congr_left
  intro l hl
  have := hneg l hl
  simp only [Function.comp, Fl.fin_mul, Fl.clip0, Fl.sqrt]
  rw [max_eq_left (by linarith), if_neg (by linarith)]

theorem sum_sq_sqrt (ls : List ℝ) (hneg : ∀ l ∈ ls, l ≤ 0) :
    ((ls.map fun l => Real.sqrt (-2 * l)).map fun d => d ^ 2).sum = -2 * ls.sum := by
  induction ls with
  | nil => simp
  | cons a ls ih =>
    simp only [List.map_cons, List.sum_cons]
    rw [ih (fun l hl => hneg l (List.mem_cons_of_mem _ hl)), Real.sq_sqrt (by
      have := hneg a List.mem_cons_self; linarith)]
    ring

/-- Whether `fill_fdiff` of the class calls `get_fdiff` of the priors. -/
def UsesFdiff : JClass → Prop
  | .bd => True
  | .bdf => True
  | _ => False

/-- C42: for parameters of the documented number where the joint log prior is finite, with `L` its value:
the log prior is the sum of the log priors of the parameters, each evaluated at its own parameter;
`fill_fdiff` writes one residual per term (two for the centre, one for the shape, one per other parameter)
at the start of the array, leaves the rest of the array alone and returns the number written; each residual
squares to minus twice its term, so that minus half the sum of the squares is `L`. -/
theorem C42_residuals (p : JointPrior) (hs : Shaped p) (hq : ∀ q ∈ layout p, Constructed q)
    (hg : ConstructedG p.g) (hc : ConstructedCen p.cen)
    (hba : UsesFdiff p.cls → ∃ s A, p.g = .ba s A)
    (c1 c2 g1 g2 : ℝ) (rest : List ℝ) (hlen : rest.length = (layout p).length)
    (hnp : 4 + rest.length = p.npars) (L : ℝ)
    (h : p.lnprob (c1 :: c2 :: g1 :: g2 :: rest) = .ok (.fin L)) (fdiff : List Fl)
    (hroom : 3 + (layout p).length ≤ fdiff.length) :
    ∃ (lg : ℝ) (ls : List ℝ) (ds : List ℝ), ls.length = (layout p).length ∧
      p.g.lnprob g1 g2 = .ok (.fin lg) ∧
      (∀ i (h1 : i < (layout p).length) (h2 : i < rest.length) (h3 : i < ls.length),
        (layout p)[i].lnprob rest[i] = .ok (.fin ls[i])) ∧
      L = p.cen.lnprob c1 c2 + lg + ls.sum ∧
      ds.length = 3 + (layout p).length ∧
      p.fillFdiff (c1 :: c2 :: g1 :: g2 :: rest) fdiff =
        .ok (ds.map .fin ++ fdiff.drop (3 + (layout p).length), 3 + (layout p).length) ∧
      (ds.map fun d => d ^ 2) =
        [-2 * (p.cen.lnprobSep c1 c2).1, -2 * (p.cen.lnprobSep c1 c2).2, -2 * lg] ++
          ls.map (fun l => -2 * l) ∧
      L = -(1 / 2) * (ds.map fun d => d ^ 2).sum := by
  set pars := c1 :: c2 :: g1 :: g2 :: rest with hpars
  obtain ⟨-, -, hsep, hf1, hf2, hn1, hn2⟩ := C44_cen p.cen.cen1 p.cen.cen2 p.cen.sigma1 p.cen.sigma2 p.cen (by
    unfold CenPrior.mk'
    rw [if_neg (by push Not; exact hc)]) c1 c2
  have hat01 : ∀ f : ℝ → ℝ → Except PyErr Fl, at2 f pars 0 1 = f c1 c2 := fun f => rfl
  have hat23 : ∀ f : ℝ → ℝ → Except PyErr Fl, at2 f pars 2 3 = f g1 g2 := fun f => rfl
  have hplen : pars.length = p.npars := by rw [hpars]; simp; omega
  -- the log probability is finite, so each term is
  have hgo : ((at2 p.g.lnprob pars 2 3).bind fun gl =>
      sumTerms (oneDTerms Prior1.lnprob p pars) (Fl.fin (p.cen.lnprob c1 c2) + gl)) = .ok (.fin L) := by
    rw [← h]
    unfold JointPrior.lnprob
    rw [hat01]
    cases p.cls <;> simp only [Except.bind] <;> rw [if_neg (by simpa using hplen)]
  rw [hat23] at hgo
  obtain ⟨gl, hgl⟩ : ∃ gl, p.g.lnprob g1 g2 = .ok gl := by
    cases hh : p.g.lnprob g1 g2 with
    | ok v => exact ⟨v, rfl⟩
    | error e => rw [hh] at hgo; simp [Except.bind] at hgo
  rw [hgl] at hgo
  simp only [Except.bind] at hgo
  obtain ⟨lg, rfl⟩ : ∃ lg, gl = .fin lg := by
    cases gl with
    | fin x => exact ⟨x, rfl⟩
    | nan => exact absurd hgo (sumTerms_notfin _ _ (by intro x hx; simp at hx) L)
    | pinf => exact absurd hgo (sumTerms_notfin _ _ (by intro x hx; simp [HAdd.hAdd, Add.add, Fl.add] at hx) L)
    | ninf => exact absurd hgo (sumTerms_notfin _ _ (by intro x hx; simp [HAdd.hAdd, Add.add, Fl.add] at hx) L)
  rw [Fl.fin_add] at hgo
  obtain ⟨ls, hts, hL⟩ := sumTerms_fin _ _ _ hgo
  have hts' := hts
  rw [oneDTerms_layout _ p hs] at hts
  have hlslen : ls.length = (layout p).length := by
    have := congrArg List.length hts
    simpa using this.symm
  have heach : ∀ i (h1 : i < (layout p).length) (h2 : i < rest.length) (h3 : i < ls.length),
      (layout p)[i].lnprob rest[i] = .ok (.fin ls[i]) := by
    intro i h1 h2 h3
    have e1 := congrArg (fun l => l[i]?) hts
    simp only [List.getElem?_map, List.getElem?_zipIdx, List.getElem?_eq_getElem h1,
      List.getElem?_eq_getElem h3, Option.map_some, Option.some.injEq, Nat.zero_add] at e1
    have hp4 : pars[4 + i]? = some rest[i] := by
      rw [hpars, show 4 + i = i + 4 by omega]
      simp [List.getElem?_eq_getElem h2]
    rw [at1, parAt, hp4] at e1
    exact e1
  have hnegl : ∀ l ∈ ls, l ≤ 0 := by
    intro l hl
    obtain ⟨i, hi, rfl⟩ := List.mem_iff_getElem.mp hl
    exact (prior1_fin _ (hq _ (List.getElem_mem (by omega))) _ _ (heach i (by omega) (by omega) hi)).1
  have hneglg := priorG_nonpos _ hg _ _ _ hgl
  have hLcen : L = (p.cen.lnprobSep c1 c2).1 + (p.cen.lnprobSep c1 c2).2 + lg + ls.sum := by
    rw [hL, hsep]
  -- log probability classes
  set ls4 : List ℝ := (p.cen.lnprobSep c1 c2).1 :: (p.cen.lnprobSep c1 c2).2 :: lg :: ls with hls4
  have hneg4 : ∀ l ∈ ls4, l ≤ 0 := by
    intro l hl
    simp only [hls4, List.mem_cons] at hl
    rcases hl with rfl | rfl | rfl | hl
    exacts [hn1, hn2, hneglg, hnegl l hl]
  have hln : ((writeTerms (lnTerms p pars) fdiff 0).map fun r => (rootPrefix r.1 r.2, r.2)) =
      .ok ((ls4.map fun l => Real.sqrt (-2 * l)).map Fl.fin ++ fdiff.drop (3 + (layout p).length),
        3 + (layout p).length) := by
    have e : lnTerms p pars = (ls4.map Fl.fin).map .ok := by
      unfold lnTerms
      rw [hts', hat01, hat01, hat23, hgl]
      simp [hls4]
    have hl4 : ls4.length = 3 + (layout p).length := by simp [hls4]; omega
    rw [e, writeTerms_ok _ _ _ (by simp only [List.length_map]; omega)]
    simp only [Except.map, List.take_zero, List.nil_append, Nat.zero_add, List.length_map]
    rw [rootPrefix_fin _ hneg4, hl4]
  -- residual classes
  have hfd : UsesFdiff p.cls → ∃ ds : List ℝ, ds.length = 3 + (layout p).length ∧
      writeTerms (fdTerms p pars) fdiff 0 =
        .ok (ds.map .fin ++ fdiff.drop (3 + (layout p).length), 3 + (layout p).length) ∧
      (ds.map fun d => d ^ 2) = ls4.map fun l => -2 * l := by
    intro hu
    obtain ⟨s, A, hga⟩ := hba hu
    have hsne : s ≠ 0 := by rw [hga] at hg; exact hg
    obtain ⟨dg, hdg, hdg2⟩ := priorG_fdiff s A g1 g2 lg hsne (by rw [← hga]; exact hgl)
    have hex : ∀ i : ℕ, ∃ d : ℝ, ∀ (h1 : i < (layout p).length) (h2 : i < rest.length) (h3 : i < ls.length),
        (layout p)[i].fdiff rest[i] = .ok (.fin d) ∧ d ^ 2 = -2 * ls[i] := by
      intro i
      by_cases hi : i < (layout p).length
      · obtain ⟨d, hd, hd2⟩ := (prior1_fin _ (hq _ (List.getElem_mem hi)) _ _
          (heach i hi (by omega) (by omega))).2
        exact ⟨d, fun _ _ _ => ⟨hd, hd2⟩⟩
      · exact ⟨0, fun h1 => absurd h1 hi⟩
    choose df hdf using hex
    refine ⟨(p.cen.fdiff c1 c2).1 :: (p.cen.fdiff c1 c2).2 :: dg ::
      (List.range (layout p).length).map df, by simp; omega, ?_, ?_⟩
    · have e : fdTerms p pars = (((p.cen.fdiff c1 c2).1 :: (p.cen.fdiff c1 c2).2 :: dg ::
          (List.range (layout p).length).map df).map Fl.fin).map .ok := by
        unfold fdTerms
        rw [hat01, hat01, hat23, hga, hdg, oneDTerms_layout _ p hs,
          terms_ok (ls := ((List.range (layout p).length).map df).map Fl.fin) _ _ _ _ (by simp)]
        · simp
        · intro i hi
          refine ⟨rest[i]'(by omega), ?_, ?_⟩
          · rw [hpars, show 4 + (0 + i) = i + 4 by omega]
            simp [List.getElem?_eq_getElem (show i < rest.length by omega)]
          · simp only [List.getElem_map, List.getElem_range]
            exact (hdf i hi (by omega) (by omega)).1
      rw [e, writeTerms_ok _ _ _ (by simp; omega)]
      simp only [List.take_zero, List.nil_append, Nat.zero_add, List.length_map, List.length_cons,
        List.length_range]
      rw [show (layout p).length + 1 + 1 + 1 = 3 + (layout p).length by omega]
    · simp only [List.map_cons, hls4, hf1, hf2, hdg2]
      congr 3
      apply List.ext_getElem
      · simp [hlslen]
      · intro i h1 h2
        simp only [List.length_map, List.length_range] at h1
        simp only [List.getElem_map, List.getElem_range]
        exact (hdf i h1 (by omega) (by omega)).2
  have hsum4 : ls4.sum = L := by
    rw [hLcen]; simp only [hls4, List.sum_cons]; ring
  have hsq : (((ls4.map fun l => Real.sqrt (-2 * l))).map fun d => d ^ 2) = ls4.map fun l => -2 * l := by
    rw [List.map_map]
    apply List.map_congr_left
    intro l hl
    simp only [Function.comp]
    exact Real.sq_sqrt (by have := hneg4 l hl; linarith)
  have hmul : ∀ l : List ℝ, (l.map fun l => -2 * l).sum = -2 * l.sum := fun l => by
    rw [List.sum_map_mul_left, List.map_id']
  have hform : (ls4.map fun l => -2 * l) =
      [-2 * (p.cen.lnprobSep c1 c2).1, -2 * (p.cen.lnprobSep c1 c2).2, -2 * lg] ++
          ls.map (fun l => -2 * l) := by simp [hls4]
  obtain ⟨ds, hdl, hfill, hdsq⟩ : ∃ ds : List ℝ, ds.length = 3 + (layout p).length ∧
      p.fillFdiff pars fdiff =
        .ok (ds.map .fin ++ fdiff.drop (3 + (layout p).length), 3 + (layout p).length) ∧
      (ds.map fun d => d ^ 2) = ls4.map fun l => -2 * l := by
    have hvia : ∃ ds : List ℝ, ds.length = 3 + (layout p).length ∧
        ((writeTerms (lnTerms p pars) fdiff 0).map fun r => (rootPrefix r.1 r.2, r.2)) =
          .ok (ds.map .fin ++ fdiff.drop (3 + (layout p).length), 3 + (layout p).length) ∧
        (ds.map fun d => d ^ 2) = ls4.map fun l => -2 * l :=
      ⟨_, by simp [hls4]; omega, hln, hsq⟩
    unfold JointPrior.fillFdiff
    cases hcls : p.cls with
    | simple => simpa only [hcls] using hvia
    | spergel => simpa only [hcls] using hvia
    | bd => simpa only [hcls] using hfd (by rw [hcls]; trivial)
    | bdf => simpa only [hcls] using hfd (by rw [hcls]; trivial)
    | coellip n =>
      simp only
      rw [if_neg (by simpa using hplen)]
      exact hvia
  refine ⟨lg, ls, ds, hlslen, hgl, heach, hL, hdl, hfill, by rw [hdsq, hform], ?_⟩
  rw [hdsq, hmul, hsum4]
  ring

/-- C42: the documented numbers of residuals and of parameters. -/
theorem C42_counts (p : JointPrior) (hs : Shaped p) :
    (3 + (layout p).length = match p.cls with
      | .simple => 4 + p.fs.length
      | .bd => 6 + p.fs.length
      | .bdf => 5 + p.fs.length
      | .spergel => 5 + p.fs.length
      | .coellip n => 3 + 2 * n) ∧
    p.npars = 4 + (layout p).length := by
  obtain ⟨cls, cen, g, mids, fs⟩ := p
  cases cls <;> simp only [Shaped] at hs <;> simp only [layout, JointPrior.npars, List.length_append]
  case coellip n =>
    obtain ⟨T, rfl⟩ := List.length_eq_one_iff.mp hs.1
    obtain ⟨F, rfl⟩ := List.length_eq_one_iff.mp hs.2
    simp
    omega
  all_goals rw [hs]; omega

/-- C42: for the classes that work with log probabilities, `fill_fdiff` on an array with room raises exactly
when the log prior does, and the same exception. -/
theorem C42_same_errors (p : JointPrior) (hs : Shaped p) (hu : ¬ UsesFdiff p.cls) (pars : List ℝ) (e : PyErr)
    (fdiff : List Fl) (hroom : 3 + (layout p).length ≤ fdiff.length) :
    p.lnprob pars = .error e ↔ p.fillFdiff pars fdiff = .error e := by
  have hlen : (oneDTerms Prior1.lnprob p pars).length = (layout p).length := by
    rw [oneDTerms_layout _ p hs]; simp
  have core : ((at2 (fun x y => .ok (.fin (p.cen.lnprob x y))) pars 0 1).bind fun c =>
      (at2 p.g.lnprob pars 2 3).bind fun gl =>
        sumTerms (oneDTerms Prior1.lnprob p pars) (c + gl)) = .error e ↔
      ((writeTerms (lnTerms p pars) fdiff 0).map fun r => (rootPrefix r.1 r.2, r.2)) = .error e := by
    have hmap : ∀ x : Except PyErr (List Fl × ℕ),
        (x.map fun r => (rootPrefix r.1 r.2, r.2)) = .error e ↔ x = .error e := by
      intro x; cases x <;> simp [Except.map]
    rw [hmap]
    unfold lnTerms at2
    rcases h0 : parAt pars 0 with e0 | x0
    · simp [Except.bind, writeTerms]
    rcases h1 : parAt pars 1 with e1 | x1
    · simp [Except.bind, writeTerms]
    simp only [Except.bind, writeTerms, fdWrite]
    rw [if_pos (by omega)]
    simp only
    rw [if_pos (by simp; omega)]
    simp only
    rcases h2 : parAt pars 2 with e2 | x2
    · simp
    rcases h3 : parAt pars 3 with e3 | x3
    · simp
    simp only
    rcases h4 : p.g.lnprob x2 x3 with e4 | gl
    · simp
    simp only
    rw [if_pos (by simp; omega)]
    exact write_sum_error _ e _ _ _ (by simp; omega)
  unfold JointPrior.lnprob JointPrior.fillFdiff
  cases hcls : p.cls with
  | simple => exact core
  | spergel => exact core
  | bd => rw [hcls] at hu; exact absurd trivial hu
  | bdf => rw [hcls] at hu; exact absurd trivial hu
  | coellip n =>
    simp only
    split_ifs
    · simp
    · exact core

/-- C42 (disagreement): a prior that has residuals but no log probability (`LMBounds`, `Sinh`) can be used in
the bulge+disk classes to fill the residuals, but the joint log prior then raises `AttributeError`. -/
theorem C42_bd_without_lnprob (cen : CenPrior) (s A a b : ℝ) (hs : s ≠ 0) :
    ∃ p pars, Shaped p ∧ p = ⟨.bdf, cen, .ba s A, [.lmBounds a b, .lmBounds a b], [.lmBounds a b]⟩ ∧
      (∃ r, p.fillFdiff pars (List.replicate 6 (.fin 0)) = .ok r) ∧ p.lnprob pars = .error .attribute := by
  refine ⟨⟨.bdf, cen, .ba s A, [.lmBounds a b, .lmBounds a b], [.lmBounds a b]⟩, [0, 0, 0, 0, 0, 0, 0], rfl,
    rfl, ?_, ?_⟩
  · have : ∃ d, (PriorG.ba s A).fdiff 0 0 = .ok d := by
      obtain ⟨L, d, -, -, -, h, -⟩ := (C44_ba s A (.ba s A) (by simp [PriorG.mkBA, hs]) 0 0).1 (by norm_num)
      exact ⟨_, h⟩
    obtain ⟨d, hd⟩ := this
    simp [JointPrior.fillFdiff, fdTerms, oneDTerms, at2, at1, parAt, Except.bind, writeTerms, hd, fdWrite,
      Prior1.fdiff]
  · obtain ⟨L, d, h, -⟩ := (C44_ba s A (.ba s A) (by simp [PriorG.mkBA, hs]) 0 0).1 (by norm_num)
    simp [JointPrior.lnprob, oneDTerms, at2, at1, parAt, Except.bind, h, sumTerms, Prior1.lnprob]

/-- C42 (disagreement): the bulge+disk classes need residuals of the shape prior, which only `GPriorBA`
has: with a `ZDisk2D` or `GPriorGauss` their `fill_fdiff` raises `AttributeError`, also where the log
prior is finite. -/
theorem C42_bd_shape_prior (p : JointPrior) (hu : UsesFdiff p.cls) (hg : ∀ s A, p.g ≠ .ba s A)
    (c1 c2 g1 g2 : ℝ) (rest : List ℝ) (fdiff : List Fl) (hroom : 2 ≤ fdiff.length) :
    p.fillFdiff (c1 :: c2 :: g1 :: g2 :: rest) fdiff = .error .attribute := by
  have hf : p.g.fdiff g1 g2 = .error .attribute := by
    cases hp : p.g with
    | ba s A => exact absurd hp (hg s A)
    | gauss s => rfl
    | disk r => rfl
  have key : writeTerms (fdTerms p (c1 :: c2 :: g1 :: g2 :: rest)) fdiff 0 = .error .attribute := by
    have h0 : 0 < fdiff.length := by omega
    have h1 : 1 < fdiff.length := by omega
    simp [fdTerms, writeTerms, at2, parAt, Except.bind, fdWrite, h0, h1, hf]
  unfold JointPrior.fillFdiff
  cases hc : p.cls with
  | bd => exact key
  | bdf => exact key
  | simple => rw [hc] at hu; exact hu.elim
  | spergel => rw [hc] at hu; exact hu.elim
  | coellip n => rw [hc] at hu; exact hu.elim

/-- C43: for every class but `PriorCoellipSame`, the bounds are `None` exactly when no prior has bounds;
otherwise they have one pair per parameter, in parameter order: nothing for centre and shape, and for the others
the bounds of the prior of that parameter. -/
theorem C43_bounds (p : JointPrior) (hs : Shaped p) (hc : ∀ n, p.cls ≠ .coellip n) :
    (p.bounds = none ↔ ∀ q ∈ layout p, q.bounds = none) ∧
    ∀ b, p.bounds = some b → b.length = p.npars ∧
      (∀ i < 4, b[i]? = some (.pair none none)) ∧
      (∀ i (hi : i < (layout p).length), b[4 + i]? =
        some (.pair ((layout p)[i].bounds.map Prod.fst) ((layout p)[i].bounds.map Prod.snd))) ∧
      unpackBounds p.npars b = .ok (List.replicate 4 (none, none) ++
        (layout p).map fun q => (q.bounds.map Prod.fst, q.bounds.map Prod.snd)) := by
  have hl : layout p = p.mids ++ p.fs := by
    unfold layout
    cases hcls : p.cls with
    | coellip n => exact absurd hcls (hc n)
    | _ => rfl
  have hb : p.bounds = if (layout p).any (fun q => q.bounds.isSome) then
      some (List.replicate 4 (BEntry.pair none none) ++
        (layout p).map fun q => BEntry.pair (boundPair q).1 (boundPair q).2) else none := by
    rw [hl]
    unfold JointPrior.bounds setBounds
    cases hcls : p.cls with
    | coellip n => exact absurd hcls (hc n)
    | _ => rfl
  have hbp : ∀ q : Prior1, boundPair q = (q.bounds.map Prod.fst, q.bounds.map Prod.snd) := by
    intro q; unfold boundPair; cases q.bounds <;> rfl
  constructor
  · rw [hb]
    split_ifs with h
    · simp only [reduceCtorEq, false_iff]
      intro hall
      rw [List.any_eq_true] at h
      obtain ⟨q, hq, hqs⟩ := h
      rw [hall q hq] at hqs
      simp at hqs
    · simp only [true_iff]
      intro q hq
      rw [List.any_eq_true] at h
      push Not at h
      have := h q hq
      simpa using this
  · intro b hbb
    rw [hb] at hbb
    split_ifs at hbb
    injection hbb with hbb
    subst hbb
    refine ⟨?_, ?_, ?_, ?_⟩
    · rw [(C42_counts p hs).2, List.length_append, List.length_map, List.length_replicate]
    · intro i hi
      rw [List.getElem?_append_left (by simpa using hi), List.getElem?_replicate, if_pos hi]
    · intro i hi
      rw [List.getElem?_append_right (by simp)]
      simp [hbp, List.getElem?_eq_getElem hi]
    · have hm : ∀ l : List Prior1, unpackAll (l.map fun q => BEntry.pair (boundPair q).1 (boundPair q).2) =
          .ok (l.map boundPair) := by
        intro l
        induction l with
        | nil => rfl
        | cons q l ih => simp only [List.map_cons, unpackAll, ih]; rfl
      unfold unpackBounds
      have h4 : unpackAll (List.replicate 4 (BEntry.pair none none) ++
          (layout p).map fun q => BEntry.pair (boundPair q).1 (boundPair q).2) =
          .ok (List.replicate 4 (none, none) ++ (layout p).map boundPair) := by
        simp only [List.replicate, List.cons_append, List.nil_append, unpackAll, hm]
        rfl
      rw [h4]
      simp only [Except.bind]
      rw [if_neg]
      · congr 2
        exact List.map_congr_left fun q _ => hbp q
      · rw [(C42_counts p hs).2]; simp only [List.length_append, List.length_map, List.length_replicate]; simp

/-- C43 (disagreement): `PriorCoellipSame` with any bounded prior has `4 + n(n+1)` entries instead of `4 + 2n`,
those after the fourth are not pairs, and the bounded minimiser refuses them with `ValueError`, for every
number of gaussians. -/
theorem C43_coellip_bounds (n : ℕ) (hn : 0 < n) (cen : CenPrior) (g : PriorG) (T F : Prior1)
    (hb : T.bounds.isSome ∨ F.bounds.isSome) :
    ∃ p b, mkCoellip n cen g T (.one F) = .ok p ∧ p.bounds = some b ∧
      b.length = 4 + n * (n + 1) ∧ unpackBounds p.npars b = .error .value := by
  refine ⟨⟨.coellip n, cen, g, [T], [F]⟩, List.replicate 4 (BEntry.pair none none) ++
      (List.replicate n T ++ [F]).flatMap fun p => List.replicate n (BEntry.nested [boundPair p]),
    rfl, ?_, ?_, ?_⟩
  · unfold JointPrior.bounds setBounds
    simp only [List.flatMap_cons, List.flatMap_nil, List.append_nil]
    rw [if_pos]
    rw [List.any_append, Bool.or_eq_true]
    rcases hb with h | h
    · left
      rw [List.any_eq_true]
      exact ⟨T, by simp; omega, h⟩
    · right; simpa using h
  · rw [List.length_append, List.length_flatMap]
    simp [Nat.mul_add, Nat.mul_comm]
  · obtain ⟨k, rfl⟩ : ∃ k, n = k + 1 := ⟨n - 1, by omega⟩
    unfold unpackBounds
    rw [List.replicate_succ (a := T), List.cons_append, List.flatMap_cons, List.replicate_succ,
      List.cons_append]
    rfl

theorem colSets_ok (vs : List ℝ) : ∀ (row : List ℝ) (i : ℕ), i + vs.length ≤ row.length →
    colSets (vs.zipIdx.map fun x => (i + x.2, x.1)) row =
      .ok (row.take i ++ vs ++ row.drop (i + vs.length)) := by
  induction vs with
  | nil => intro row i _; simp [colSets]
  | cons v vs ih =>
    intro row i h
    simp only [List.length_cons] at h
    have hz : ((v :: vs).zipIdx.map fun x => (i + x.2, x.1)) =
        (i, v) :: vs.zipIdx.map fun x => (i + 1 + x.2, x.1) := by
      rw [List.zipIdx_cons, List.map_cons]
      congr 1
      apply List.ext_getElem
      · simp
      · intro j h1 h2
        simp; omega
    rw [hz]
    simp only [colSets, colSet]
    rw [if_pos (by omega)]
    simp only [Except.bind]
    rw [ih _ _ (by simp; omega), List.drop_set_of_lt (by omega), List.take_set, List.take_add_one,
      List.getElem?_eq_getElem (by omega)]
    simp only [Option.toList, List.length_cons]
    rw [List.set_append_right _ _ (by simp), show i + 1 + vs.length = i + (vs.length + 1) by omega]
    simp [List.length_take, Nat.min_eq_left (show i ≤ row.length by omega)]

theorem colSets_append (a b : List (ℕ × ℝ)) : ∀ row, colSets (a ++ b) row = (colSets a row).bind (colSets b) := by
  induction a with
  | nil => intro row; rfl
  | cons x a ih =>
    intro row
    obtain ⟨i, v⟩ := x
    simp only [List.cons_append, colSets]
    cases colSet row i v with
    | error e => rfl
    | ok r => simp only [Except.bind]; rw [ih]; rfl

/-- C43: for every class but `PriorCoellipSame`, a sampled row has one column per parameter, and each column is
the draw made from the prior of that parameter. -/
theorem C43_sample (p : JointPrior) (hs : Shaped p) (hc : ∀ n, p.cls ≠ .coellip n) (cen g : ℝ × ℝ)
    (mids fs : List ℝ) (hm : mids.length = p.mids.length) (hf : fs.length = p.fs.length) :
    sampleRow p cen g mids fs = .ok ([cen.1, cen.2, g.1, g.2] ++ mids ++ fs) ∧
    ([cen.1, cen.2, g.1, g.2] ++ mids ++ fs).length = p.npars := by
  have hnp : p.npars = 4 + mids.length + fs.length := by
    rw [(C42_counts p hs).2]
    unfold layout
    cases hcls : p.cls with
    | coellip n => exact absurd hcls (hc n)
    | _ => simp only [List.length_append]; omega
  refine ⟨?_, by simp; omega⟩
  unfold sampleRow
  rw [colSets_append, colSets_append]
  have h0 : ([(0, cen.1), (1, cen.2), (2, g.1), (3, g.2)] : List (ℕ × ℝ)) =
      [cen.1, cen.2, g.1, g.2].zipIdx.map fun x => (0 + x.2, x.1) := by simp
  rw [h0, colSets_ok _ _ _ (by simp; omega)]
  simp only [Except.bind, List.take_zero, List.nil_append, Nat.zero_add]
  rw [colSets_ok _ _ _ (by simp; omega)]
  simp only
  rw [← hm, colSets_ok _ _ _ (by simp; omega)]
  congr 1
  simp only [List.drop_replicate, hnp]
  have h4 : ([cen.1, cen.2, g.1, g.2] : List ℝ).length = 4 := rfl
  rw [List.take_left' h4, List.drop_append, List.drop_eq_nil_of_le (by simp)]
  rw [List.take_left' (by simp; omega), List.drop_eq_nil_of_le (by simp; omega)]
  simp

/-- C43 (disagreement): in a row sampled by `PriorCoellipSame` the first size column is the sum of two draws
from the size prior, for every number of gaussians. -/
theorem C43_coellip_sample (n : ℕ) (hn : 0 < n) (p : JointPrior) (hp : p.cls = .coellip n) (cen g : ℝ × ℝ)
    (T : ℝ) (Ts Fs : List ℝ) (hT : Ts.length = n) (hF : Fs.length = n) :
    ∃ row, sampleRowCoellip p n cen g T Ts Fs = .ok row ∧ row[4]? = (Ts[0]?.map fun t => T + t) := by
  have hnp : p.npars = 4 + 2 * n := by unfold JointPrior.npars; rw [hp]
  unfold sampleRowCoellip
  have h0 : ([(0, cen.1), (1, cen.2), (2, g.1), (3, g.2), (4, T)] : List (ℕ × ℝ)) =
      [cen.1, cen.2, g.1, g.2, T].zipIdx.map fun x => (0 + x.2, x.1) := by simp
  rw [h0, colSets_ok _ _ _ (by simp; omega)]
  simp only [Except.bind, List.take_zero, List.nil_append, Nat.zero_add]
  have hadd : ∀ (vs : List ℝ) (k : ℕ) (row : List ℝ), 4 + k + vs.length ≤ row.length →
      ∃ r, colAdds (vs.zipIdx.map fun x => (4 + k + x.2, x.1)) row = .ok r ∧ r.length = row.length ∧
        (∀ j < 4 + k, r[j]? = row[j]?) := by
    intro vs
    induction vs with
    | nil => intro k row _; exact ⟨row, rfl, rfl, fun _ _ => rfl⟩
    | cons v vs ih =>
      intro k row h
      simp only [List.length_cons] at h
      have hz : ((v :: vs).zipIdx.map fun x => (4 + k + x.2, x.1)) =
          (4 + k, v) :: vs.zipIdx.map fun x => (4 + (k + 1) + x.2, x.1) := by
        rw [List.zipIdx_cons, List.map_cons]
        congr 1
        apply List.ext_getElem
        · simp
        · intro j h1 h2
          simp; omega
      rw [hz]
      simp only [colAdds, colAdd]
      rw [List.getElem?_eq_getElem (by omega)]
      simp only [Except.bind]
      obtain ⟨r, e, hl, hj⟩ := ih (k + 1) (row.set (4 + k) (row[4 + k]'(by omega) + v)) (by simp; omega)
      refine ⟨r, e, by rw [hl]; simp, ?_⟩
      intro j hj'
      rw [hj j (by omega), List.getElem?_set_ne (by omega)]
  obtain ⟨t, ts, rfl⟩ : ∃ t ts, Ts = t :: ts := by
    cases Ts with
    | nil => simp at hT; omega
    | cons t ts => exact ⟨t, ts, rfl⟩
  set row0 : List ℝ := [cen.1, cen.2, g.1, g.2, T] ++
    List.drop ([cen.1, cen.2, g.1, g.2, T] : List ℝ).length (List.replicate p.npars 0) with hrow0
  have hlen0 : row0.length = 4 + 2 * n := by simp [hrow0, hnp]; omega
  have hz : ((t :: ts).zipIdx.map fun x => (4 + x.2, x.1)) =
      (4, t) :: ts.zipIdx.map fun x => (4 + 1 + x.2, x.1) := by
    rw [List.zipIdx_cons, List.map_cons]
    congr 1
    apply List.ext_getElem
    · simp
    · intro j h1 h2
      simp; omega
  rw [hz]
  have h4 : row0[4]? = some T := rfl
  simp only [colAdds, colAdd, h4, Except.bind]
  simp only [List.length_cons] at hT
  obtain ⟨r, e, hl, hj⟩ := hadd ts 1 (row0.set 4 (T + t)) (by simp; omega)
  rw [e]
  simp only
  rw [colSets_ok _ _ _ (by rw [hl]; simp; omega)]
  refine ⟨_, rfl, ?_⟩
  have hrl : r.length = 4 + 2 * n := by rw [hl, List.length_set, hlen0]
  rw [List.append_assoc, List.getElem?_append_left (by rw [List.length_take]; omega),
    List.getElem?_take_of_lt (by omega),
    hj 4 (by omega), List.getElem?_set_self (by rw [hlen0]; omega)]
  simp

/-- C43 (disagreement): a tuple of flux priors is refused by every class: `AttributeError` or `TypeError`,
although the bulge+disk classes test for it. -/
theorem C43_tuple_refused (cen : CenPrior) (g : PriorG) (T r f : Prior1) (n : ℕ) (l : List Prior1) :
    mkSimple .simple cen g [T] (.tuple l) = .error .attribute ∧
    mkBD .bd cen g [T, r, f] (.tuple l) = .error .type ∧
    mkBD .bdf cen g [T, f] (.tuple l) = .error .type ∧
    mkSimple .spergel cen g [T, f] (.tuple l) = .error .attribute ∧
    mkCoellip n cen g T (.tuple l) = .error .attribute := ⟨rfl, rfl, rfl, rfl, rfl⟩

/-- C42, C43: the constructors give objects of the shape used above. -/
theorem C42_constructors (cen : CenPrior) (g : PriorG) (T r f : Prior1) (F : FArg) (n : ℕ) (p : JointPrior)
    (h : mkSimple .simple cen g [T] F = .ok p ∨ mkBD .bd cen g [T, r, f] F = .ok p ∨
      mkBD .bdf cen g [T, f] F = .ok p ∨ mkSimple .spergel cen g [T, f] F = .ok p ∨
      mkCoellip n cen g T F = .ok p) : Shaped p := by
  rcases h with h | h | h | h | h
  · cases F <;> simp [mkSimple] at h <;> subst h <;> rfl
  · cases F <;> simp [mkBD] at h <;> subst h <;> rfl
  · cases F <;> simp [mkBD] at h <;> subst h <;> rfl
  · cases F <;> simp [mkSimple] at h <;> subst h <;> rfl
  · unfold mkCoellip at h
    cases F with
    | one q => simp [mkSimple, Except.bind] at h; subst h; exact ⟨rfl, rfl⟩
    | tuple l => simp [mkSimple, Except.bind] at h
    | list l =>
      simp only [mkSimple, Except.bind] at h
      split_ifs at h with hl
      injection h with h
      subst h
      exact ⟨rfl, by simpa using hl⟩

/-- The hypotheses of `C42_residuals` are met by a two band prior. -/
example : ∃ (p : JointPrior) (L : ℝ), Shaped p ∧ (∀ q ∈ layout p, Constructed q) ∧ ConstructedG p.g ∧
    ConstructedCen p.cen ∧ p.npars = 7 ∧ p.lnprob [0, 0, 0, 0, 1, 2, 3] = .ok (.fin L) := by
  refine ⟨⟨.simple, ⟨0, 0, 1, 1⟩, .disk 1, [.normal 0 1 none], [.flat 0 5, .normal 3 1 none]⟩,
    -(1 / 2), rfl, ?_, trivial, ⟨one_ne_zero, one_ne_zero⟩, rfl, ?_⟩
  · intro q hq
    simp [layout] at hq
    rcases hq with rfl | rfl | rfl
    · exact one_ne_zero
    · trivial
    · exact one_ne_zero
  · simp [JointPrior.lnprob, oneDTerms, at2, at1, parAt, Except.bind, sumTerms, Prior1.lnprob, PriorG.lnprob,
      CenPrior.lnprob]
    norm_num

end Ngmix.Props
