import Verif.Props.PriorArrays
import Verif.Props.JointPrior

/-!
# Array methods of the shape, centre and joint priors (C84)
-/

namespace Ngmix.Props

open Ngmix Ngmix.Spec JointPrior

/-- C84, `GPriorBA`: the array of log probabilities holds the scalar one where that has a value, and minus infinity
where it raises. -/
theorem C84_ba_lnprob (sigma A : ℝ) (g : List (ℝ × ℝ)) :
    ∃ ys, (PriorG.ba sigma A).lnprobArray g = .ok ys ∧
      List.Forall₂ (fun x y => (x.1 ^ 2 + x.2 ^ 2 < 1 → (PriorG.ba sigma A).lnprob x.1 x.2 = .ok y) ∧
        (1 ≤ x.1 ^ 2 + x.2 ^ 2 →
          y = .ninf ∧ (PriorG.ba sigma A).lnprob x.1 x.2 = .error .gmixRange)) g ys := by
  refine ⟨_, rfl, ?_⟩
  rw [List.forall₂_map_right_iff, List.forall₂_same]
  intro x _
  simp only [PriorG.lnprob]
  constructor
  · intro h
    have h' : 0 < 1 - (x.1 * x.1 + x.2 * x.2) := by nlinarith
    rw [if_neg (not_le.mpr h'), if_pos h']
  · intro h
    have h' : 1 - (x.1 * x.1 + x.2 * x.2) ≤ 0 := by nlinarith
    rw [if_neg (not_lt.mpr h'), if_pos h']
    exact ⟨rfl, rfl⟩

/-- C84: arrays of probabilities of shapes and positions are the scalar probabilities; those never raise. -/
theorem C84_prob2d (p : PriorG) (g : List (ℝ × ℝ)) (hp : ∀ s, p ≠ .gauss s) :
    ∃ ys, p.probArray g = .ok ys ∧ List.Forall₂ (fun x y => p.prob x.1 x.2 = .ok y) g ys := by
  cases p with
  | gauss s => exact absurd rfl (hp s)
  | ba sigma A =>
    refine ⟨_, rfl, ?_⟩
    rw [List.forall₂_map_right_iff, List.forall₂_same]
    intro x _
    simp only [PriorG.prob]
    split_ifs <;> [skip; simp]
    congr 1; ring
  | disk r =>
    refine ⟨_, rfl, ?_⟩
    rw [List.forall₂_map_right_iff, List.forall₂_same]
    intro x _
    simp only [PriorG.prob]
    by_cases h : x.1 ^ 2 + x.2 ^ 2 < r ^ 2
    · rw [if_pos h, if_neg (not_le.mpr h)]
    · rw [if_neg h, if_pos (not_lt.mp h)]

/-- C84: the array of one dimensional probabilities of `GPriorBA`. -/
theorem C84_prob1d (sigma A : ℝ) (g : List ℝ) :
    PriorG.probArray1d sigma A g = g.map (PriorG.prob1d sigma A) := by
  unfold PriorG.probArray1d
  apply List.map_congr_left
  intro x _
  simp only [PriorG.prob1d]
  split_ifs
  · ring
  · simp

/-- C84: residuals of an array of shapes: those of the single shapes, infinity where a single shape raises. -/
theorem C84_ba_fdiff (sigma A : ℝ) (hs : sigma ≠ 0) (g : List (ℝ × ℝ)) :
    ∃ ys, PriorG.fdiffArray sigma A g = .ok ys ∧
      List.Forall₂ (fun x y => (x.1 ^ 2 + x.2 ^ 2 < 1 → (PriorG.ba sigma A).fdiff x.1 x.2 = .ok y) ∧
        (1 ≤ x.1 ^ 2 + x.2 ^ 2 →
          y = .pinf ∧ (PriorG.ba sigma A).fdiff x.1 x.2 = .error .gmixRange)) g ys := by
  obtain ⟨ls, h, hl⟩ := C84_ba_lnprob sigma A g
  unfold PriorG.fdiffArray
  rw [h]
  refine ⟨_, rfl, ?_⟩
  rw [List.forall₂_map_right_iff]
  refine hl.imp ?_
  rintro x y ⟨h1, h2⟩
  constructor
  · intro hx
    have e := h1 hx
    obtain ⟨L, d, e', hL, -⟩ := (C44_ba sigma A (.ba sigma A) (by simp [PriorG.mkBA, hs]) x.1 x.2).1 hx
    rw [e'] at e; injection e with e; subst e
    simp only [PriorG.fdiff, e', Except.map]
    rw [clipRoot_fin L hL]
    simp only [Fl.fin_mul, Fl.clip0, Fl.sqrt]
    rw [max_eq_left (by linarith), if_neg (by linarith)]
  · intro hx
    obtain ⟨rfl, e⟩ := h2 hx
    refine ⟨?_, by simp [PriorG.fdiff, e, Except.map]⟩
    have : Fl.fin (-2) * Fl.ninf = Fl.pinf := by
      simp [HMul.hMul, Mul.mul, Fl.mul, Fl.infOf]
    rw [this]; rfl

/-- C84, `ZDisk2D`: the one dimensional methods at the distance from the centre are the two dimensional ones at the
point, for a radius that is not negative. -/
theorem C84_disk1d (radius x y : ℝ) (hr : 0 ≤ radius) :
    PriorG.diskLnprob1d radius (Real.sqrt (x ^ 2 + y ^ 2)) = (PriorG.disk radius).lnprob x y ∧
    (PriorG.disk radius).prob x y = .ok (PriorG.diskProb1d radius (Real.sqrt (x ^ 2 + y ^ 2))) := by
  have h : (Real.sqrt (x ^ 2 + y ^ 2) ≥ radius) ↔ (x ^ 2 + y ^ 2 ≥ radius ^ 2) := by
    rw [ge_iff_le, ge_iff_le, Real.le_sqrt hr]
    positivity
  simp only [PriorG.diskLnprob1d, PriorG.lnprob, PriorG.prob, PriorG.diskProb1d]
  by_cases h2 : x ^ 2 + y ^ 2 ≥ radius ^ 2
  · rw [if_pos (h.mpr h2), if_pos h2, if_pos h2, if_pos (h.mpr h2)]; exact ⟨rfl, rfl⟩
  · rw [if_neg (fun hc => h2 (h.mp hc)), if_neg h2, if_neg h2, if_neg (fun hc => h2 (h.mp hc))]; exact ⟨rfl, rfl⟩

/-- C84, `CenPrior`: the probability is the exponential of the log probability, the array of log probabilities holds
the single ones; an array of probabilities can only be asked for a single position (defect of the unchanged code). -/
theorem C84_cen (p : CenPrior) (x : List (ℝ × ℝ)) :
    (∀ x1 x2, p.prob x1 x2 = Real.exp (p.lnprob x1 x2)) ∧
    p.lnprobArray x = x.map (fun v => .fin (p.lnprob v.1 v.2)) ∧
    (x.length ≠ 1 → p.probArray x = .error .type) ∧
    (∀ v, p.probArray [v] = .ok (.num (.fin (p.prob v.1 v.2)))) := by
  refine ⟨fun _ _ => rfl, rfl, ?_, fun _ => rfl⟩
  intro h
  match x, h with
  | [], _ => rfl
  | [v], h => exact absurd rfl h
  | _ :: _ :: _, _ => rfl

/-! ### Joint priors -/

theorem agreeing_array (q : Prior1) (hq : Agreeing q) (c : List ℝ) :
    ((∃ v ∈ c, q.lnprob v = .error .gmixRange) ∧ q.lnprobArray c = .error .gmixRange) ∨
    ∃ f : ℝ → Fl, (∀ v ∈ c, q.lnprob v = .ok (f v)) ∧ ∃ t, q.lnprobArray c = .ok t ∧
      ∀ acc : List Fl, acc.length = c.length → addTo acc t = List.zipWith (fun a v => a + f v) acc c := by
  by_cases hf : ∃ a b, q = .flat a b
  · obtain ⟨a, b, rfl⟩ := hf
    by_cases h : ∃ v ∈ c, v < a ∨ b < v
    · left
      refine ⟨?_, (C83_flat_lnprob_array a b c).2 h⟩
      obtain ⟨v, hm, hv⟩ := h
      refine ⟨v, hm, ((C44_flat a b v).2 ?_).1⟩
      rintro ⟨h1, h2⟩
      rcases hv with hv | hv <;> linarith
    · right
      push Not at h
      refine ⟨fun _ => .fin 0, fun v hv => ((C44_flat a b v).1 (h v hv)).1, _,
        (C83_flat_lnprob_array a b c).1 h, ?_⟩
      intro acc hacc
      simp only [addTo]
      induction acc generalizing c with
      | nil => simp
      | cons x xs ih =>
        cases c with
        | nil => simp at hacc
        | cons y ys =>
          simp only [List.map_cons, List.zipWith_cons_cons]
          rw [← ih ys (fun v hv => h v (by simp [hv])) (by simpa using hacc)]
  · have hp := C83_lnprob_array q hq (fun a b hc => hf ⟨a, b, hc⟩) c
    rcases hr : q.lnprobArray c with e | t
    · left
      obtain ⟨v, hm, hv⟩ := (hp.2 e).mp hr
      have : e = .gmixRange := by
        cases q with
        | flat a b => exact absurd ⟨a, b, rfl⟩ hf
        | erf2 a wa b wb => simp [Prior1.lnprob] at hv
        | normal m s b => simp [Prior1.lnprob] at hv
        | lognormal m s sh =>
          simp only [Prior1.lnprob] at hv
          rw [lognormal_scalar] at hv
          split_ifs at hv
          injection hv with hv; exact hv.symm
        | lmBounds _ _ => exact absurd hq (by simp [Agreeing])
        | bounded _ _ => exact absurd hq (by simp [Agreeing])
        | sinh _ _ => exact absurd hq (by simp [Agreeing])
        | trunc _ _ _ _ => exact absurd hq (by simp [Agreeing])
      subst this
      exact ⟨⟨v, hm, hv⟩, rfl⟩
    · right
      cases t with
      | num x =>
        exfalso
        have hall : ∀ v ∈ c, ∃ y, q.lnprob v = .ok y := by
          intro v hv
          rcases h : q.lnprob v with e | y
          · have := (hp.2 e).mpr ⟨v, hv, h⟩
            rw [hr] at this; cases this
          · exact ⟨y, rfl⟩
        haveI : Nonempty Fl := ⟨.nan⟩
        choose! f hfv using hall
        have := (hp.1 (c.map f)).mpr ((forall2_map_iff _ f c hfv _).mpr rfl)
        rw [hr] at this; injection this with this; cases this
      | arr ys =>
        have h2 := (hp.1 ys).mp hr
        have hall : ∀ v ∈ c, ∃ y, q.lnprob v = .ok y := by
          intro v hv
          rcases h : q.lnprob v with e | y
          · have := (hp.2 e).mpr ⟨v, hv, h⟩
            rw [hr] at this; cases this
          · exact ⟨y, rfl⟩
        haveI : Nonempty Fl := ⟨.nan⟩
        choose! f hfv using hall
        refine ⟨f, hfv, _, rfl, ?_⟩
        intro acc _
        have := (forall2_map_iff _ f c hfv ys).mp h2
        subst this
        simp only [addTo, List.zipWith_map_right]

/-- The sums over the priors in `l`, row by row. -/
theorem addArrays_spec (ncol : ℕ) (rows : List (List ℝ)) (hrows : ∀ r ∈ rows, r.length = ncol) :
    ∀ (l : List (Prior1 × ℕ)), (∀ x ∈ l, Agreeing x.1 ∧ x.2 < ncol) → ∀ a : List ℝ → Fl,
    ((∃ r ∈ rows, ∃ x ∈ l, at1 x.1.lnprob r x.2 = .error .gmixRange) ∧
      addArrays ncol rows l (rows.map a) = .error .gmixRange) ∨
    ∃ b : List ℝ → Fl, addArrays ncol rows l (rows.map a) = .ok (rows.map b) ∧
      ∀ r ∈ rows, sumTerms (l.map fun x => at1 x.1.lnprob r x.2) (a r) = .ok (b r) := by
  intro l
  induction l with
  | nil => intro _ a; exact Or.inr ⟨a, rfl, fun r _ => rfl⟩
  | cons x l ih =>
    intro hl a
    obtain ⟨q, i⟩ := x
    obtain ⟨hq, hi⟩ := hl (q, i) (by simp)
    have hcol : column ncol rows i = .ok (rows.map fun r => r.getD i 0) := by
      unfold column; rw [if_pos hi]
    have hat : ∀ r ∈ rows, at1 q.lnprob r i = q.lnprob (r.getD i 0) := by
      intro r hr
      have hlt : i < r.length := by rw [hrows r hr]; exact hi
      simp [at1, parAt, List.getElem?_eq_getElem hlt, Except.bind]
    simp only [addArrays, hcol, Except.bind]
    rcases agreeing_array q hq (rows.map fun r => r.getD i 0) with ⟨⟨v, hv, he⟩, hr⟩ | ⟨f, hf, t, ht, hadd⟩
    · left
      obtain ⟨r, hm, rfl⟩ := List.mem_map.mp hv
      refine ⟨⟨r, hm, (q, i), by simp, by rw [hat r hm]; exact he⟩, ?_⟩
      rw [hr]
    · have e : addTo (rows.map a) t = rows.map fun r => a r + f (r.getD i 0) := by
        rw [hadd _ (by simp), List.zipWith_map]
        exact List.zipWith_self
      rw [ht]
      simp only
      rw [e]
      rcases ih (fun x hx => hl x (by simp [hx])) (fun r => a r + f (r.getD i 0)) with
        ⟨⟨r, hm, x, hx, he⟩, hr⟩ | ⟨b, hb, hs⟩
      · left
        exact ⟨⟨r, hm, x, by simp [hx], he⟩, hr⟩
      · right
        refine ⟨b, hb, fun r hr => ?_⟩
        simp only [List.map_cons, sumTerms, hat r hr, hf _ (List.mem_map.mpr ⟨r, hr, rfl⟩), Except.bind]
        exact hs r hr

theorem arrayLayout_eq (p : JointPrior) (hs : Shaped p) (hc : ∀ n, p.cls ≠ .coellip n) :
    arrayLayout p = .ok ((layout p).zipIdx.map fun x => (x.1, 4 + x.2)) := by
  obtain ⟨cls, cen, g, mids, fs⟩ := p
  have hz : ∀ (k j : ℕ), fs.zipIdx.map (fun F => (F.1, k + j + F.2)) =
      (fs.zipIdx j).map (fun F => (F.1, k + F.2)) := by
    intro k j
    apply List.ext_getElem
    · simp
    · intro i h1 h2
      simp [Nat.add_assoc]
  cases cls with
  | simple =>
    obtain ⟨T, rfl⟩ := List.length_eq_one_iff.mp hs
    simp only [arrayLayout, layout, List.singleton_append, List.zipIdx_cons, List.map_cons]
    rw [← hz 4 1]
  | bd =>
    obtain ⟨T, r, f, rfl⟩ := List.length_eq_three.mp hs
    simp only [arrayLayout, layout, List.cons_append, List.nil_append, List.zipIdx_cons, List.map_cons]
    rw [← hz 4 3]
  | bdf =>
    obtain ⟨T, f, rfl⟩ := List.length_eq_two.mp hs
    simp only [arrayLayout, layout, List.cons_append, List.nil_append, List.zipIdx_cons, List.map_cons]
    rw [← hz 4 2]
  | spergel =>
    obtain ⟨T, f, rfl⟩ := List.length_eq_two.mp hs
    simp only [arrayLayout, layout, List.cons_append, List.nil_append, List.zipIdx_cons, List.map_cons]
    rw [← hz 4 2]
  | coellip n => exact absurd rfl (hc n)

theorem agreeing_values (q : Prior1) (hq : Agreeing q) (x : ℝ) (y : Fl) (h : q.lnprob x = .ok y) :
    y = .ninf ∨ ∃ r, y = .fin r := by
  cases q with
  | flat a b =>
    simp only [Prior1.lnprob] at h
    split_ifs at h
    injection h with h; exact Or.inr ⟨0, h.symm⟩
  | erf2 a wa b wb =>
    obtain ⟨P, -, -, h1, h2⟩ := C44_erf a wa b wb x hq.1 hq.2
    rcases lt_or_ge 0 P with hP | hP
    · rw [(h1 hP).1] at h; injection h with h; exact Or.inr ⟨_, h.symm⟩
    · rw [h2 hP] at h; injection h with h; exact Or.inl h.symm
  | normal m s b => simp only [Prior1.lnprob] at h; injection h with h; exact Or.inr ⟨_, h.symm⟩
  | lognormal m s sh =>
    obtain ⟨⟨h1, h2⟩, -⟩ := C44_lognormal m s hq.2 sh (.lognormal m s sh) (by
      simp [Prior1.mkLogNormal, not_le.mpr hq.1])
    by_cases hS : sh.getD 0 < x
    · obtain ⟨L, e, -⟩ := h1 x hS
      rw [h] at e; injection e with e; exact Or.inr ⟨L, e⟩
    · rw [h2 x hS] at h; cases h
  | lmBounds _ _ => exact absurd hq (by simp [Agreeing])
  | bounded _ _ => exact absurd hq (by simp [Agreeing])
  | sinh _ _ => exact absurd hq (by simp [Agreeing])
  | trunc _ _ _ _ => exact absurd hq (by simp [Agreeing])

theorem sumTerms_ninf (ts : List (Except PyErr Fl))
    (h : ∀ t ∈ ts, ∀ y, t = .ok y → y = .ninf ∨ ∃ r, y = .fin r) :
    ∀ b, sumTerms ts .ninf = .ok b → b = .ninf := by
  induction ts with
  | nil => intro b hb; injection hb with hb; exact hb.symm
  | cons t ts ih =>
    intro b hb
    cases t with
    | error e => simp [sumTerms, Except.bind] at hb
    | ok v =>
      simp only [sumTerms, Except.bind] at hb
      have : Fl.ninf + v = .ninf := by
        rcases h _ (by simp) v rfl with rfl | ⟨r, rfl⟩ <;> rfl
      rw [this] at hb
      exact ih (fun t ht => h t (by simp [ht])) b hb

/-- The shape parameters of a row are inside the unit disk. -/
def InsideDisk (r : List ℝ) : Prop := r.getD 2 0 ^ 2 + r.getD 3 0 ^ 2 < 1

/-- What the array of log probabilities holds for a row: the log probability of the row alone where the shape is
inside the unit disk; minus infinity outside, where a single row raises. -/
def RowValue (lnprob : List ℝ → Except PyErr Fl) (r : List ℝ) (y : Fl) : Prop :=
  (InsideDisk r → lnprob r = .ok y) ∧ (¬ InsideDisk r → y = .ninf ∧ lnprob r = .error .gmixRange)

/-- C84: the array methods of the joint priors, for a `GPriorBA` shape prior.  They raise exactly when some
parameter other than centre and shape is out of the range of its own prior in some row; otherwise every row has its
own value. -/
theorem C84_joint_array (p : JointPrior) (hs : Shaped p) (hc : ∀ n, p.cls ≠ .coellip n)
    (hq : ∀ q ∈ layout p, Agreeing q) (s A : ℝ) (hg : p.g = .ba s A) (ncol : ℕ) (hn : p.npars ≤ ncol)
    (rows : List (List ℝ)) (hrows : ∀ r ∈ rows, r.length = ncol) :
    (∀ e, p.lnprobArray ncol rows = .error e ↔ e = .gmixRange ∧
      ∃ r ∈ rows, ∃ i, ∃ hi : i < (layout p).length, (layout p)[i].lnprob (r.getD (4 + i) 0) = .error .gmixRange) ∧
    (∀ ys, p.lnprobArray ncol rows = .ok ys → List.Forall₂ (RowValue p.lnprob) rows ys) := by
  have hnp := (C42_counts p hs).2
  have hcol : ∀ i, i < 4 → column ncol rows i = .ok (rows.map fun r => r.getD i 0) := by
    intro i hi; unfold column; rw [if_pos (by omega)]
  have hat : ∀ r ∈ rows, ∀ i < ncol, ∀ m : ℝ → Except PyErr Fl, at1 m r i = m (r.getD i 0) := by
    intro r hr i hi m
    have hlt : i < r.length := by rw [hrows r hr]; exact hi
    simp [at1, parAt, List.getElem?_eq_getElem hlt, Except.bind]
  have hat2 : ∀ r ∈ rows, ∀ i < ncol, ∀ j < ncol, ∀ m : ℝ → ℝ → Except PyErr Fl,
      at2 m r i j = m (r.getD i 0) (r.getD j 0) := by
    intro r hr i hi j hj m
    have hlt : i < r.length := by rw [hrows r hr]; exact hi
    have hlt' : j < r.length := by rw [hrows r hr]; exact hj
    simp [at2, parAt, List.getElem?_eq_getElem hlt, List.getElem?_eq_getElem hlt', Except.bind]
  -- the value at the start of the loop
  let lg : List ℝ → Fl := fun r =>
    open Classical in
    if 1 - (r.getD 2 0 * r.getD 2 0 + r.getD 3 0 * r.getD 3 0) > 0 then
      .fin (2 * Real.log (1 - (r.getD 2 0 * r.getD 2 0 + r.getD 3 0 * r.getD 3 0)) -
        0.5 * (r.getD 2 0 * r.getD 2 0 + r.getD 3 0 * r.getD 3 0) * (1 / s ^ 2))
    else .ninf
  let a : List ℝ → Fl := fun r => .fin (p.cen.lnprob (r.getD 0 0) (r.getD 1 0)) + lg r
  have hA : p.lnprobArray ncol rows =
      addArrays ncol rows ((layout p).zipIdx.map fun x => (x.1, 4 + x.2)) (rows.map a) := by
    unfold JointPrior.lnprobArray
    rw [hcol 0 (by omega), hcol 1 (by omega), hcol 2 (by omega), hcol 3 (by omega), arrayLayout_eq p hs hc, hg]
    simp only [Except.bind, PriorG.lnprobArray, CenPrior.lnprobArray, addTo, List.zip_map', List.map_map]
    congr 1
    rw [List.zipWith_map]
    exact List.zipWith_self
  have hlist : ∀ x ∈ (layout p).zipIdx.map (fun x => (x.1, 4 + x.2)), Agreeing x.1 ∧ x.2 < ncol := by
    intro x hx
    obtain ⟨⟨q, i⟩, hm, rfl⟩ := List.mem_map.mp hx
    obtain ⟨-, hi, hqe⟩ := List.mem_zipIdx hm
    simp only [Nat.zero_add, Nat.sub_zero] at hi hqe
    refine ⟨?_, by simp only; omega⟩
    simp only
    rw [hqe]
    exact hq _ (List.getElem_mem _)
  have hterms : ∀ r ∈ rows, (((layout p).zipIdx.map fun x => (x.1, 4 + x.2)).map fun x => at1 x.1.lnprob r x.2) =
      oneDTerms Prior1.lnprob p r := by
    intro r _
    rw [oneDTerms_layout _ p hs, List.map_map]; rfl
  have hscalar : ∀ r ∈ rows,
      (InsideDisk r → p.lnprob r = sumTerms (oneDTerms Prior1.lnprob p r) (a r)) ∧
      (¬ InsideDisk r → p.lnprob r = .error .gmixRange ∧ a r = .ninf) := by
    intro r hr
    have hl : p.lnprob r = ((at2 (fun x y => .ok (.fin (p.cen.lnprob x y))) r 0 1).bind fun c =>
        (at2 p.g.lnprob r 2 3).bind fun gl => sumTerms (oneDTerms Prior1.lnprob p r) (c + gl)) := by
      unfold JointPrior.lnprob
      cases hcls : p.cls with
      | coellip n => exact absurd hcls (hc n)
      | _ => rfl
    rw [hl, hat2 r hr 0 (by omega) 1 (by omega), hat2 r hr 2 (by omega) 3 (by omega), hg]
    simp only [Except.bind, PriorG.lnprob]
    constructor
    · intro hin
      have h' : 0 < 1 - (r.getD 2 0 * r.getD 2 0 + r.getD 3 0 * r.getD 3 0) := by
        unfold InsideDisk at hin; nlinarith
      rw [if_neg (not_le.mpr h')]
      simp only [a, lg]
      rw [if_pos h']
    · intro hin
      have h' : 1 - (r.getD 2 0 * r.getD 2 0 + r.getD 3 0 * r.getD 3 0) ≤ 0 := by
        unfold InsideDisk at hin; nlinarith
      rw [if_pos h']
      refine ⟨rfl, ?_⟩
      simp only [a, lg]
      rw [if_neg (not_lt.mpr h')]
      rfl
  rw [hA]
  have hmem : ∀ r ∈ rows, ∀ x ∈ (layout p).zipIdx.map (fun x => (x.1, 4 + x.2)),
      at1 x.1.lnprob r x.2 = .error .gmixRange →
      ∃ i, ∃ hi : i < (layout p).length, (layout p)[i].lnprob (r.getD (4 + i) 0) = .error .gmixRange := by
    intro r hr x hx he
    have hx2 := (hlist x hx).2
    obtain ⟨⟨q, i⟩, hm, rfl⟩ := List.mem_map.mp hx
    obtain ⟨-, hi, hqe⟩ := List.mem_zipIdx hm
    simp only [Nat.zero_add, Nat.sub_zero] at hi hqe
    refine ⟨i, hi, ?_⟩
    rw [← hqe]
    rw [hat r hr _ hx2] at he
    exact he
  rcases addArrays_spec ncol rows hrows _ hlist a with ⟨⟨r, hr, x, hx, he⟩, h⟩ | ⟨b, h, hb⟩
  · rw [h]
    refine ⟨fun e => ⟨fun h => ?_, fun h => by rw [h.1]⟩, fun ys h => by cases h⟩
    injection h with h
    exact ⟨h.symm, r, hr, hmem r hr x hx he⟩
  · rw [h]
    constructor
    · intro e
      refine ⟨fun h => (by cases h), ?_⟩
      rintro ⟨-, r, hr, i, hi, he⟩
      exfalso
      have hsum := hb r hr
      have hin : at1 (layout p)[i].lnprob r (4 + i) = .error .gmixRange := by
        rw [hat r hr _ (by omega)]; exact he
      have hall : ∀ (ts : List (Except PyErr Fl)) (acc y : Fl), sumTerms ts acc = .ok y →
          ∀ t ∈ ts, ∀ e, t ≠ .error e := by
        intro ts
        induction ts with
        | nil => intro _ _ _ t ht; cases ht
        | cons t ts ih =>
          intro acc y hy u hu e hue
          cases t with
          | error e => simp [sumTerms, Except.bind] at hy
          | ok v =>
            rcases List.mem_cons.mp hu with rfl | hu
            · cases hue
            · exact ih _ _ hy u hu e hue
      refine hall _ _ _ hsum _ ?_ _ hin
      refine List.mem_map.mpr ⟨((layout p)[i], 4 + i), List.mem_map.mpr ⟨((layout p)[i], i), ?_, rfl⟩, rfl⟩
      rw [List.mk_mem_zipIdx_iff_getElem?]
      simp [hi]
    · intro ys hy
      injection hy with hy; subst hy
      rw [List.forall₂_map_right_iff, List.forall₂_same]
      intro r hr
      have hsum := hb r hr
      rw [hterms r hr] at hsum
      refine ⟨fun hin => ?_, fun hin => ?_⟩
      · rw [(hscalar r hr).1 hin]; exact hsum
      · obtain ⟨h1, h2⟩ := (hscalar r hr).2 hin
        refine ⟨?_, h1⟩
        rw [h2, ← hterms r hr] at hsum
        refine sumTerms_ninf _ ?_ _ hsum
        intro t ht y hty
        obtain ⟨x, hx, rfl⟩ := List.mem_map.mp ht
        rw [hat r hr _ (hlist x hx).2] at hty
        exact agreeing_values _ (hlist x hx).1 _ _ hty

/-- C84: arrays of joint probabilities: the probability of each row, zero where the shape is outside the unit disk;
same errors. -/
theorem C84_joint_prob_array (p : JointPrior) (hs : Shaped p) (hc : ∀ n, p.cls ≠ .coellip n)
    (hq : ∀ q ∈ layout p, Agreeing q) (s A : ℝ) (hg : p.g = .ba s A) (ncol : ℕ) (hn : p.npars ≤ ncol)
    (rows : List (List ℝ)) (hrows : ∀ r ∈ rows, r.length = ncol) :
    (∀ e, p.probArray ncol rows = .error e ↔ p.lnprobArray ncol rows = .error e) ∧
    (∀ ys, p.probArray ncol rows = .ok ys → List.Forall₂ (fun r y =>
      (InsideDisk r → p.prob r = .ok y) ∧ (¬ InsideDisk r → y = .fin 0)) rows ys) := by
  have h := (C84_joint_array p hs hc hq s A hg ncol hn rows hrows).2
  unfold JointPrior.probArray JointPrior.prob
  rcases hr : p.lnprobArray ncol rows with e | ys
  · exact ⟨fun e' => by simp [Except.map], fun ys h => by cases h⟩
  · refine ⟨fun e' => by simp [Except.map], fun zs hz => ?_⟩
    injection hz with hz; subst hz
    rw [List.forall₂_map_right_iff]
    refine (h ys hr).imp ?_
    rintro r y ⟨h1, h2⟩
    refine ⟨fun hin => by rw [h1 hin]; rfl, fun hin => by rw [(h2 hin).1]; rfl⟩

/-- C84 (defect of the unchanged code): with a `ZDisk2D` prior for the shape, for which single rows have log
probabilities, the array method always raises `AttributeError`. -/
theorem C84_joint_disk (p : JointPrior) (radius : ℝ) (hg : p.g = .disk radius) (ncol : ℕ) (hn : 4 ≤ ncol)
    (rows : List (List ℝ)) : p.lnprobArray ncol rows = .error .attribute := by
  have hcol : ∀ i, i < 4 → column ncol rows i = .ok (rows.map fun r => r.getD i 0) := by
    intro i hi; unfold column; rw [if_pos (by omega)]
  unfold JointPrior.lnprobArray
  rw [hcol 0 (by omega), hcol 1 (by omega), hcol 2 (by omega), hcol 3 (by omega), hg]
  rfl

/-- C84: `GPriorGauss` can only be sampled.  It has no probabilities, of single shapes or of arrays, and a joint prior
with it has none either. -/
theorem C84_gauss (sigma : ℝ) :
    (∀ g1 g2, (PriorG.gauss sigma).lnprob g1 g2 = .error .runtime ∧ (PriorG.gauss sigma).prob g1 g2 = .error .runtime ∧
      (PriorG.gauss sigma).fdiff g1 g2 = .error .attribute) ∧
    (∀ g, (PriorG.gauss sigma).lnprobArray g = .error .runtime ∧ (PriorG.gauss sigma).probArray g = .error .runtime) ∧
    (∀ (p : JointPrior), p.g = .gauss sigma → ∀ (ncol : ℕ), 4 ≤ ncol → ∀ rows : List (List ℝ),
      p.lnprobArray ncol rows = .error .runtime ∧ p.probArray ncol rows = .error .runtime) := by
  refine ⟨fun _ _ => ⟨rfl, rfl, rfl⟩, fun _ => ⟨rfl, rfl⟩, ?_⟩
  intro p hg ncol hn rows
  have hcol : ∀ i, i < 4 → column ncol rows i = .ok (rows.map fun r => r.getD i 0) := by
    intro i hi; unfold column; rw [if_pos (by omega)]
  have h : p.lnprobArray ncol rows = .error .runtime := by
    unfold JointPrior.lnprobArray
    rw [hcol 0 (by omega), hcol 1 (by omega), hcol 2 (by omega), hcol 3 (by omega), hg]
    rfl
  refine ⟨h, ?_⟩
  unfold JointPrior.probArray
  rw [h]
  rfl

/-- C84 (defect of the unchanged code): `PriorCoellipSame` inherits the array method of `PriorSimpleSep`: the value
of a row is that of a simple prior with the same size and flux priors, the second size taken as the flux. -/
theorem C84_coellip_array (n : ℕ) (cen : CenPrior) (g : PriorG) (T F : Prior1) (ncol : ℕ) (rows : List (List ℝ)) :
    (JointPrior.mk (.coellip n) cen g [T] [F]).lnprobArray ncol rows =
      (JointPrior.mk .simple cen g [T] [F]).lnprobArray ncol rows := rfl

/-- C84: so that for two gaussians it is not the log probability of the row. -/
theorem C84_coellip_wrong :
    ∃ (p : JointPrior) (row : List ℝ), mkCoellip 2 ⟨0, 0, 1, 1⟩ (.ba 1 1) (.normal 0 1 none) (.one (.normal 0 1 none)) = .ok p ∧
      p.lnprobArray 8 [row] = .ok [.fin 0] ∧ p.lnprob row = .ok (.fin (-0.5)) := by
  refine ⟨⟨.coellip 2, ⟨0, 0, 1, 1⟩, .ba 1 1, [.normal 0 1 none], [.normal 0 1 none]⟩, [0, 0, 0, 0, 0, 0, 0, 1],
    rfl, ?_, ?_⟩
  · simp [JointPrior.lnprobArray, column, Except.bind, CenPrior.lnprobArray, PriorG.lnprobArray, arrayLayout,
      addArrays, addTo, Prior1.lnprobArray]
  · simp [JointPrior.lnprob, JointPrior.npars, at2, at1, parAt, Except.bind, CenPrior.lnprob, PriorG.lnprob,
      oneDTerms, sumTerms, Prior1.lnprob, List.range_succ]
    rw [if_neg (by norm_num)]
    simp

/-- C84, `get_widths`: the estimates of the first call are kept: as long as nobody writes into the array, every later
call returns what the first one did, whatever the samples; and the two shape entries are 2. -/
theorem C84_widths (stds : List ℝ) (h4 : 4 ≤ stds.length) (later : List (List ℝ)) :
    ∃ w, (later.foldl (fun c s => wStep c (.ask s)) (wStep none (.ask stds))) = some w ∧
      w.length = stds.length ∧ w[2]? = some 2 ∧ w[3]? = some 2 ∧ (∀ i, i ≠ 2 → i ≠ 3 → w[i]? = stds[i]?) := by
  refine ⟨(stds.set 2 2).set 3 2, ?_, by simp, ?_, ?_, ?_⟩
  · induction later with
    | nil => rfl
    | cons s later ih => exact ih
  · simp only [List.getElem?_set]; simp; omega
  · simp only [List.getElem?_set]; simp; omega
  · intro i h2 h3
    rw [List.getElem?_set_ne (by omega), List.getElem?_set_ne (by omega)]

/-- C84 (limitation of the unchanged code): the array returned is the one kept: a caller that writes into it changes
what later calls return. -/
theorem C84_widths_shared (w : List ℝ) (i : ℕ) (hi : i < w.length) (v : ℝ) (stds : List ℝ) :
    ∃ w', wStep (wStep (some w) (.write i v)) (.ask stds) = some w' ∧ w'[i]? = some v := by
  refine ⟨w.set i v, rfl, ?_⟩
  simp [hi]

/-- A joint prior and two rows, one with the shape outside the disk, meeting the hypotheses. -/
example : ∃ p : JointPrior, mkBD .bdf ⟨0, 0, 1, 1⟩ (.ba 0.2 1) [.lognormal 4 1 none, .normal 0.5 0.1 none]
      (.list [.flat 0 100, .erf2 0 1 100 2]) = .ok p ∧ Shaped p ∧ (∀ n, p.cls ≠ .coellip n) ∧
      (∀ q ∈ layout p, Agreeing q) ∧ p.npars = 8 ∧
      ∀ r ∈ [[0, 0, 0.1, 0, 4, 0.5, 10, 20], [0, 0, 1, 1, 4, 0.5, 10, (20 : ℝ)]], r.length = 8 := by
  refine ⟨_, rfl, rfl, by intro n; simp, ?_, rfl, by simp⟩
  simp [layout, Agreeing]
  norm_num

end Ngmix.Props
