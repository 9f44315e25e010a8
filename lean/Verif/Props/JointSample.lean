import Verif.Spec.JointSample
import Verif.Proof.JointSample
import Verif.Proof.JointDensity
import Verif.Props.SampleLaw
import Verif.Props.JointPrior

/-! # C100: samples of the joint priors -/

namespace Ngmix.Props

open Ngmix Ngmix.Spec MeasureTheory ProbabilityTheory

noncomputable section

theorem callsInOrder_ok {α : Type} (l : List α) : callsInOrder (l.map .ok) = (.ok l : Except PyErr (List α)) := by
  induction l with
  | nil => rfl
  | cons x l ih => simp only [List.map_cons, callsInOrder, Except.bind, ih]

theorem callsInOrder_inv {α : Type} (l : List (Except PyErr α)) : ∀ r, callsInOrder l = .ok r → l = r.map .ok := by
  induction l with
  | nil => intro r h; simp only [callsInOrder, Except.ok.injEq] at h; rw [← h]; rfl
  | cons x l ih =>
    intro r h
    simp only [callsInOrder] at h
    obtain ⟨v, hv, h⟩ := exBind_ok h
    obtain ⟨t, ht, h⟩ := exBind_ok h
    simp only [Except.ok.injEq] at h
    rw [← h, hv, ih t ht]; rfl

theorem returns_array (n : ℕ) (r : Except PyErr Sample) (l : List ℝ) : Returns (some n) r l ↔ r = .ok (.many l) ∧ l.length = n := by
  constructor
  · rintro ⟨v, h1, h2, h3⟩
    cases v with
    | one x => simp [ShapedAs] at h2
    | many l' =>
      simp only [valuesOf] at h3
      simp only [ShapedAs, Option.some.injEq] at h2
      subst h3
      exact ⟨h1, h2.symm⟩
  · rintro ⟨h1, h2⟩
    exact ⟨_, h1, by simp [ShapedAs, h2], rfl⟩

theorem returns_array2 (n : ℕ) (r : Except PyErr Sample2) (l : List (ℝ × ℝ)) :
    Returns2 (some n) r l ↔ r = .ok (.many l) ∧ l.length = n := by
  constructor
  · rintro ⟨v, h1, h2, h3⟩
    cases v with
    | one x => simp [ShapedAs2] at h2
    | many l' =>
      simp only [valuesOf2] at h3
      simp only [ShapedAs2, Option.some.injEq] at h2
      subst h3
      exact ⟨h1, h2.symm⟩
  · rintro ⟨h1, h2⟩
    exact ⟨_, h1, by simp [ShapedAs2, h2], rfl⟩

/-- What the parts give, put in rows. -/
theorem joint_rows (p : JointPrior) (hs : Shaped p) (hc : ∀ n, p.cls ≠ .coellip n) (nrand : Option ℕ)
    (n : ℕ) (hn : nrand.getD 1 = n) (xc xg : Fin n → ℝ × ℝ) (x : Fin (layout p).length → Fin n → ℝ) :
    p.sample nrand (.ok (.many (List.ofFn xc))) (.ok (.many (List.ofFn xg)))
      ((List.ofFn fun i => .ok (.many (List.ofFn (x i)))).take p.mids.length)
      ((List.ofFn fun i => .ok (.many (List.ofFn (x i)))).drop p.mids.length) =
      unpackRows nrand (List.ofFn fun j => List.ofFn (joinPars (xc j, xg j, fun i => x i j))) := by
  have hlay : (layout p).length = p.mids.length + p.fs.length := by
    unfold layout
    cases hcls : p.cls with
    | coellip n => exact absurd hcls (hc n)
    | _ => simp only [List.length_append]
  set V : List (List ℝ) := List.ofFn fun i => List.ofFn (x i) with hV
  have hVl : ∀ l ∈ V, l.length = n := by
    intro l hl
    rw [hV, List.mem_ofFn] at hl
    obtain ⟨i, rfl⟩ := hl
    simp
  have hVn : V.length = p.mids.length + p.fs.length := by rw [hV, List.length_ofFn, hlay]
  have e : (List.ofFn fun i => (Except.ok (Sample.many (List.ofFn (x i))) : Except PyErr Sample)) = (V.map Sample.many).map .ok := by
    rw [hV, List.map_ofFn, List.map_ofFn]; rfl
  have hcol : ∀ l ∈ V, drawColumn n (.many l) = .ok l := by
    intro l hl
    simp only [drawColumn, drawSpread]
    rw [if_pos (hVl l hl)]
  have hcols : ∀ W : List (List ℝ), (∀ l ∈ W, l ∈ V) → callsInOrder ((W.map Sample.many).map (drawColumn n)) = .ok W := by
    intro W hW
    rw [← callsInOrder_ok W, List.map_map]
    congr 1
    exact List.map_congr_left fun l hl => hcol l (hW l hl)
  have hcols2 : ∀ W : List (List ℝ), (∀ l ∈ W, l ∈ V) →
      callsInOrder (((W.map Sample.many).map (.ok : Sample → Except PyErr Sample)).map fun f => f.bind (drawColumn n)) = .ok W := by
    intro W hW
    rw [← hcols W hW, List.map_map]
    rfl
  have hc2 : ∀ y : Fin n → ℝ × ℝ, drawColumn2 n (.many (List.ofFn y)) = .ok (List.ofFn y) := by
    intro y
    simp [drawColumn2, drawSpread]
  unfold JointPrior.sample
  rw [e, ← List.map_take, ← List.map_drop, ← List.map_take, ← List.map_drop]
  simp only [Except.bind, callsInOrder_ok, hn]
  rw [hc2, hc2]
  simp only []
  rw [hcols _ fun l hl => List.mem_of_mem_take hl]
  simp only []
  have := hcols2 (V.drop p.mids.length) fun l hl => List.mem_of_mem_drop hl
  simp only [Except.bind] at this
  rw [this]
  simp only []
  have hrow : ((List.range n).map fun k => p.sampleRow ((List.ofFn xc).getD k (0, 0)) ((List.ofFn xg).getD k (0, 0))
      ((V.take p.mids.length).map fun l => l.getD k 0) ((V.drop p.mids.length).map fun l => l.getD k 0)) =
      (List.ofFn fun j => List.ofFn (joinPars (xc j, xg j, fun i => x i j))).map .ok := by
    apply List.ext_getElem
    · simp
    · intro k h1 h2
      have hk : k < n := by simpa using h1
      simp only [List.getElem_map, List.getElem_range, List.getElem_ofFn]
      rw [(C43_sample p hs hc _ _ _ _ (by simp [hVn]) (by simp [hVn])).1]
      congr 1
      rw [List.append_assoc, ← List.map_append, List.take_append_drop, hV, List.map_ofFn]
      have h4 : ∀ y : Fin n → ℝ × ℝ, (List.ofFn y).getD k (0, 0) = y ⟨k, hk⟩ := by intro y; simp [hk]
      have h5 : ((fun l : List ℝ => l.getD k 0) ∘ fun i => List.ofFn (x i)) = fun i => x i ⟨k, hk⟩ := by
        funext i; simp [hk]
      rw [h4, h4, h5]
      simp only [joinPars, List.ofFn_fin_append]
      rfl
  rw [hrow, callsInOrder_ok]

theorem joint_ok_inv (p : JointPrior) (nrand : Option ℕ) (c g : Except PyErr Sample2) (m f : List (Except PyErr Sample)) (v : JSample)
    (h : p.sample nrand c g m f = .ok v) : (∃ x, c = .ok x) ∧ (∃ x, g = .ok x) ∧ (∀ r ∈ m, ∃ x, r = .ok x) ∧ ∀ r ∈ f, ∃ x, r = .ok x := by
  unfold JointPrior.sample at h
  obtain ⟨c', hc, h⟩ := exBind_ok h
  obtain ⟨g', hg, h⟩ := exBind_ok h
  obtain ⟨m', hm, h⟩ := exBind_ok h
  obtain ⟨c2, -, h⟩ := exBind_ok h
  obtain ⟨g2, -, h⟩ := exBind_ok h
  obtain ⟨m2, -, h⟩ := exBind_ok h
  obtain ⟨f2, hf, h⟩ := exBind_ok h
  refine ⟨⟨_, hc⟩, ⟨_, hg⟩, ?_, ?_⟩
  · intro r hr
    rw [callsInOrder_inv _ _ hm, List.mem_map] at hr
    obtain ⟨x, -, hx⟩ := hr
    exact ⟨x, hx.symm⟩
  · intro r hr
    have : r.bind (drawColumn (nrand.getD 1)) ∈ f.map fun f => f.bind (drawColumn (nrand.getD 1)) := List.mem_map.2 ⟨r, hr, rfl⟩
    rw [callsInOrder_inv _ _ hf, List.mem_map] at this
    obtain ⟨x, -, hx⟩ := this
    obtain ⟨y, hy, -⟩ := exBind_ok hx.symm
    exact ⟨y, hy⟩

theorem returns_rows {k : ℕ} (nrand : Option ℕ) (n : ℕ) (hn : nrand.getD 1 = n) (R : Fin n → Fin k → ℝ) (l : List (Fin k → ℝ)) :
    ReturnsRows nrand (unpackRows nrand (List.ofFn fun j => List.ofFn (R j))) l ↔ l = List.ofFn R := by
  have hinj : Function.Injective (List.map (List.ofFn : (Fin k → ℝ) → List ℝ)) := List.map_injective_iff.2 List.ofFn_injective
  have e : (List.ofFn fun j => List.ofFn (R j)) = (List.ofFn R).map List.ofFn := by rw [List.map_ofFn]; rfl
  have hR : ReturnsRows nrand (unpackRows nrand (List.ofFn fun j => List.ofFn (R j))) (List.ofFn R) := by
    cases nrand with
    | none =>
      simp only [Option.getD_none] at hn
      subst hn
      exact ⟨.one (List.ofFn (R 0)), by simp [unpackRows], rfl, by simp [rowsOf]⟩
    | some m =>
      simp only [Option.getD_some] at hn
      subst hn
      exact ⟨.many _, rfl, by simp [ShapedRows], by rw [← e]; rfl⟩
  constructor
  · rintro ⟨v, h1, -, h3⟩
    obtain ⟨v', h1', -, h3'⟩ := hR
    rw [h1] at h1'
    simp only [Except.ok.injEq] at h1'
    subst h1'
    exact hinj (h3.symm.trans h3')
  · rintro rfl; exact hR

/-- C100: a joint prior asked for values returns rows that are independent and have a density proportional to the exponential
of its log probability, if each part does (limited to a set, when its sampler is), the parts use independent sequences of
deviates and each returns as many values as it is asked for. -/
theorem C100_joint (p : JointPrior) (hs : Shaped p) (hc : ∀ n, p.cls ≠ .coellip n) (nrand : Option ℕ)
    {Ωc Ωg : Type} {Ω : Fin (layout p).length → Type} [MeasurableSpace Ωc] [MeasurableSpace Ωg] [∀ i, MeasurableSpace (Ω i)]
    (Pc : Measure Ωc) (Pg : Measure Ωg) (P : ∀ i, Measure (Ω i)) [IsProbabilityMeasure Pc] [IsProbabilityMeasure Pg]
    [∀ i, IsProbabilityMeasure (P i)]
    (rc : Ωc → Except PyErr Sample2) (rg : Ωg → Except PyErr Sample2) (r : ∀ i, Ω i → Except PyErr Sample)
    (Sg : Set (ℝ × ℝ)) (hSg : MeasurableSet Sg) (S : Fin (layout p).length → Set ℝ) (hS : ∀ i, MeasurableSet (S i))
    (nc : Sized2 (nrand.getD 1) rc) (ng : Sized2 (nrand.getD 1) rg) (nr : ∀ i, Sized (nrand.getD 1) (r i))
    (lc : Samples Pc (fun ω => Returns2 (some (nrand.getD 1)) (rc ω)) (some (nrand.getD 1))
      fun c : ℝ × ℝ => .ok (.fin (p.cen.lnprob c.1 c.2)))
    (lg : Samples Pg (fun ω => Returns2 (some (nrand.getD 1)) (rg ω)) (some (nrand.getD 1))
      (cutTo Sg fun g : ℝ × ℝ => p.g.lnprob g.1 g.2))
    (lr : ∀ i, Samples (P i) (fun ω => Returns (some (nrand.getD 1)) (r i ω)) (some (nrand.getD 1))
      (cutTo (S i) ((layout p).get i).lnprob)) :
    Samples (Pc.prod (Pg.prod (Measure.pi P)))
      (fun ω => ReturnsRows nrand (p.sample nrand (rc ω.1) (rg ω.2.1)
        ((List.ofFn fun i => r i (ω.2.2 i)).take p.mids.length) ((List.ofFn fun i => r i (ω.2.2 i)).drop p.mids.length))) nrand
      (cutTo {x : Fin (4 + (layout p).length) → ℝ | (x (Fin.castAdd _ 2), x (Fin.castAdd _ 3)) ∈ Sg ∧
        ∀ i : Fin (layout p).length, x (Fin.natAdd 4 i) ∈ S i} fun x => p.lnprob (List.ofFn x)) := by
  obtain ⟨νc, ⟨ic, kc, hkc, dc⟩, jc⟩ := lc
  obtain ⟨νg, ⟨ig, kg, hkg, dg⟩, jg⟩ := lg
  choose ν hν using lr
  choose i' k hk d using fun i => (hν i).1
  have j := fun i => (hν i).2
  simp only [Option.getD_some] at jc jg j
  generalize hn : nrand.getD 1 = n at *
  obtain ⟨Gc, Xc, mGc, nGc, mXc, oc, pc⟩ := indep_vector jc
  obtain ⟨Gg, Xg, mGg, nGg, mXg, og, pg⟩ := indep_vector jg
  choose G X mG nG mX o px using fun i => indep_vector (j i)
  have Ec : ∀ ω, ω ∈ Gc → rc ω = .ok (.many (List.ofFn (Xc ω))) := fun ω h =>
    ((returns_array2 n _ _).1 ((oc ω _ (by simp)).2 ⟨h, rfl⟩)).1
  have Eg : ∀ ω, ω ∈ Gg → rg ω = .ok (.many (List.ofFn (Xg ω))) := fun ω h =>
    ((returns_array2 n _ _).1 ((og ω _ (by simp)).2 ⟨h, rfl⟩)).1
  have Er : ∀ i ω, ω ∈ G i → r i ω = .ok (.many (List.ofFn (X i ω))) := fun i ω h =>
    ((returns_array n _ _).1 ((o i ω _ (by simp)).2 ⟨h, rfl⟩)).1
  have Ic : ∀ ω v, rc ω = .ok v → ω ∈ Gc := by
    intro ω v h
    have := nc ω v h
    cases v with
    | one x => simp [ShapedAs2] at this
    | many l =>
      simp only [ShapedAs2, Option.some.injEq] at this
      exact ((oc ω l this.symm).1 ((returns_array2 n _ _).2 ⟨h, this.symm⟩)).1
  have Ig : ∀ ω v, rg ω = .ok v → ω ∈ Gg := by
    intro ω v h
    have := ng ω v h
    cases v with
    | one x => simp [ShapedAs2] at this
    | many l =>
      simp only [ShapedAs2, Option.some.injEq] at this
      exact ((og ω l this.symm).1 ((returns_array2 n _ _).2 ⟨h, this.symm⟩)).1
  have Ir : ∀ i ω v, r i ω = .ok v → ω ∈ G i := by
    intro i ω v h
    have := nr i ω v h
    cases v with
    | one x => simp [ShapedAs] at this
    | many l =>
      simp only [ShapedAs, Option.some.injEq] at this
      exact ((o i ω l this.symm).1 ((returns_array n _ _).2 ⟨h, this.symm⟩)).1
  obtain ⟨mrow, lrow⟩ := rows_law mXc mXg mX pc pg px (joinPars (m := (layout p).length)) joinPars_measurable
  have hprob : IsProbabilityMeasure ((νc.prod (νg.prod (Measure.pi ν))).map (joinPars (m := (layout p).length))) :=
    Measure.isProbabilityMeasure_map joinPars_measurable.aemeasurable
  refine ⟨(νc.prod (νg.prod (Measure.pi ν))).map joinPars, ⟨hprob, kc * (kg * ∏ i, k i),
    mul_pos hkc (mul_pos hkg (Finset.prod_pos fun i _ => hk i)), ?_⟩, ?_⟩
  · have mc : Measurable fun x : ℝ × ℝ => ENNReal.ofReal kc * densityOf (fun c : ℝ × ℝ => .ok (.fin (p.cen.lnprob c.1 c.2))) x :=
      (cen_density_measurable p.cen).const_mul _
    have mg : Measurable fun x : ℝ × ℝ => ENNReal.ofReal kg * densityOf (cutTo Sg fun g : ℝ × ℝ => p.g.lnprob g.1 g.2) x := by
      refine Measurable.const_mul ?_ _
      rw [show densityOf (cutTo Sg fun g : ℝ × ℝ => p.g.lnprob g.1 g.2) = _ from funext fun x => cutTo_density _ _ x]
      exact (priorG_density_measurable p.g).indicator hSg
    have mr : ∀ i, Measurable fun x : ℝ => ENNReal.ofReal (k i) * densityOf (cutTo (S i) ((layout p).get i).lnprob) x := by
      intro i
      refine Measurable.const_mul ?_ _
      rw [show densityOf (cutTo (S i) ((layout p).get i).lnprob) = _ from funext fun x => cutTo_density _ _ x]
      exact (prior1_density_measurable _).indicator (hS i)
    have s1 : SFinite (volume.withDensity fun x : ℝ × ℝ =>
        ENNReal.ofReal kc * densityOf (fun c : ℝ × ℝ => .ok (.fin (p.cen.lnprob c.1 c.2))) x) := by rw [← dc]; infer_instance
    have s2 : SFinite (volume.withDensity fun x : ℝ × ℝ =>
        ENNReal.ofReal kg * densityOf (cutTo Sg fun g : ℝ × ℝ => p.g.lnprob g.1 g.2) x) := by rw [← dg]; infer_instance
    have s3 : ∀ i, SigmaFinite (volume.withDensity fun x : ℝ =>
        ENNReal.ofReal (k i) * densityOf (cutTo (S i) ((layout p).get i).lnprob) x) := by intro i; rw [← d i]; infer_instance
    have hj := join_density _ _ _ mc mg mr
    rw [← dc, ← dg] at hj
    simp only [← d] at hj
    rw [hj]
    congr 1
    funext x
    have hcut : ∀ (T : Set (Fin (4 + (layout p).length) → ℝ)) (f : (Fin (4 + (layout p).length) → ℝ) → Except PyErr Fl),
        densityOf (cutTo T f) x = T.indicator 1 x * densityOf f x := by
      intro T f
      rw [cutTo_density]
      by_cases h : x ∈ T <;> simp [h]
    rw [hcut, joint_density p hs hc]
    simp only [cutTo_density]
    rw [Finset.prod_mul_distrib, ENNReal.ofReal_mul hkc.le, ENNReal.ofReal_mul hkg.le, ENNReal.ofReal_prod_of_nonneg fun i _ => (hk i).le]
    by_cases h : (x (Fin.castAdd _ 2), x (Fin.castAdd _ 3)) ∈ Sg ∧ ∀ i : Fin (layout p).length, x (Fin.natAdd 4 i) ∈ S i
    · rw [Set.indicator_of_mem (s := {x : Fin (4 + (layout p).length) → ℝ | _}) (by exact h), Set.indicator_of_mem h.1]
      rw [Finset.prod_congr rfl fun i _ => Set.indicator_of_mem (h.2 i) _]
      simp only [Pi.one_apply, one_mul]
      generalize (∏ i, densityOf ((layout p).get i).lnprob (x (Fin.natAdd 4 i))) = A
      generalize (∏ i, ENNReal.ofReal (k i)) = B
      ring
    · rw [Set.indicator_of_notMem (s := {x : Fin (4 + (layout p).length) → ℝ | _}) (by exact h), zero_mul, mul_zero]
      by_cases h1 : (x (Fin.castAdd _ 2), x (Fin.castAdd _ 3)) ∈ Sg
      · have h2 : ∃ i : Fin (layout p).length, x (Fin.natAdd 4 i) ∉ S i := by
          by_contra h2; push Not at h2; exact h ⟨h1, h2⟩
        obtain ⟨i, hi⟩ := h2
        have hz : ∏ i, (S i).indicator (densityOf ((layout p).get i).lnprob) (x (Fin.natAdd 4 i)) = 0 :=
          Finset.prod_eq_zero (Finset.mem_univ i) (Set.indicator_of_notMem hi _)
        rw [hz]
        simp
      · rw [Set.indicator_of_notMem h1]
        simp
  · rw [hn]
    refine indep_of_vector (Gc ×ˢ (Gg ×ˢ Set.univ.pi G)) _ (mGc.prod (mGg.prod (MeasurableSet.univ_pi mG))) ?_ mrow ?_ lrow
    · have one : ∀ {Ω : Type} [MeasurableSpace Ω] {P : Measure Ω} [IsProbabilityMeasure P] {A : Set Ω}, MeasurableSet A → P Aᶜ = 0 →
          P A = 1 := fun hA h => (prob_compl_eq_zero_iff hA).1 h
      rw [prob_compl_eq_zero_iff (mGc.prod (mGg.prod (MeasurableSet.univ_pi mG))), Measure.prod_prod, Measure.prod_prod, Measure.pi_pi,
        one mGc nGc, one mGg nGg, Finset.prod_congr rfl fun i _ => one (mG i) (nG i)]
      simp
    · intro ω l
      constructor
      · intro h
        obtain ⟨v, hv, -⟩ := id h
        obtain ⟨⟨v1, h1⟩, ⟨v2, h2⟩, h3, h4⟩ := joint_ok_inv _ _ _ _ _ _ _ hv
        have hG : ω ∈ Gc ×ˢ (Gg ×ˢ Set.univ.pi G) := by
          refine ⟨Ic _ _ h1, Ig _ _ h2, fun i _ => ?_⟩
          have hi : r i (ω.2.2 i) ∈ (List.ofFn fun i => r i (ω.2.2 i)).take p.mids.length ++
              (List.ofFn fun i => r i (ω.2.2 i)).drop p.mids.length := by
            rw [List.take_append_drop, List.mem_ofFn]; exact ⟨i, rfl⟩
          rcases List.mem_append.1 hi with hi | hi
          · obtain ⟨v, hv⟩ := h3 _ hi; exact Ir i _ v hv
          · obtain ⟨v, hv⟩ := h4 _ hi; exact Ir i _ v hv
        refine ⟨hG, ?_⟩
        rw [Ec _ hG.1, Eg _ hG.2.1, show (fun i => r i (ω.2.2 i)) = _ from funext fun i => Er i _ (hG.2.2 i trivial),
          joint_rows p hs hc nrand n hn, returns_rows nrand n hn] at h
        exact h
      · rintro ⟨hG, rfl⟩
        rw [Ec _ hG.1, Eg _ hG.2.1, show (fun i => r i (ω.2.2 i)) = _ from funext fun i => Er i _ (hG.2.2 i trivial),
          joint_rows p hs hc nrand n hn, returns_rows nrand n hn]

/-! ## Cases -/

theorem center_sized (p : CenPrior) (n : ℕ) : Sized2 n (p.sample (some n)) := by
  intro ω v h
  simp only [CenPrior.sample] at h
  split at h
  · simp at h
  · simp only [Except.ok.injEq] at h
    rw [← h]; simp [ShapedAs2]

/-- A prior with a flat size and a log normal flux. -/
def caseJoint : JointPrior := ⟨.simple, ⟨0, 0, 0.1, 0.2⟩, .disk 0.8, [.flat (-1) 2], [.lognormal 10 3 none]⟩

theorem cutTo_univ {α : Type} (f : α → Except PyErr Fl) : cutTo Set.univ f = f := by
  funext x; simp [cutTo]

instance stream_probability {α : Type} [MeasurableSpace α] (μ : Measure α) [IsProbabilityMeasure μ] : IsProbabilityMeasure (stream μ) := by
  unfold stream; infer_instance

example (nrand : Option ℕ) :
    Samples ((stream (stdNormal.prod stdNormal)).prod ((stream (uniform01.prod uniform01)).prod
      (Measure.pi fun i : Fin (layout caseJoint).length => stream (if i.1 = 0 then uniform01 else stdNormal))))
      (fun ω => ReturnsRows nrand (caseJoint.sample nrand (caseJoint.cen.sample (some (nrand.getD 1)) ω.1)
        (diskSample2d 0.8 (some (nrand.getD 1)) ω.2.1)
        [flatSample (-1) 2 (some (nrand.getD 1)) (ω.2.2 ⟨0, by decide⟩)]
        [.ok (lognormalSample 10 3 none (some (nrand.getD 1)) (ω.2.2 ⟨1, by decide⟩))])) nrand
      (fun x : Fin (4 + (layout caseJoint).length) → ℝ => caseJoint.lnprob (List.ofFn x)) := by
  have hprob : ∀ i : Fin (layout caseJoint).length, IsProbabilityMeasure (if i.1 = 0 then uniform01 else stdNormal) := by
    intro i; split <;> infer_instance
  have h := C100_joint caseJoint rfl (by intro n h; cases h) nrand (stream (stdNormal.prod stdNormal)) (stream (uniform01.prod uniform01))
    (fun i => stream (if i.1 = 0 then uniform01 else stdNormal)) (caseJoint.cen.sample (some (nrand.getD 1)))
    (diskSample2d 0.8 (some (nrand.getD 1)))
    (fun i ω => if i.1 = 0 then flatSample (-1) 2 (some (nrand.getD 1)) ω else .ok (lognormalSample 10 3 none (some (nrand.getD 1)) ω))
    Set.univ MeasurableSet.univ (fun _ => Set.univ) (fun _ => MeasurableSet.univ)
    (center_sized _ _)
    (by
      intro ω v h
      simp only [diskSample2d, unpack2, Except.ok.injEq] at h
      rw [← h]; simp [ShapedAs2])
    (by
      intro i ω v h
      simp only [] at h
      by_cases hi : i.1 = 0
      · rw [if_pos hi] at h
        simp only [flatSample, Except.ok.injEq] at h
        rw [← h]; simp [ShapedAs]
      · rw [if_neg hi] at h
        simp only [lognormalSample, sized, Except.ok.injEq] at h
        rw [← h]; simp [ShapedAs])
    (C100_center _ (by norm_num [caseJoint]) (by norm_num [caseJoint]) _)
    (by rw [cutTo_univ]; exact C100_disk 0.8 (by norm_num) _)
    (by
      intro i
      rw [cutTo_univ]
      obtain ⟨i, hi⟩ := i
      have hi2 : i < 2 := hi
      interval_cases i
      · exact C100_flat (-1) 2 (by norm_num) _
      · exact C100_lognormal 10 3 (by norm_num) (by norm_num) none _)
  have hset : {x : Fin (4 + (layout caseJoint).length) → ℝ | (x (Fin.castAdd _ 2), x (Fin.castAdd _ 3)) ∈ (Set.univ : Set (ℝ × ℝ)) ∧
      ∀ i : Fin (layout caseJoint).length, x (Fin.natAdd 4 i) ∈ (Set.univ : Set ℝ)} = Set.univ := by simp
  rw [hset, cutTo_univ] at h
  exact h

end

end Ngmix.Props
