import Verif.Proof.JointPrior
import Verif.Proof.SampleLaws4

/-! # Densities of the joint priors -/

namespace Ngmix.Props

open Ngmix Ngmix.Spec MeasureTheory ProbabilityTheory

noncomputable section

variable {α : Type}

/-- The exponential of a returned log probability. -/
def dens : Except PyErr Fl → ENNReal
  | .ok (.fin v) => ENNReal.ofReal (Real.exp v)
  | _ => 0

theorem densityOf_dens (f : α → Except PyErr Fl) (x : α) : densityOf f x = dens (f x) := by
  unfold densityOf dens
  rcases f x with e | v <;> rfl

theorem dens_add (a b : Fl) : dens (.ok (a + b)) = dens (.ok a) * dens (.ok b) := by
  cases a <;> cases b <;> simp only [HAdd.hAdd, Add.add, Fl.add, dens, zero_mul, mul_zero]
  rw [← ENNReal.ofReal_mul (Real.exp_pos _).le, ← Real.exp_add]
  rfl

theorem dens_sumTerms (ts : List (Except PyErr Fl)) : ∀ acc : Fl,
    dens (JointPrior.sumTerms ts acc) = dens (.ok acc) * (ts.map dens).prod := by
  induction ts with
  | nil => intro acc; simp [JointPrior.sumTerms]
  | cons t ts ih =>
    intro acc
    simp only [JointPrior.sumTerms, List.map_cons, List.prod_cons]
    cases t with
    | error e => simp [Except.bind, dens]
    | ok v =>
      simp only [Except.bind]
      rw [ih, dens_add, mul_assoc]

/-- The density of a joint prior is the product of those of its parts. -/
theorem joint_density (p : JointPrior) (hs : Shaped p) (hc : ∀ n, p.cls ≠ .coellip n) (x : Fin (4 + (layout p).length) → ℝ) :
    densityOf (fun x : Fin (4 + (layout p).length) → ℝ => p.lnprob (List.ofFn x)) x =
      densityOf (fun c : ℝ × ℝ => .ok (.fin (p.cen.lnprob c.1 c.2))) (x (Fin.castAdd _ 0), x (Fin.castAdd _ 1)) *
      (densityOf (fun g : ℝ × ℝ => p.g.lnprob g.1 g.2) (x (Fin.castAdd _ 2), x (Fin.castAdd _ 3)) *
        ∏ i : Fin (layout p).length, densityOf ((layout p).get i).lnprob (x (Fin.natAdd 4 i))) := by
  simp only [densityOf_dens]
  have hpar : ∀ k : Fin (4 + (layout p).length), JointPrior.parAt (List.ofFn x) k.1 = .ok (x k) := by
    intro k; simp [JointPrior.parAt]
  have h0 := hpar (Fin.castAdd _ 0)
  have h1 := hpar (Fin.castAdd _ 1)
  have h2 := hpar (Fin.castAdd _ 2)
  have h3 := hpar (Fin.castAdd _ 3)
  simp only [Fin.val_castAdd] at h0 h1 h2 h3
  have hgo : p.lnprob (List.ofFn x) = (Except.ok (.fin (p.cen.lnprob (x (Fin.castAdd _ 0)) (x (Fin.castAdd _ 1))))).bind fun c =>
      (p.g.lnprob (x (Fin.castAdd _ 2)) (x (Fin.castAdd _ 3))).bind fun gl =>
        JointPrior.sumTerms (JointPrior.oneDTerms Prior1.lnprob p (List.ofFn x)) (c + gl) := by
    have e : p.lnprob (List.ofFn x) = (JointPrior.at2 (fun x y => .ok (.fin (p.cen.lnprob x y))) (List.ofFn x) 0 1).bind fun c =>
        (JointPrior.at2 p.g.lnprob (List.ofFn x) 2 3).bind fun gl =>
        JointPrior.sumTerms (JointPrior.oneDTerms Prior1.lnprob p (List.ofFn x)) (c + gl) := by
      unfold JointPrior.lnprob
      cases hcls : p.cls with
      | coellip n => exact absurd hcls (hc n)
      | _ => rfl
    rw [e]
    simp only [JointPrior.at2]
    have h0' : JointPrior.parAt (List.ofFn x) 0 = .ok (x (Fin.castAdd _ 0)) := h0
    have h1' : JointPrior.parAt (List.ofFn x) 1 = .ok (x (Fin.castAdd _ 1)) := h1
    have h2' : JointPrior.parAt (List.ofFn x) 2 = .ok (x (Fin.castAdd _ 2)) := h2
    have h3' : JointPrior.parAt (List.ofFn x) 3 = .ok (x (Fin.castAdd _ 3)) := h3
    rw [h0', h1', h2', h3']
    rfl
  rw [hgo]
  have hts : ((JointPrior.oneDTerms Prior1.lnprob p (List.ofFn x)).map dens).prod =
      ∏ i : Fin (layout p).length, dens (((layout p).get i).lnprob (x (Fin.natAdd 4 i))) := by
    rw [oneDTerms_layout _ p hs, ← List.prod_ofFn]
    congr 1
    apply List.ext_getElem
    · simp
    · intro i h1 h2
      have hi : i < (layout p).length := by simpa using h2
      have := hpar (Fin.natAdd 4 ⟨i, hi⟩)
      simp only [Fin.val_natAdd] at this
      simp [JointPrior.at1, this, Except.bind]
  show dens ((p.g.lnprob _ _).bind _) = _
  generalize hgl : p.g.lnprob (x (Fin.castAdd _ 2)) (x (Fin.castAdd _ 3)) = gl
  cases gl with
  | error e => simp [Except.bind, dens]
  | ok v =>
    simp only [Except.bind]
    rw [dens_sumTerms, dens_add, hts, mul_assoc]

/-! ### The densities are measurable functions -/

/-- The error function of a quotient with a width that may be zero. -/
def erfQ (w y : ℝ) : ℝ := open Classical in if w = 0 then (if 0 < y then 1 else -1) else erf (y / w)

theorem erfFl_div (w y : ℝ) : erfFl (.fin y / .fin w) = open Classical in if w = 0 ∧ y = 0 then .nan else .fin (erfQ w y) := by
  by_cases hw : w = 0
  · subst hw
    rw [Fl.fin_div_zero, Fl.infOf]
    rcases lt_trichotomy y 0 with h | h | h
    · rw [if_neg h.ne, if_neg (not_lt.2 h.le), if_neg (fun hh => h.ne hh.2), erfQ, if_pos rfl, if_neg (not_lt.2 h.le)]; rfl
    · rw [if_pos h, if_pos ⟨rfl, h⟩]; rfl
    · rw [if_neg h.ne', if_pos h, if_neg (fun hh => h.ne' hh.2), erfQ, if_pos rfl, if_pos h]; rfl
  · rw [Fl.fin_div _ _ hw, if_neg (fun hh => hw hh.1), erfQ, if_neg hw]; rfl

theorem erfQ_measurable (w : ℝ) : Measurable (erfQ w) := by
  unfold erfQ
  by_cases hw : w = 0
  · simp only [hw, if_true]
    exact Measurable.ite measurableSet_Ioi measurable_const measurable_const
  · simp only [hw, if_false]
    exact erf_continuous.measurable.comp (by fun_prop)

theorem erf_density_any (a wa b wb x : ℝ) : densityOf (Prior1.erf2 a wa b wb).lnprob x =
    open Classical in if (wb = 0 ∧ b - x = 0) ∨ (wa = 0 ∧ x - a = 0) then 0
      else ENNReal.ofReal (0.5 * erfQ wb (b - x) + 0.5 * erfQ wa (x - a)) := by
  have hnan : ∀ P : Fl, Prior1.erfProb a wa b wb x = P → densityOf (Prior1.erf2 a wa b wb).lnprob x =
      dens (.ok (open Classical in if Fl.lt P (.fin 0) ∨ P.isZero then .ninf else logFl P)) := by
    intro P hP
    rw [densityOf_dens]
    simp only [Prior1.lnprob, Prior1.erfLnprob]
    rw [hP]
  by_cases h1 : wb = 0 ∧ b - x = 0
  · rw [if_pos (Or.inl h1), hnan .nan (by
      unfold Prior1.erfProb
      rw [erfFl_div, if_pos h1]
      have : ∀ y : Fl, Fl.fin 0.5 * Fl.nan + y = Fl.nan := by intro y; cases y <;> rfl
      rw [this])]
    simp [Fl.lt, Fl.isZero, logFl, dens]
  · by_cases h2 : wa = 0 ∧ x - a = 0
    · rw [if_pos (Or.inr h2), hnan .nan (by
        unfold Prior1.erfProb
        rw [erfFl_div, erfFl_div, if_neg h1, if_pos h2]
        rfl)]
      simp [Fl.lt, Fl.isZero, logFl, dens]
    · rw [if_neg (by tauto), hnan (.fin (0.5 * erfQ wb (b - x) + 0.5 * erfQ wa (x - a))) (by
        unfold Prior1.erfProb
        rw [erfFl_div, erfFl_div, if_neg h1, if_neg h2]
        rfl)]
      generalize 0.5 * erfQ wb (b - x) + 0.5 * erfQ wa (x - a) = P
      have hlt : Fl.lt (.fin P) (.fin 0) ↔ P < 0 := Iff.rfl
      have hz : (Fl.fin P).isZero ↔ P = 0 := Iff.rfl
      rcases lt_trichotomy P 0 with h | h | h
      · rw [if_pos (Or.inl (hlt.2 h)), ENNReal.ofReal_of_nonpos h.le]; rfl
      · rw [if_pos (Or.inr (hz.2 h)), h, ENNReal.ofReal_zero]; rfl
      · rw [if_neg (by rw [hlt, hz]; push Not; exact ⟨h.le, h.ne'⟩)]
        have : logFl (.fin P) = .fin (Real.log P) := by
          simp only [logFl]
          rw [if_neg (not_lt.2 h.le), if_neg h.ne']
        rw [this]
        simp only [dens, Real.exp_log h]

theorem lognormal_density_any (mean sigma : ℝ) (shift : Option ℝ) (x : ℝ) : densityOf (Prior1.lognormal mean sigma shift).lnprob x =
    open Classical in if Prior1.lnLogvar mean sigma = 0 ∨ x - shift.getD 0 ≤ 0 then 0
      else ENNReal.ofReal (Real.exp (-0.5 * (1 / Prior1.lnLogvar mean sigma * (Real.log (x - shift.getD 0) - Prior1.lnLogmean mean sigma) ^ 2) -
        Real.log (x - shift.getD 0) - (-0.5 * (1 / Prior1.lnLogvar mean sigma * (Prior1.lnLogMode mean sigma - Prior1.lnLogmean mean sigma) ^ 2) -
          Prior1.lnLogMode mean sigma))) := by
  have hv : Prior1.lognormalLnprob mean sigma shift x = Prior1.lognormalLnprob mean sigma none (x - shift.getD 0) := by
    cases shift <;> simp [Prior1.lognormalLnprob]
  unfold densityOf
  simp only [Prior1.lnprob, hv]
  simp only [Prior1.lognormalLnprob]
  by_cases h2 : x - shift.getD 0 ≤ 0
  · rw [if_pos h2, if_pos (Or.inr h2)]
  · rw [if_neg h2]
    by_cases h1 : Prior1.lnLogvar mean sigma = 0
    · rw [if_pos (Or.inl h1)]
      have hm : Prior1.lnProbMax mean sigma = .nan := by
        unfold Prior1.lnProbMax Prior1.lnLogivar
        rw [h1, Fl.fin_div_zero]
        have : Prior1.lnLogMode mean sigma - Prior1.lnLogmean mean sigma = 0 := by unfold Prior1.lnLogMode; rw [h1]; ring
        simp only [this]
        have h1 : Fl.infOf 1 = .pinf := by simp [Fl.infOf]
        have h0 : (Fl.pinf * Fl.fin (0 ^ 2)) = .nan := by
          show Fl.infOf _ = _
          simp [Fl.infOf]
        rw [h1, h0]
        rfl
      rw [hm]
      have : ∀ y : Fl, y - Fl.nan = Fl.nan := by intro y; cases y <;> rfl
      rw [this]
    · rw [if_neg (by tauto)]
      have hl : Prior1.lnLogivar mean sigma = .fin (1 / Prior1.lnLogvar mean sigma) := by
        unfold Prior1.lnLogivar; rw [Fl.fin_div _ _ h1]
      simp only [Prior1.lnProbMax, hl, Fl.fin_mul, Fl.fin_sub]

theorem prior1_density_measurable (q : Prior1) : Measurable (densityOf q.lnprob) := by
  cases q with
  | flat lo hi =>
    have : densityOf (Prior1.flat lo hi).lnprob = fun x => open Classical in if x < lo ∨ x > hi then 0 else 1 := by
      funext x
      unfold densityOf
      simp only [Prior1.lnprob]
      by_cases h : x < lo ∨ x > hi
      · rw [if_pos h, if_pos h]
      · rw [if_neg h, if_neg h]; simp
    rw [this]
    exact Measurable.ite (measurableSet_Iio.union measurableSet_Ioi) measurable_const measurable_const
  | erf2 a wa b wb =>
    have : densityOf (Prior1.erf2 a wa b wb).lnprob = _ := funext fun x => erf_density_any a wa b wb x
    rw [this]
    refine Measurable.ite ?_ measurable_const ?_
    · refine MeasurableSet.union (MeasurableSet.inter (MeasurableSet.const _) ?_) (MeasurableSet.inter (MeasurableSet.const _) ?_)
      · exact measurableSet_eq_fun (by fun_prop) measurable_const
      · exact measurableSet_eq_fun (by fun_prop) measurable_const
    · refine ENNReal.measurable_ofReal.comp ?_
      exact (((erfQ_measurable wb).comp (measurable_const.sub measurable_id)).const_mul _).add
        (((erfQ_measurable wa).comp (measurable_id.sub measurable_const)).const_mul _)
  | normal mean sigma b =>
    have : densityOf (Prior1.normal mean sigma b).lnprob = fun x => ENNReal.ofReal (Real.exp (-0.5 * (mean - x) * (mean - x) * (1 / sigma ^ 2))) := rfl
    rw [this]; fun_prop
  | lmBounds a b => exact measurable_const
  | bounded a b => exact measurable_const
  | lognormal mean sigma shift =>
    have : densityOf (Prior1.lognormal mean sigma shift).lnprob = _ := funext fun x => lognormal_density_any mean sigma shift x
    rw [this]
    refine Measurable.ite ?_ measurable_const ?_
    · have h : Measurable fun x : ℝ => x - shift.getD 0 := by fun_prop
      exact MeasurableSet.union (MeasurableSet.const _) (measurableSet_le h measurable_const)
    · fun_prop
  | sinh a b => exact measurable_const
  | trunc mean sigma lo hi =>
    have : densityOf (Prior1.trunc mean sigma lo hi).lnprob = fun x => open Classical in if x < lo ∨ x > hi then 0 else
        ENNReal.ofReal (Real.exp (-0.5 * (x - mean) * (x - mean) * (1 / sigma ^ 2))) := by
      funext x
      unfold densityOf
      simp only [Prior1.lnprob]
      by_cases h : x < lo ∨ x > hi
      · rw [if_pos h, if_pos h]
      · rw [if_neg h, if_neg h]
    rw [this]
    exact Measurable.ite (measurableSet_Iio.union measurableSet_Ioi) measurable_const (by fun_prop)

theorem priorG_density_measurable (q : PriorG) : Measurable (densityOf fun g : ℝ × ℝ => q.lnprob g.1 g.2) := by
  cases q with
  | ba sigma A =>
    have : (densityOf fun g : ℝ × ℝ => (PriorG.ba sigma A).lnprob g.1 g.2) = fun g => open Classical in
        if 1 - (g.1 * g.1 + g.2 * g.2) ≤ 0 then 0 else
          ENNReal.ofReal (Real.exp (2 * Real.log (1 - (g.1 * g.1 + g.2 * g.2)) - 0.5 * (g.1 * g.1 + g.2 * g.2) * (1 / sigma ^ 2))) := by
      funext g
      unfold densityOf
      simp only [PriorG.lnprob]
      by_cases h : 1 - (g.1 * g.1 + g.2 * g.2) ≤ 0
      · rw [if_pos h, if_pos h]
      · rw [if_neg h, if_neg h]
    rw [this]
    exact Measurable.ite (measurableSet_le (by fun_prop) measurable_const) measurable_const (by fun_prop)
  | gauss sigma => exact measurable_const
  | disk radius =>
    have : (densityOf fun g : ℝ × ℝ => (PriorG.disk radius).lnprob g.1 g.2) = fun g => open Classical in
        if g.1 ^ 2 + g.2 ^ 2 ≥ radius ^ 2 then 0 else 1 := by
      funext g
      unfold densityOf
      simp only [PriorG.lnprob]
      by_cases h : g.1 ^ 2 + g.2 ^ 2 ≥ radius ^ 2
      · rw [if_pos h, if_pos h]
      · rw [if_neg h, if_neg h]; simp
    rw [this]
    exact Measurable.ite (measurableSet_le measurable_const (by fun_prop)) measurable_const measurable_const

theorem cen_density_measurable (p : CenPrior) : Measurable (densityOf fun x : ℝ × ℝ => .ok (.fin (p.lnprob x.1 x.2))) := by
  have : (densityOf fun x : ℝ × ℝ => .ok (.fin (p.lnprob x.1 x.2))) = fun x => ENNReal.ofReal (Real.exp (p.lnprob x.1 x.2)) := rfl
  rw [this]
  unfold CenPrior.lnprob
  fun_prop

end

end Ngmix.Props
