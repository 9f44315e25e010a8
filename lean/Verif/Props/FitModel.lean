import Verif.Proof.FitEval
import Verif.Props.JointPrior

/-!
# The objective of the fits (C41, C47, C67, C68)
-/

namespace Ngmix.Props

open Ngmix Ngmix.Spec

noncomputable section

/-- C47: the parameters are the shared ones, then one flux per band; the selection for a band is the shared
ones and the flux of that band, as many numbers as the model has; a band that does not exist is refused.
(Python's negative bands are not modelled.) -/
theorem C47_band_pars (name : String) (n : ℕ) (hn : getModelNpars (.str name) = .ok n) (hname : name ≠ "bdc")
    (shared fluxes : List ℝ) (hs : shared.length = n - 1) (band : ℕ) :
    (∀ h : band < fluxes.length, getBandPars name (shared ++ fluxes) band = .ok (shared ++ [fluxes[band]]) ∧
      (shared ++ [fluxes[band]]).length = n) ∧
    (fluxes.length ≤ band → getBandPars name (shared ++ fluxes) band = .error .index) := by
  have key : ∀ k : ℕ, shared.length = k → takeBand k (shared ++ fluxes) band =
      match fluxes[band]? with
      | some F => .ok (shared ++ [F])
      | none => .error .index := by
    intro k hk
    unfold takeBand
    rw [if_neg (by rw [List.length_append]; omega), ← hk, List.getElem?_append_right (by omega),
      Nat.add_sub_cancel_left, List.take_left]
    cases fluxes[band]? <;> rfl
  have hget : getBandPars name (shared ++ fluxes) band = match fluxes[band]? with
      | some F => .ok (shared ++ [F])
      | none => .error .index := by
    unfold getBandPars
    rw [hn]
    simp only [Except.bind]
    rcases npars_names hn with ⟨rfl, rfl⟩ | ⟨rfl, rfl⟩ | ⟨rfl, rfl⟩ | ⟨rfl, rfl⟩ | ⟨rfl, rfl⟩ | ⟨rfl, rfl⟩ |
      ⟨rfl, rfl⟩ | ⟨rfl, rfl⟩
    case inr.inr.inr.inr.inr.inr.inr => exact absurd rfl hname
    case inr.inr.inr.inr.inr.inl => simp [key 7 (by omega)]
    case inr.inr.inr.inr.inr.inr.inl => simp [key 6 (by omega)]
    all_goals
      simp only [String.reduceEq, if_false, key 5 (by omega)]
      cases fluxes[band]? <;> simp [Except.map]
  refine ⟨fun h => ⟨?_, ?_⟩, fun h => ?_⟩
  · rw [hget, List.getElem?_eq_getElem h]
  · have : 1 ≤ n := by
      rcases npars_names hn with ⟨-, rfl⟩ | ⟨-, rfl⟩ | ⟨-, rfl⟩ | ⟨-, rfl⟩ | ⟨-, rfl⟩ | ⟨-, rfl⟩ |
        ⟨-, rfl⟩ | ⟨-, rfl⟩ <;> omega
    simp; omega
  · rw [hget, List.getElem?_eq_none h]

/-- C67: an evaluation gives what it would give on the new object, after any history of evaluations at other
parameters, whether or not these raised. -/
theorem C67_history_free (kind : FMKind) (prior : Option JointPrior) (obs : List (List Img)) (guess : List ℝ)
    (fm : FitModel) (st : FMState) (h : newFitModel kind prior obs guess = .ok (fm, st))
    (calls : List Call) (pars : List ℝ) :
    (calcFdiff fm (runCalls fm st calls) pars).2 = (calcFdiff fm st pars).2 ∧
    (calcLnprob fm (runCalls fm st calls) pars).2 = (calcLnprob fm st pars).2 := by
  obtain ⟨-, -, ho, -, -, -, ⟨gk, ng, hF, hC⟩, hsh⟩ := new_shape h
  replace hsh := hsh gk ng hF hC
  have hf : Fits fm.obs st := by rw [ho]; exact fits_of_map _ obs st hsh
  have hs := runCalls_shape fm calls st hf
  have hf' := fits_of_shape hf hs
  rw [(calcFdiff_pure fm st hf pars).1, (calcFdiff_pure fm _ hf' pars).1, (calcLnprob_pure fm st hf pars).1,
    (calcLnprob_pure fm _ hf' pars).1, hs]
  exact ⟨rfl, rfl⟩

/-- C67: nor does the guess given to the constructor matter. -/
theorem C67_guess_free (kind : FMKind) (prior : Option JointPrior) (obs : List (List Img)) (guess guess' : List ℝ)
    (fm fm' : FitModel) (st st' : FMState) (h : newFitModel kind prior obs guess = .ok (fm, st))
    (h' : newFitModel kind prior obs guess' = .ok (fm', st')) (pars : List ℝ) :
    fm = fm' ∧ (calcFdiff fm st pars).2 = (calcFdiff fm' st' pars).2 ∧
    (calcLnprob fm st pars).2 = (calcLnprob fm' st' pars).2 := by
  obtain ⟨hk, hp, ho, ⟨i, is, r, hobs, hd⟩, -, -, ⟨gk, ng, hF, hC⟩, hsh⟩ := new_shape h
  replace hsh := hsh gk ng hF hC
  obtain ⟨hk', hp', ho', ⟨i', is', r', hobs', hd'⟩, -, -, -, hsh'⟩ := new_shape h'
  replace hsh' := hsh' gk ng hF hC
  have hdd : fm.dopsf = fm'.dopsf := by
    rw [hobs] at hobs'
    injection hobs' with h1 h2
    injection h1 with h1 h3
    rw [hd, hd', h1]
  have hfm : fm = fm' := by
    obtain ⟨k, p, o, d⟩ := fm
    obtain ⟨k', p', o', d'⟩ := fm'
    simp only at hk hp ho hk' hp' ho' hdd
    rw [hk, hp, ho, hk', hp', ho', hdd]
  subst hfm
  have hf : Fits fm.obs st := by rw [ho]; exact fits_of_map _ obs st hsh
  have hf' : Fits fm.obs st' := by rw [ho]; exact fits_of_map _ obs st' hsh'
  have : shape st = shape st' := by rw [hsh, hsh']
  rw [(calcFdiff_pure fm st hf pars).1, (calcFdiff_pure fm _ hf' pars).1, (calcLnprob_pure fm st hf pars).1,
    (calcLnprob_pure fm _ hf' pars).1, this]
  exact ⟨rfl, rfl, rfl⟩

/-- What a constructed object knows of itself. -/
theorem eval_setup {kind : FMKind} {prior : Option JointPrior} {obs : List (List Img)} {guess : List ℝ}
    {fm : FitModel} {st : FMState} (h : newFitModel kind prior obs guess = .ok (fm, st)) (calls : List Call)
    (pars : List ℝ) (hpars : pars.length = guess.length) :
    ∃ s, (calcFdiff fm (runCalls fm st calls) pars).2 = fdiffPure fm s pars ∧
      (calcLnprob fm (runCalls fm st calls) pars).2 = lnprobPure fm s pars ∧
      ∀ D, (IsModel fm pars D ↔ ∃ dss, allPure fm.kind fm.dopsf pars 0 fm.obs s = .ok dss ∧
        List.Forall₂ (List.Forall₂ Ready) dss D) := by
  obtain ⟨hk, -, ho, -, -, hnp, ⟨gk, ng, hF, hC⟩, hsh⟩ := new_shape h
  replace hsh := hsh gk ng hF hC
  have hf : Fits fm.obs st := by rw [ho]; exact fits_of_map _ obs st hsh
  have hc : ∀ k, kind = .coellip k → pars.length = 4 + 2 * k := by
    intro k hk
    subst hk
    simp only [FMKind.npars, Except.ok.injEq] at hnp
    omega
  refine ⟨shape st, ?_, ?_, fun D => ?_⟩
  · rw [(C67_history_free kind prior obs guess fm st h calls pars).1, (calcFdiff_pure fm st hf pars).1]
  · rw [(C67_history_free kind prior obs guess fm st h calls pars).2, (calcLnprob_pure fm st hf pars).1]
  · have := all_ready hF fm.dopsf pars hc obs 0 D
    rw [hsh, hk, ho, ← this]
    unfold IsModel IsModelFrom
    rw [hk, ho]
    simp only [Nat.zero_add]

/-- The number of slots reserved for the priors. -/
theorem fdiffSize_eq {fm : FitModel} {n : ℕ} (h : fm.kind.nPriorPars fm.prior fm.obs.length = .ok n) :
    fm.fdiffSize = fm.totpix + n := by
  unfold FitModel.fdiffSize
  rw [h]

theorem residuals_length (fm : FitModel) (pars : List ℝ) (D : List (List (List Gauss))) (h : IsModel fm pars D) :
    (residuals fm D).length = fm.totpix := by
  obtain ⟨h1, h2⟩ := h
  have hlen : fm.obs.flatten.length = D.flatten.length := by
    rw [List.length_flatten, List.length_flatten]
    congr 1
    apply List.ext_getElem
    · simp [h1]
    · intro k hk hk'
      simp only [List.length_map] at hk hk'
      obtain ⟨bp, -, hf⟩ := h2 k fm.obs[k] D[k] (List.getElem?_eq_getElem hk) (List.getElem?_eq_getElem hk')
      simp [hf.length_eq]
  unfold residuals pairs FitModel.totpix
  rw [List.length_flatMap]
  simp only [List.length_map]
  congr 1
  have : (fm.obs.flatten.zip D.flatten).map (fun a => a.1.pixels.length) =
      ((fm.obs.flatten.zip D.flatten).map Prod.fst).map fun i => i.pixels.length := by
    rw [List.map_map]; rfl
  rw [this, List.map_fst_zip (by omega)]

/-- C47: when every image has its model, the residual vector is the residuals of the priors, then those of the
pixels of all the images in the order of bands and observations, then zeros if more slots were reserved for the
priors than these fill. -/
theorem C47_residual_vector (kind : FMKind) (prior : Option JointPrior) (obs : List (List Img)) (guess : List ℝ)
    (fm : FitModel) (st : FMState) (h : newFitModel kind prior obs guess = .ok (fm, st)) (calls : List Call)
    (pars : List ℝ) (hpars : pars.length = guess.length) (D : List (List (List Gauss))) (hD : IsModel fm pars D)
    (npp : ℕ) (hnpp : kind.nPriorPars prior obs.length = .ok npp) (pre : List Fl) (n : ℕ)
    (hp : fillPriors prior pars (List.replicate fm.fdiffSize (.fin 0)) = .ok (pre, n)) (hn : n ≤ npp) :
    (calcFdiff fm (runCalls fm st calls) pars).2 =
      .ok (pre.take n ++ (residuals fm D).map Fl.fin ++ List.replicate (npp - n) (.fin 0)) ∧
    (pre.take n).length = n := by
  obtain ⟨s, hs, -, hm⟩ := eval_setup h calls pars hpars
  obtain ⟨dss, hdss, hr⟩ := (hm D).mp hD
  obtain ⟨hk, hpr, ho, -⟩ := new_shape h
  have hsize : fm.fdiffSize = fm.totpix + npp := fdiffSize_eq (by rw [hk, hpr, ho]; exact hnpp)
  have hlen := residuals_length fm pars D hD
  obtain ⟨f1, f2, f3, -⟩ := fillPriors_frame prior pars _ pre n hp
  rw [List.length_replicate] at f1 f2
  have hres : resOf (fm.obs.flatten.zip D.flatten) = residuals fm D := rfl
  have hl := fdAll_ready hr fm.obs (allPure_lengths fm.obs hdss) pre n (by rw [hres, hlen]; omega)
  rw [hres, hlen] at hl
  refine ⟨?_, by rw [List.length_take]; omega⟩
  rw [hs]
  unfold fdiffPure
  rw [hdss, hpr]
  simp only [Except.bind]
  rw [hp]
  dsimp only
  rw [hl]
  simp only [Except.map, catchRange]
  congr 2
  rw [← List.drop_drop, f3, List.drop_replicate, List.drop_replicate]
  congr 1
  omega

/-- C47: when every image has its model, the log probability is that of the prior plus, over the bands and the
observations, minus half the sum of the squared residuals; the other sums are over all the images too. -/
theorem C47_lnprob (kind : FMKind) (prior : Option JointPrior) (obs : List (List Img)) (guess : List ℝ)
    (fm : FitModel) (st : FMState) (h : newFitModel kind prior obs guess = .ok (fm, st)) (calls : List Call)
    (pars : List ℝ) (hpars : pars.length = guess.length) (D : List (List (List Gauss))) (hD : IsModel fm pars D)
    (lnp : Fl) (hp : getPriors prior pars = .ok lnp) :
    (calcLnprob fm (runCalls fm st calls) pars).2 = .ok
      ⟨.fin ((pairs fm D).map fun x => -(1 / 2) * (x.1.pixels.map fun px =>
          ((gmixEvalFast x.2 px.v px.u px.area - px.val) * px.ierr) ^ 2).sum).sum + lnp,
       ((pairs fm D).map fun x => (x.1.pixels.map fun px =>
          px.val * gmixEvalFast x.2 px.v px.u px.area * (px.ierr * px.ierr)).sum).sum,
       ((pairs fm D).map fun x => (x.1.pixels.map fun px =>
          gmixEvalFast x.2 px.v px.u px.area ^ 2 * (px.ierr * px.ierr)).sum).sum,
       fm.totpix⟩ := by
  obtain ⟨s, -, hs, hm⟩ := eval_setup h calls pars hpars
  obtain ⟨dss, hdss, hr⟩ := (hm D).mp hD
  obtain ⟨hk, hpr, ho, -⟩ := new_shape h
  have hl := llAll_ready hr fm.obs (allPure_lengths fm.obs hdss) ⟨0, 0, 0, 0⟩
  have hlen := residuals_length fm pars D hD
  have hnp : ((fm.obs.flatten.zip D.flatten).map fun y => y.1.pixels.length).sum = fm.totpix := by
    rw [← hlen]
    unfold residuals pairs
    rw [List.length_flatMap]
    simp
  rw [hs]
  unfold lnprobPure
  rw [hpr, hp]
  simp only [Except.bind]
  rw [hdss]
  dsimp only
  rw [hl]
  simp only [Except.map, catchRange, llAdd, llOf, zero_add, hnp]
  rfl

/-- C47: an evaluation that returns has either used the models of all the images or found a parameter out of
range; then every residual, and the log probability, is minus infinity.  `GMixRangeError` never escapes. -/
theorem C47_out_of_range (kind : FMKind) (prior : Option JointPrior) (obs : List (List Img)) (guess : List ℝ)
    (fm : FitModel) (st : FMState) (h : newFitModel kind prior obs guess = .ok (fm, st)) (calls : List Call)
    (pars : List ℝ) (hpars : pars.length = guess.length) :
    (∀ out, (calcFdiff fm (runCalls fm st calls) pars).2 = .ok out →
      ((∃ D, IsModel fm pars D) ∧
        ∃ r, fillPriors prior pars (List.replicate fm.fdiffSize (.fin 0)) = .ok r) ∨
      out = List.replicate fm.fdiffSize .ninf) ∧
    (∀ r, (calcLnprob fm (runCalls fm st calls) pars).2 = .ok r →
      ((∃ D, IsModel fm pars D) ∧ ∃ l, getPriors prior pars = .ok l) ∨ r = ⟨.ninf, 0, 9999.0e47, 0⟩) ∧
    (calcFdiff fm (runCalls fm st calls) pars).2 ≠ .error .gmixRange ∧
    (calcLnprob fm (runCalls fm st calls) pars).2 ≠ .error .gmixRange := by
  have hcat : ∀ {α : Type} (d : α) (x : Except PyErr α), catchRange d x ≠ .error .gmixRange := by
    intro α d x hx
    cases x with
    | ok v => simp [catchRange] at hx
    | error e => cases e <;> simp [catchRange] at hx
  have hcok : ∀ {α : Type} (d : α) (x : Except PyErr α) (v : α), catchRange d x = .ok v → x = .ok v ∨ v = d := by
    intro α d x v hx
    cases x with
    | ok w => left; simpa [catchRange] using hx
    | error e => cases e <;> simp [catchRange] at hx; exact Or.inr hx.symm
  obtain ⟨hk, hpr, ho, -⟩ := new_shape h
  obtain ⟨s, hsF, hsL, hm⟩ := eval_setup h calls pars hpars
  refine ⟨?_, ?_, ?_, ?_⟩
  · intro out hout
    rw [hsF] at hout
    unfold fdiffPure at hout
    rcases hcok _ _ _ hout with hx | hx
    · left
      cases ha : allPure fm.kind fm.dopsf pars 0 fm.obs s with
      | error e => rw [ha] at hx; simp [Except.bind] at hx
      | ok dss =>
        rw [ha] at hx
        simp only [Except.bind] at hx
        cases hq : fillPriors fm.prior pars (List.replicate fm.fdiffSize (.fin 0)) with
        | error e => rw [hq] at hx; simp at hx
        | ok r =>
          rw [hq] at hx
          dsimp only at hx
          cases hb : fdAllPure fm.obs dss r.1 r.2 with
          | error e => rw [hb] at hx; simp [Except.map] at hx
          | ok y =>
            obtain ⟨D, hD⟩ := fdAll_ok (allPure_lengths fm.obs ha) hb
            refine ⟨⟨D, ?_⟩, r, by rw [← hpr]; exact hq⟩
            exact (hm D).mpr ⟨dss, ha, hD⟩
    · exact Or.inr hx
  · intro r hout
    rw [hsL] at hout
    unfold lnprobPure at hout
    rcases hcok _ _ _ hout with hx | hx
    · left
      cases hq : getPriors fm.prior pars with
      | error e => rw [hq] at hx; simp [Except.bind] at hx
      | ok l =>
        rw [hq] at hx
        simp only [Except.bind] at hx
        cases ha : allPure fm.kind fm.dopsf pars 0 fm.obs s with
        | error e => rw [ha] at hx; simp at hx
        | ok dss =>
          rw [ha] at hx
          dsimp only at hx
          cases hb : llAllPure fm.obs dss ⟨0, 0, 0, 0⟩ with
          | error e => rw [hb] at hx; simp [Except.map] at hx
          | ok y =>
            obtain ⟨D, hD⟩ := llAll_ok (allPure_lengths fm.obs ha) hb
            refine ⟨⟨D, ?_⟩, l, by rw [← hpr]; exact hq⟩
            exact (hm D).mpr ⟨dss, ha, hD⟩
    · exact Or.inr hx
  · rw [hsF]
    exact hcat _ _
  · rw [hsL]
    exact hcat _ _

/-- The joint prior class made for the model, with one flux prior per band. -/
def MadeFor (kind : FMKind) (p : JointPrior) (nband : ℕ) : Prop :=
  match kind with
  | .std name => p.fs.length = nband ∧
      ((name = "bd" ∧ p.cls = .bd) ∨ (name = "bdf" ∧ p.cls = .bdf) ∨
        (name ∈ ["exp", "dev", "gauss", "turb"] ∧ p.cls = .simple))
  | .coellip k => p.cls = .coellip k

/-- C41: without a prior the residual vector is the residuals of the pixels. -/
theorem C41_no_prior (kind : FMKind) (obs : List (List Img)) (guess : List ℝ)
    (fm : FitModel) (st : FMState) (h : newFitModel kind none obs guess = .ok (fm, st)) (calls : List Call)
    (pars : List ℝ) (hpars : pars.length = guess.length) (D : List (List (List Gauss))) (hD : IsModel fm pars D) :
    kind.nPriorPars none obs.length = .ok 0 ∧
    (calcFdiff fm (runCalls fm st calls) pars).2 = .ok ((residuals fm D).map Fl.fin) := by
  obtain ⟨-, -, -, -, ⟨n, hn⟩, -⟩ := new_shape h
  have h0 : n = 0 := by
    cases kind with
    | std name => simpa [FMKind.nPriorPars] using hn.symm
    | coellip k =>
      simp only [FMKind.nPriorPars] at hn
      split_ifs at hn
      simpa using hn.symm
  subst h0
  refine ⟨hn, ?_⟩
  have := (C47_residual_vector kind none obs guess fm st h calls pars hpars D hD 0 hn _ 0 rfl (le_refl 0)).1
  simpa using this

theorem written_count (kind : FMKind) (p : JointPrior) (nband npp : ℕ) (hs : Shaped p)
    (hm : MadeFor kind p nband) (hn : kind.nPriorPars (some p) nband = .ok npp) :
    ((∀ name, kind = .std name → name ∉ ["exp", "dev", "gauss", "turb"]) → npp = 3 + (layout p).length) ∧
    ((∃ name, kind = .std name ∧ name ∈ ["exp", "dev", "gauss", "turb"]) → npp = 3 + (layout p).length + 1) := by
  have hc := (C42_counts p hs).1
  cases kind with
  | coellip k =>
    refine ⟨fun _ => ?_, by rintro ⟨name, h1, -⟩; simp at h1⟩
    simp only [MadeFor] at hm
    rw [hm] at hc
    simp only [FMKind.nPriorPars] at hn
    split_ifs at hn
    simp only [Except.ok.injEq] at hn
    simp only at hc
    omega
  | std name =>
    obtain ⟨hf, hcase⟩ := hm
    simp only [FMKind.nPriorPars, getLmNPriorPars] at hn
    rcases hcase with ⟨rfl, hcl⟩ | ⟨rfl, hcl⟩ | ⟨hmem, hcl⟩
    · rw [hcl] at hc
      simp only [if_true, Except.ok.injEq] at hn
      simp only at hc
      refine ⟨fun _ => by omega, ?_⟩
      rintro ⟨nm, h1, h2⟩
      injection h1 with h1
      subst h1
      simp at h2
    · rw [hcl] at hc
      simp only [String.reduceEq, if_false, if_true, Except.ok.injEq] at hn
      simp only at hc
      refine ⟨fun _ => by omega, ?_⟩
      rintro ⟨nm, h1, h2⟩
      injection h1 with h1
      subst h1
      simp at h2
    · rw [hcl] at hc
      simp only at hc
      refine ⟨fun hno => absurd hmem (hno name rfl), fun _ => ?_⟩
      simp only [List.mem_cons, List.not_mem_nil, or_false] at hmem
      rcases hmem with rfl | rfl | rfl | rfl <;>
      · simp at hn
        omega

/-- C41, for the models other than the simple ones (`exp`, `dev`, `gauss`, `turb`, for which it fails, see
`C41_simple_loses_pixel`): the slots reserved for the priors are those the joint prior writes, so the slots
after them are the residuals of the pixels. -/
theorem C41_partition (kind : FMKind) (p : JointPrior) (obs : List (List Img)) (guess : List ℝ)
    (hno : ∀ name, kind = .std name → name ∉ ["exp", "dev", "gauss", "turb"])
    (hs : Shaped p) (hm : MadeFor kind p obs.length)
    (fm : FitModel) (st : FMState) (h : newFitModel kind (some p) obs guess = .ok (fm, st)) (calls : List Call)
    (pars : List ℝ) (hpars : pars.length = guess.length) (D : List (List (List Gauss))) (hD : IsModel fm pars D)
    (pre : List Fl) (n : ℕ)
    (hp : p.fillFdiff pars (List.replicate fm.fdiffSize (.fin 0)) = .ok (pre, n)) :
    kind.nPriorPars (some p) obs.length = .ok n ∧
    ∃ out, (calcFdiff fm (runCalls fm st calls) pars).2 = .ok out ∧ out.length = n + fm.totpix ∧
      out.take n = pre.take n ∧ out.drop n = (residuals fm D).map Fl.fin := by
  obtain ⟨-, -, -, -, ⟨npp, hn⟩, -⟩ := new_shape h
  obtain ⟨-, -, -, hcount⟩ := fillPriors_frame (some p) pars _ pre n hp
  have hcount := hcount p rfl hs
  have hnpp := (written_count kind p obs.length npp hs hm hn).1 hno
  obtain rfl : npp = n := by omega
  obtain ⟨h1, h2⟩ := C47_residual_vector kind (some p) obs guess fm st h calls pars hpars D hD npp hn pre npp hp
    (le_refl _)
  rw [Nat.sub_self, List.replicate_zero, List.append_nil] at h1
  refine ⟨hn, _, h1, ?_, List.take_left' h2, List.drop_left' h2⟩
  rw [List.length_append, h2, List.length_map, residuals_length fm pars D hD]

/-- C41 (disagreement of the unchanged code): for the simple models one slot more is reserved than the joint
prior writes.  The slots after the reserved ones, which the error estimate takes for the data, miss the residual
of the first pixel and end with a zero. -/
theorem C41_simple_loses_pixel (name : String) (hname : name ∈ ["exp", "dev", "gauss", "turb"]) (p : JointPrior)
    (obs : List (List Img)) (guess : List ℝ)
    (hs : Shaped p) (hm : MadeFor (.std name) p obs.length)
    (fm : FitModel) (st : FMState) (h : newFitModel (.std name) (some p) obs guess = .ok (fm, st))
    (calls : List Call) (pars : List ℝ) (hpars : pars.length = guess.length) (D : List (List (List Gauss)))
    (hD : IsModel fm pars D) (pre : List Fl) (n : ℕ)
    (hp : p.fillFdiff pars (List.replicate fm.fdiffSize (.fin 0)) = .ok (pre, n)) (hpix : 0 < fm.totpix) :
    FMKind.nPriorPars (.std name) (some p) obs.length = .ok (n + 1) ∧
    ∃ out, (calcFdiff fm (runCalls fm st calls) pars).2 = .ok out ∧
      out.drop n = (residuals fm D).map Fl.fin ++ [.fin 0] ∧
      out.drop (n + 1) = (residuals fm D).tail.map Fl.fin ++ [.fin 0] := by
  obtain ⟨-, -, -, -, ⟨npp, hn⟩, -⟩ := new_shape h
  obtain ⟨-, -, -, hcount⟩ := fillPriors_frame (some p) pars _ pre n hp
  have hcount := hcount p rfl hs
  have hnpp := (written_count (.std name) p obs.length npp hs hm hn).2 ⟨name, rfl, hname⟩
  obtain rfl : npp = n + 1 := by omega
  obtain ⟨h1, h2⟩ := C47_residual_vector (.std name) (some p) obs guess fm st h calls pars hpars D hD (n + 1) hn
    pre n hp (by omega)
  rw [show n + 1 - n = 1 by omega, List.append_assoc] at h1
  have hd : (pre.take n ++ ((residuals fm D).map Fl.fin ++ List.replicate 1 (Fl.fin 0))).drop n =
      (residuals fm D).map Fl.fin ++ [.fin 0] := by
    rw [List.drop_left' h2]; rfl
  refine ⟨hn, _, h1, hd, ?_⟩
  rw [← List.drop_drop, hd]
  have hlen := residuals_length fm pars D hD
  cases hr : residuals fm D with
  | nil => rw [hr] at hlen; simp at hlen; omega
  | cons a l => simp

theorem sum_flatMap_sq (x : List (Img × List Gauss)) :
    (x.map fun y => -(1 / 2) * (y.1.pixels.map fun px =>
      ((gmixEvalFast y.2 px.v px.u px.area - px.val) * px.ierr) ^ 2).sum).sum =
    -(1 / 2) * ((x.flatMap fun y => y.1.pixels.map fun px =>
      (gmixEvalFast y.2 px.v px.u px.area - px.val) * px.ierr).map fun r => r ^ 2).sum := by
  induction x with
  | nil => simp
  | cons y x ih =>
    simp only [List.map_cons, List.sum_cons, List.flatMap_cons, List.map_append, List.sum_append, ih, List.map_map,
      Function.comp_def]
    ring

/-- C68: without a prior the log probability is minus half the sum of the squares of the residual vector. -/
theorem C68_objective_no_prior (kind : FMKind) (obs : List (List Img)) (guess : List ℝ)
    (fm : FitModel) (st : FMState) (h : newFitModel kind none obs guess = .ok (fm, st)) (calls calls' : List Call)
    (pars : List ℝ) (hpars : pars.length = guess.length) (D : List (List (List Gauss))) (hD : IsModel fm pars D) :
    ∃ (ds : List ℝ) (r : LnprobRes), (calcFdiff fm (runCalls fm st calls) pars).2 = .ok (ds.map Fl.fin) ∧
      (calcLnprob fm (runCalls fm st calls') pars).2 = .ok r ∧
      r.lnprob = .fin (-(1 / 2) * (ds.map fun d => d ^ 2).sum) := by
  refine ⟨_, _, (C41_no_prior kind obs guess fm st h calls pars hpars D hD).2,
    C47_lnprob kind none obs guess fm st h calls' pars hpars D hD (.fin 0) rfl, ?_⟩
  simp only [sum_flatMap_sq, Fl.fin_add, add_zero]
  rfl

/-- C68: with the joint prior made for the model, where the log probability is finite, it is minus half the sum
of the squares of the residual vector: the minimiser minimises what `calc_lnprob` reports. -/
theorem C68_objective (kind : FMKind) (p : JointPrior) (obs : List (List Img)) (guess : List ℝ)
    (hs : Shaped p) (hm : MadeFor kind p obs.length) (hq : ∀ q ∈ layout p, Constructed q)
    (hg : ConstructedG p.g) (hc : ConstructedCen p.cen) (hba : UsesFdiff p.cls → ∃ s A, p.g = .ba s A)
    (fm : FitModel) (st : FMState) (h : newFitModel kind (some p) obs guess = .ok (fm, st))
    (calls calls' : List Call) (pars : List ℝ) (hpars : pars.length = guess.length)
    (hnp : pars.length = p.npars)
    (D : List (List (List Gauss))) (hD : IsModel fm pars D) (Lp : ℝ) (hL : p.lnprob pars = .ok (.fin Lp)) :
    ∃ (ds : List ℝ) (r : LnprobRes), (calcFdiff fm (runCalls fm st calls) pars).2 = .ok (ds.map Fl.fin) ∧
      (calcLnprob fm (runCalls fm st calls') pars).2 = .ok r ∧
      r.lnprob = .fin (-(1 / 2) * (ds.map fun d => d ^ 2).sum) := by
  obtain ⟨hk, hpr, ho, -, ⟨npp, hn⟩, -⟩ := new_shape h
  have hsize : fm.fdiffSize = fm.totpix + npp := fdiffSize_eq (by rw [hk, hpr, ho]; exact hn)
  have hw := written_count kind p obs.length npp hs hm hn
  have hle : 3 + (layout p).length ≤ npp := by
    by_cases hx : ∀ name, kind = .std name → name ∉ ["exp", "dev", "gauss", "turb"]
    · exact (hw.1 hx).ge
    · push Not at hx
      have := hw.2 hx
      omega
  have h4 := (C42_counts p hs).2
  obtain ⟨c1, c2, g1, g2, rest, hpe⟩ : ∃ c1 c2 g1 g2 rest, pars = c1 :: c2 :: g1 :: g2 :: rest := by
    match pars, hnp with
    | c1 :: c2 :: g1 :: g2 :: rest, _ => exact ⟨c1, c2, g1, g2, rest, rfl⟩
    | [], hnp => simp at hnp; omega
    | [_], hnp => simp at hnp; omega
    | [_, _], hnp => simp at hnp; omega
    | [_, _, _], hnp => simp at hnp; omega
  have hrest : 4 + rest.length = p.npars := by
    rw [← hnp, hpe]; simp; omega
  obtain ⟨lg, ls, ds, -, -, -, -, hdl, hfill, -, hLsum⟩ := C42_residuals p hs hq hg hc hba c1 c2 g1 g2 rest
    (by omega) hrest Lp (by rw [← hpe]; exact hL) (List.replicate fm.fdiffSize (.fin 0))
    (by rw [List.length_replicate]; omega)
  rw [← hpe] at hfill
  obtain ⟨h1, -⟩ := C47_residual_vector kind (some p) obs guess fm st h calls pars hpars D hD npp hn _ _ hfill hle
  rw [List.take_left' (by rw [List.length_map, hdl])] at h1
  have hl := C47_lnprob kind (some p) obs guess fm st h calls' pars hpars D hD (.fin Lp) hL
  refine ⟨ds ++ residuals fm D ++ List.replicate (npp - (3 + (layout p).length)) 0, _, ?_, hl, ?_⟩
  · rw [h1]
    simp
  · simp only [sum_flatMap_sq, Fl.fin_add, List.map_append, List.sum_append, List.map_replicate, List.sum_replicate]
    rw [hLsum]
    congr 1
    unfold residuals pairs
    norm_num
    ring

/-! ### The hypotheses are met: two bands, three images with a psf, and a joint prior -/

/-- A unit gaussian psf. -/
def exPsf : GMixObj := ⟨.full, 6, 1, [], [gauss2dSet 1 0 0 1 0 1]⟩

/-- A joint prior for two bands. -/
def exPrior : JointPrior :=
  ⟨.simple, ⟨0, 0, 1, 1⟩, .disk 1, [.normal 0 1 none], [.flat 0 5, .normal 3 1 none]⟩

theorem ex_make (T F : ℝ) : makeGmixModel [0, 0, 0, 0, T, F] (.str "gauss") =
    .ok ⟨.model "gauss", 6, 1, [0, 0, 0, 0, T, F], [gauss2dSet F 0 0 (0.5 * T) 0 (0.5 * T)]⟩ := by
  have := (fresh_std "gauss" 1 6 1 rfl rfl rfl rfl rfl (by simp [fillNames]) (by simp) (by simp)).1
    [0, 0, 0, 0, T, F] rfl
  change makeGmixModel [0, 0, 0, 0, T, F] (.str "gauss") = _ at this
  have hg : g1g2ToE1E2nb 0 0 = .ok (0, 0) := by
    unfold g1g2ToE1E2nb
    norm_num
  rw [this]
  simp [fillFunc, fillSimple, hg, Except.map, fvalsGauss, pvalsGauss, coGauss]

theorem ex_convolve (T F : ℝ) : gmixConvolve [gauss2dSet F 0 0 (0.5 * T) 0 (0.5 * T)] exPsf.data =
    .ok [gauss2dSet F 0 0 (0.5 * T + 1) 0 (0.5 * T + 1)] := by
  simp [gmixConvolve, gmixGetCen, exPsf, gauss2dSet, Except.map]

theorem ex_ready (T F : ℝ) (hT : 0 < T) : ∃ D, ready [gauss2dSet F 0 0 (0.5 * T + 1) 0 (0.5 * T + 1)] = .ok D := by
  have hu : Usable (gauss2dSet F 0 0 (0.5 * T + 1) 0 (0.5 * T + 1)) := by
    constructor
    · simp only [gauss2dSet, gmixLowDetval]
      nlinarith
    · simp only [gauss2dSet, gmixLowDetval]
      linarith
  obtain ⟨h1, -⟩ := (C20_set_norms [gauss2dSet F 0 0 (0.5 * T + 1) 0 (0.5 * T + 1)]
    (by intro g hg; simp at hg; subst hg; rfl)).1 (by simpa using hu)
  refine ⟨(gmixSetNorms [gauss2dSet F 0 0 (0.5 * T + 1) 0 (0.5 * T + 1)]).1, ?_⟩
  have hs : setNormsIfNeeded [gauss2dSet F 0 0 (0.5 * T + 1) 0 (0.5 * T + 1)] =
      ((gmixSetNorms [gauss2dSet F 0 0 (0.5 * T + 1) 0 (0.5 * T + 1)]).1, .ok ()) := by
    rw [← h1]; rfl
  unfold ready
  rw [hs]

/-- The object of two bands and three images, with any joint prior or none, and its model at other parameters. -/
theorem ex_fit (prior : Option JointPrior) (a b c : List Pixel) : ∃ st D,
    newFitModel (.std "gauss") prior [[⟨a, .ok exPsf⟩, ⟨b, .ok exPsf⟩], [⟨c, .ok exPsf⟩]] [0, 0, 0, 0, 4, 1, 1] =
      .ok (⟨.std "gauss", prior, [[⟨a, .ok exPsf⟩, ⟨b, .ok exPsf⟩], [⟨c, .ok exPsf⟩]], true⟩, st) ∧
    IsModel ⟨.std "gauss", prior, [[⟨a, .ok exPsf⟩, ⟨b, .ok exPsf⟩], [⟨c, .ok exPsf⟩]], true⟩
      [0, 0, 0, 0, 1, 2, 3] D := by
  have hb : ∀ (T F G : ℝ), getBandPars "gauss" [0, 0, 0, 0, T, F, G] 0 = .ok [0, 0, 0, 0, T, F] ∧
      getBandPars "gauss" [0, 0, 0, 0, T, F, G] 1 = .ok [0, 0, 0, 0, T, G] := by
    intro T F G
    have h6 := fun k => C47_band_pars "gauss" 6 rfl (by simp) [0, 0, 0, 0, T] [F, G] rfl k
    exact ⟨((h6 0).1 (by simp)).1, ((h6 1).1 (by simp)).1⟩
  have hone : ∀ (T F : ℝ) (x : List Pixel), ∃ g,
      initOne (.std "gauss") true [0, 0, 0, 0, T, F] ⟨x, .ok exPsf⟩ = .ok g := by
    intro T F x
    unfold initOne
    simp only [FMKind.arg, ex_make, Except.bind, if_true, convolveObj, ex_convolve, Except.map]
    exact ⟨_, rfl⟩
  obtain ⟨ga, hga⟩ := hone 4 1 a
  obtain ⟨gb, hgb⟩ := hone 4 1 b
  obtain ⟨gc, hgc⟩ := hone 4 1 c
  obtain ⟨D2, hD2⟩ := ex_ready 1 2 one_pos
  obtain ⟨D3, hD3⟩ := ex_ready 1 3 one_pos
  have hmod : ∀ (F : ℝ) (D : List Gauss) (x : List Pixel),
      ready [gauss2dSet F 0 0 (0.5 * 1 + 1) 0 (0.5 * 1 + 1)] = .ok D →
      modelFor (.std "gauss") true [0, 0, 0, 0, 1, F] ⟨x, .ok exPsf⟩ = .ok D := by
    intro F D x hD
    unfold modelFor
    simp only [FMKind.arg, ex_make, Except.bind, if_true, ex_convolve]
    exact hD
  refine ⟨[[ga, gb], [gc]], [[D2, D2], [D3]], ?_, rfl, ?_⟩
  · unfold newFitModel
    rw [show FMKind.npars (.std "gauss") ([[⟨a, .ok exPsf⟩, ⟨b, .ok exPsf⟩], [⟨c, .ok exPsf⟩]] :
      List (List Img)).length = .ok 7 from rfl]
    cases prior <;> simp only [Except.bind, FMKind.nPriorPars, getLmNPriorPars]
    all_goals simp only [String.reduceEq, if_false, List.mem_cons, true_or, or_true, if_true, List.length_cons,
        List.length_nil, ne_eq, Nat.reduceAdd, not_true, Img.hasPsfGmix, initAll, FMKind.bandPars, (hb _ _ _).1,
        (hb _ _ _).2, Except.bind, initBand, hga, hgb, hgc, Except.map]
  · intro k is ds hk hk'
    match k, hk, hk' with
    | 0, hk, hk' =>
      simp only [List.getElem?_cons_zero, Option.some.injEq] at hk hk'
      subst hk; subst hk'
      exact ⟨_, (hb 1 2 3).1, .cons (hmod 2 D2 a hD2) (.cons (hmod 2 D2 b hD2) .nil)⟩
    | 1, hk, hk' =>
      simp only [List.getElem?_cons_succ, List.getElem?_cons_zero, Option.some.injEq] at hk hk'
      subst hk; subst hk'
      exact ⟨_, (hb 1 2 3).2, .cons (hmod 3 D3 c hD3) .nil⟩
    | k + 2, hk, hk' => simp at hk

example (a b c : List Pixel) : ∃ fm st D Lp,
    newFitModel (.std "gauss") (some exPrior) [[⟨a, .ok exPsf⟩, ⟨b, .ok exPsf⟩], [⟨c, .ok exPsf⟩]]
      [0, 0, 0, 0, 4, 1, 1] = .ok (fm, st) ∧
    IsModel fm [0, 0, 0, 0, 1, 2, 3] D ∧ exPrior.lnprob [0, 0, 0, 0, 1, 2, 3] = .ok (.fin Lp) ∧
    MadeFor (.std "gauss") exPrior 2 ∧ Shaped exPrior ∧ exPrior.npars = 7 ∧
    (∀ q ∈ layout exPrior, Constructed q) ∧ ConstructedG exPrior.g ∧ ConstructedCen exPrior.cen := by
  obtain ⟨st, D, h1, h2⟩ := ex_fit (some exPrior) a b c
  refine ⟨_, st, D, -(1 / 2), h1, h2, ?_, ⟨rfl, by simp [exPrior]⟩, rfl, rfl, ?_, trivial, ⟨one_ne_zero, one_ne_zero⟩⟩
  · simp [exPrior, JointPrior.lnprob, JointPrior.oneDTerms, JointPrior.at2, JointPrior.at1, JointPrior.parAt,
      Except.bind, JointPrior.sumTerms, Prior1.lnprob, PriorG.lnprob, CenPrior.lnprob]
    norm_num
  · intro q hq
    simp [layout, exPrior] at hq
    rcases hq with rfl | rfl | rfl
    · exact one_ne_zero
    · trivial
    · exact one_ne_zero

end

end Ngmix.Props
