import Verif.Proof.FitUnitPrior
import Verif.Props.FitSetup

/-!
# Model fits do not depend on the units of brightness (C98)
-/

namespace Ngmix.Props

open Ngmix Ngmix.Spec

noncomputable section

theorem unit_nPriorPars (kind : FMKind) {prior prior' : Option JointPrior} {pars pars' : List ℝ}
    (h : UnitPrior prior prior' pars pars') (n : ℕ) : kind.nPriorPars prior' n = kind.nPriorPars prior n := by
  unfold UnitPrior at h
  cases prior <;> cases prior' <;> cases kind <;> first | rfl | exact h.elim

theorem unit_hasPsf {k : ℝ} {i i' : Img} (h : UnitImg k i i') : i'.hasPsfGmix = i.hasPsfGmix := by
  have hp := h.2
  unfold UnitPsf at hp
  unfold Img.hasPsfGmix
  revert hp
  cases i.psf <;> cases i'.psf <;> simp

theorem unit_initOne (kind : FMKind) (hk : CanFit kind) (dopsf : Bool) (c : ℝ) (bp : List ℝ) (hl : bp.length = bandN kind)
    {i i' : Img} (h : UnitImg c i i') :
    SameOutcome (fun _ _ => True) (initOne kind dopsf bp i) (initOne kind dopsf (bandUnits (notFluxes kind) c bp) i') := by
  obtain ⟨ng, hF, hC⟩ := kindOf_fresh kind hk
  unfold initOne
  rw [hF bp hl, hF _ ((bandUnits_length _ _ _).trans hl), unit_fill kind hk c bp hl]
  cases hd : fillFunc (kindOf kind) bp with
  | error e => simp [Except.map, Except.bind, SameOutcome]
  | ok d =>
    simp only [Except.map, Except.bind]
    cases dopsf with
    | false =>
      simp only [Bool.false_eq_true, if_false]
      rw [hC bp d hl, hC _ _ ((bandUnits_length _ _ _).trans hl), hF bp hl, hF _ ((bandUnits_length _ _ _).trans hl),
        unit_fill kind hk c bp hl, hd]
      simp [Except.map, SameOutcome]
    | true =>
      simp only [if_true]
      have hp := h.2
      unfold UnitPsf at hp
      cases hq : i.psf with
      | error e =>
        cases hq' : i'.psf with
        | error e' => rw [hq, hq'] at hp; rw [hp]; exact rfl
        | ok q' => rw [hq, hq'] at hp; exact hp.elim
      | ok q =>
        cases hq' : i'.psf with
        | error e' => rw [hq, hq'] at hp; exact hp.elim
        | ok q' =>
          rw [hq, hq'] at hp
          obtain ⟨-, e, he, hp⟩ := hp
          simp only [convolveObj, unit_convolve c he d hp]
          cases gmixConvolve d q.data <;> simp [Except.map, SameOutcome]

theorem unit_initBand (kind : FMKind) (hk : CanFit kind) (dopsf : Bool) (c : ℝ) (bp : List ℝ) (hl : bp.length = bandN kind)
    {is is' : List Img} (h : List.Forall₂ (UnitImg c) is is') :
    SameOutcome (fun _ _ => True) (initBand kind dopsf bp is)
      (initBand kind dopsf (bandUnits (notFluxes kind) c bp) is') := by
  induction h with
  | nil => trivial
  | @cons i i' is is' hi _ ih =>
    have h1 := unit_initOne kind hk dopsf c bp hl hi
    rw [initBand, initBand]
    revert h1 ih
    cases initOne kind dopsf bp i <;> cases initOne kind dopsf (bandUnits (notFluxes kind) c bp) i' <;>
      cases initBand kind dopsf bp is <;> cases initBand kind dopsf (bandUnits (notFluxes kind) c bp) is' <;>
      simp [SameOutcome, Except.bind, Except.map]

theorem unit_initAll (kind : FMKind) (hk : CanFit kind) (dopsf : Bool) (k : ℕ → ℝ) (nband : ℕ) (pars : List ℝ)
    (hl : pars.length = guessLength kind nband) :
    ∀ (obs obs' : List (List Img)) (b : ℕ), b + obs.length = nband → UnitObs k b obs obs' →
    (∀ m, kind = .coellip m → b + obs.length ≤ 1) →
    SameOutcome (fun _ _ => True) (initAll kind dopsf pars b obs) (initAll kind dopsf (inUnits kind k pars) b obs')
  | [], [], _, _, _, _ => trivial
  | [], _ :: _, _, _, h, _ => h.elim
  | _ :: _, [], _, _, h, _ => h.elim
  | is :: obs, is' :: obs', b, hn, h, hb => by
    obtain ⟨h1, h2⟩ := h
    rw [List.length_cons] at hn hb
    obtain ⟨bp, hbp, hbl, -⟩ := band_outcome kind hk nband pars hl b (by omega)
    rw [initAll, initAll, unit_bandPars kind hk k pars b (fun m hm => by have := hb m hm; omega), hbp]
    simp only [Except.map, Except.bind]
    have i1 := unit_initBand kind hk dopsf (k b) bp hbl h1
    have i2 := unit_initAll kind hk dopsf k nband pars hl obs obs' (b + 1) (by omega) h2
      (fun m hm => by have := hb m hm; omega)
    revert i1 i2
    cases initBand kind dopsf bp is <;> cases initBand kind dopsf (bandUnits (notFluxes kind) (k b) bp) is' <;>
      cases initAll kind dopsf pars (b + 1) obs <;> cases initAll kind dopsf (inUnits kind k pars) (b + 1) obs' <;>
      simp +contextual [SameOutcome]

/-- C98: a fit of the same images with other units of brightness, and the fluxes of the guess in the new units: the same
exception, or both can be set up. -/
theorem C98_setup (kind : FMKind) (hk : CanFit kind) (k : ℕ → ℝ) (prior prior' : Option JointPrior)
    (obs obs' : List (List Img)) (hobs : UnitObs k 0 obs obs') (guess : List ℝ)
    (hp : UnitPrior prior prior' guess (inUnits kind k guess)) :
    SameOutcome (fun _ _ => True) (newFitModel kind prior obs guess)
      (newFitModel kind prior' obs' (inUnits kind k guess)) := by
  obtain ⟨hlen, -⟩ := unit_totpix obs obs' 0 hobs
  unfold newFitModel
  rw [hlen, unit_nPriorPars kind hp, inUnits_length]
  cases hn : kind.npars obs.length with
  | error e => exact rfl
  | ok n =>
    simp only [Except.bind]
    cases hpp : kind.nPriorPars prior obs.length with
    | error e => exact rfl
    | ok npp =>
      simp only
      split_ifs with hg
      · exact rfl
      · rw [not_not] at hg
        match obs, obs', hobs with
        | [], [], _ => exact rfl
        | [] :: obs, [] :: obs', _ => exact rfl
        | [] :: obs, (i' :: is') :: obs', h => exact absurd h.1.length_eq (by simp)
        | (i :: is) :: obs, [] :: obs', h => exact absurd h.1.length_eq (by simp)
        | (i :: is) :: obs, (i' :: is') :: obs', h =>
          have hi : UnitImg (k 0) i i' := by
            cases h.1 with
            | cons hi _ => exact hi
          dsimp only
          rw [unit_hasPsf hi]
          rw [npars_guessLength kind hk _ (by simp), Except.ok.injEq] at hn
          have hs := unit_initAll kind hk i.hasPsfGmix k _ guess (hg.trans hn.symm) ((i :: is) :: obs)
            ((i' :: is') :: obs') 0 (Nat.zero_add _) h (by
              rintro m rfl
              simp only [FMKind.nPriorPars] at hpp
              split_ifs at hpp with h1
              simp only [ne_eq, not_not] at h1
              omega)
          revert hs
          cases initAll kind i.hasPsfGmix guess 0 ((i :: is) :: obs) with
          | error e =>
            cases initAll kind i.hasPsfGmix (inUnits kind k guess) 0 ((i' :: is') :: obs') with
            | error e' =>
              intro he
              simp only [SameOutcome] at he
              subst he
              cases e <;> exact rfl
            | ok _ => exact fun h => h.elim
          | ok _ =>
            cases initAll kind i.hasPsfGmix (inUnits kind k guess) 0 ((i' :: is') :: obs') with
            | error _ => exact fun h => h.elim
            | ok _ => exact fun _ => trivial

/-- C98: two fits of the same images with other units of brightness, whatever their guesses and whatever was evaluated
before: at parameters with the fluxes in the new units they give the same residuals, and the same log probability,
signal to noise terms and number of pixels, or raise the same exception. -/
theorem C98_fit (kind : FMKind) (hk : CanFit kind) (k : ℕ → ℝ) (hk0 : ∀ b, 0 < k b) (prior prior' : Option JointPrior)
    (obs obs' : List (List Img)) (hobs : UnitObs k 0 obs obs') (guess guess' : List ℝ) (fm fm' : FitModel)
    (st st' : FMState) (h : newFitModel kind prior obs guess = .ok (fm, st))
    (h' : newFitModel kind prior' obs' guess' = .ok (fm', st')) (calls calls' : List Call) (pars : List ℝ)
    (hp : UnitPrior prior prior' pars (inUnits kind k pars)) :
    (calcFdiff fm' (runCalls fm' st' calls') (inUnits kind k pars)).2 = (calcFdiff fm (runCalls fm st calls) pars).2 ∧
    (calcLnprob fm' (runCalls fm' st' calls') (inUnits kind k pars)).2 =
      (calcLnprob fm (runCalls fm st calls) pars).2 := by
  have hk1 : ∀ b, k b ≠ 0 := fun b => (hk0 b).ne'
  obtain ⟨ng, hF, hC⟩ := kindOf_fresh kind hk
  rw [(C67_history_free kind prior obs guess fm st h calls pars).1,
    (C67_history_free kind prior obs guess fm st h calls pars).2,
    (C67_history_free kind prior' obs' guess' fm' st' h' calls' _).1,
    (C67_history_free kind prior' obs' guess' fm' st' h' calls' _).2]
  obtain ⟨e1, e2, e3, ⟨i, is, r, e4, e5⟩, ⟨npp, e6⟩, -, -, hsh⟩ := new_shape h
  obtain ⟨e1', e2', e3', ⟨i', is', r', e4', e5'⟩, -, -, -, hsh'⟩ := new_shape h'
  replace hsh := hsh _ ng hF hC
  replace hsh' := hsh' _ ng hF hC
  have hf : Fits fm.obs st := by rw [e3]; exact fits_of_map _ obs st hsh
  have hf' : Fits fm'.obs st' := by rw [e3']; exact fits_of_map _ obs' st' hsh'
  rw [(calcFdiff_pure fm st hf pars).1, (calcFdiff_pure fm' st' hf' _).1, (calcLnprob_pure fm st hf pars).1,
    (calcLnprob_pure fm' st' hf' _).1, hsh, hsh']
  have hdd : fm'.dopsf = fm.dopsf := by
    rw [e5, e5']
    rw [e4, e4'] at hobs
    cases hobs.1 with
    | cons hi _ => exact unit_hasPsf hi
  obtain ⟨hlen, hpix⟩ := unit_totpix obs obs' 0 hobs
  have hsize : fm'.fdiffSize = fm.fdiffSize := by
    unfold FitModel.fdiffSize FitModel.totpix
    rw [e1, e1', e2, e2', e3, e3', hlen, hpix, unit_nPriorPars kind hp]
  have hall := unit_all kind hk fm.dopsf k pars ng obs obs' 0 hobs (by
    rintro m rfl
    simp only [FMKind.nPriorPars] at e6
    split_ifs at e6 with h1
    simp only [ne_eq, not_not] at h1
    omega)
  have hpr1 : ∀ f, fillPriors prior' (inUnits kind k pars) f = fillPriors prior pars f := by
    intro f
    unfold UnitPrior at hp
    unfold fillPriors
    cases prior <;> cases prior' <;> first | rfl | exact hp.elim | exact hp.2 f
  have hpr2 : getPriors prior' (inUnits kind k pars) = getPriors prior pars := by
    unfold UnitPrior at hp
    unfold getPriors
    cases prior <;> cases prior' <;> first | rfl | exact hp.elim | exact hp.1
  constructor
  · unfold fdiffPure
    rw [hsize, e1, e1', e2, e2', e3, e3', hdd, hall, hpr1]
    congr 1
    cases allPure kind fm.dopsf pars 0 obs (obs.map fun is => is.map (shOf fm.dopsf (kindOf kind) (bandN kind) ng)) with
    | error e => rfl
    | ok dss =>
      simp only [Except.map, Except.bind, unit_fdAll hk1 obs obs' 0 hobs]
  · unfold lnprobPure
    rw [e1, e1', e2, e2', e3, e3', hdd, hall, hpr2]
    congr 1
    cases allPure kind fm.dopsf pars 0 obs (obs.map fun is => is.map (shOf fm.dopsf (kindOf kind) (bandN kind) ng)) with
    | error e => rfl
    | ok dss =>
      simp only [Except.map, Except.bind, unit_llAll hk1 obs obs' 0 hobs]

/-- C98: the priors of fluxes of every class: in a new unit of brightness, with all arguments of the constructor in the new
unit, the log probability and the residual at a flux are those of the same flux in the old unit, or the same exception. -/
theorem C98_flux_prior (k : ℝ) (hk : 0 < k) (p : Prior1) (hp : MeanPositive p) (F : ℝ) :
    (fluxPriorInUnit k p).lnprob (k * F) = p.lnprob F ∧ (fluxPriorInUnit k p).fdiff (k * F) = p.fdiff F :=
  ⟨unit_prior1_lnprob hk p hp F, unit_prior1_fdiff hk p hp F⟩

/-- C98: the joint prior written for the model, with its flux priors in the new units, says about the parameters in the new
units what it says about the parameters in the old units. -/
theorem C98_prior (kind : FMKind) (k : ℕ → ℝ) (hk : ∀ b, 0 < k b) (p : JointPrior) (hc : ClassFor kind p.cls)
    (hF : ∀ F ∈ p.fs, MeanPositive F) (pars : List ℝ) :
    UnitPrior (some p) (some (priorInUnits k p)) pars (inUnits kind k pars) :=
  unit_joint kind k hk p hc hF pars

/-! ### Examples -/

/-- A psf with another flux. -/
def exPsf3 : GMixObj := ⟨.full, 6, 1, [], [gauss2dSet 3 0 0 1 0 1]⟩

/-- The pixels in a unit ten times smaller, or twice larger. -/
def exUnits : ℕ → ℝ := fun b => if b = 0 then 10 else 1 / 2

/-- The pixel in the new unit. -/
def exUnitPixel (k : ℝ) (x : Pixel) : Pixel := ⟨x.u, x.v, x.area, k * x.val, x.ierr / k⟩

theorem ex_unit_obs (a b c : List Pixel) : UnitObs exUnits 0
    [[⟨a, .ok exPsf⟩, ⟨b, .ok exPsf⟩], [⟨c, .ok exPsf⟩]]
    [[⟨a.map (exUnitPixel 10), .ok exPsf3⟩, ⟨b.map (exUnitPixel 10), .ok exPsf⟩],
      [⟨c.map (exUnitPixel (1 / 2)), .ok exPsf⟩]] := by
  have hpix : ∀ (k : ℝ) (l : List Pixel), List.Forall₂ (UnitPixel k) l (l.map (exUnitPixel k)) := by
    intro k l
    rw [List.forall₂_map_right_iff]
    exact List.forall₂_same.mpr fun x _ => ⟨rfl, rfl, rfl, rfl, rfl⟩
  have h1 : UnitPsf (.ok exPsf) (.ok exPsf) := by
    refine ⟨rfl, 1, one_ne_zero, ?_⟩
    simp [exPsf]
  have h3 : UnitPsf (.ok exPsf) (.ok exPsf3) := by
    refine ⟨rfl, 3, by norm_num, ?_⟩
    simp [exPsf, exPsf3, gauss2dSet]
  have e0 : exUnits 0 = 10 := by simp [exUnits]
  have e1 : exUnits (0 + 1) = 1 / 2 := by simp [exUnits]
  refine ⟨?_, ?_, trivial⟩
  · rw [e0]
    exact .cons ⟨hpix 10 a, h3⟩ (.cons ⟨hpix 10 b, h1⟩ .nil)
  · rw [e1]
    exact .cons ⟨hpix (1 / 2) c, h1⟩ .nil

/-- Two bands, three images and a prior: the fit is set up in both units, and gives the same at corresponding parameters. -/
example (a b c : List Pixel) : ∃ fm st fm' st',
    newFitModel (.std "gauss") (some exPrior) [[⟨a, .ok exPsf⟩, ⟨b, .ok exPsf⟩], [⟨c, .ok exPsf⟩]]
      [0, 0, 0, 0, 4, 1, 1] = .ok (fm, st) ∧
    newFitModel (.std "gauss") (some (priorInUnits exUnits exPrior))
      [[⟨a.map (exUnitPixel 10), .ok exPsf3⟩, ⟨b.map (exUnitPixel 10), .ok exPsf⟩],
        [⟨c.map (exUnitPixel (1 / 2)), .ok exPsf⟩]] [0, 0, 0, 0, 4, 10, 1 / 2] = .ok (fm', st') ∧
    (calcLnprob fm' st' [0, 0, 0, 0, 1, 20, 3 / 2]).2 = (calcLnprob fm st [0, 0, 0, 0, 1, 2, 3]).2 := by
  have hk : ∀ b, 0 < exUnits b := by
    intro b
    unfold exUnits
    split_ifs <;> norm_num
  have hN : notFluxes (.std "gauss") = 5 := by decide
  have hu : ∀ T F G : ℝ, inUnits (.std "gauss") exUnits [0, 0, 0, 0, T, F, G] = [0, 0, 0, 0, T, 10 * F, 1 / 2 * G] := by
    intro T F G
    unfold inUnits
    rw [hN]
    simp [exUnits]
  have hF : ∀ F ∈ exPrior.fs, MeanPositive F := by
    intro F hF
    simp [exPrior] at hF
    rcases hF with rfl | rfl <;> trivial
  have hp := C98_prior (.std "gauss") exUnits hk exPrior (Or.inr (Or.inr ⟨by simp, rfl⟩)) hF
  obtain ⟨st, D, h, -⟩ := ex_fit (some exPrior) a b c
  have hc : CanFit (.std "gauss") := by simp [CanFit]
  have hs := C98_setup (.std "gauss") hc exUnits _ _ _ _ (ex_unit_obs a b c) [0, 0, 0, 0, 4, 1, 1] (hp _)
  rw [h] at hs
  cases h' : newFitModel (.std "gauss") (some (priorInUnits exUnits exPrior))
      [[⟨a.map (exUnitPixel 10), .ok exPsf3⟩, ⟨b.map (exUnitPixel 10), .ok exPsf⟩],
        [⟨c.map (exUnitPixel (1 / 2)), .ok exPsf⟩]] (inUnits (.std "gauss") exUnits [0, 0, 0, 0, 4, 1, 1]) with
  | error e => rw [h'] at hs; exact hs.elim
  | ok r =>
    have hfit := (C98_fit (.std "gauss") hc exUnits hk _ _ _ _ (ex_unit_obs a b c) _ _ _ r.1 st r.2 h h' [] []
      [0, 0, 0, 0, 1, 2, 3] (hp _)).2
    rw [hu] at h' hfit
    refine ⟨_, st, r.1, r.2, h, ?_, ?_⟩
    · rw [← h']; norm_num
    · have e : ([0, 0, 0, 0, 1, 20, 3 / 2] : List ℝ) = [0, 0, 0, 0, 1, 10 * 2, 1 / 2 * 3] := by norm_num
      rw [e]
      exact hfit

/-- A log normal prior of a flux in a unit ten times smaller. -/
example : (Prior1.lognormal 10 5 none).lnprob 20 = (Prior1.lognormal 1 (1 / 2) none).lnprob 2 := by
  have h := (C98_flux_prior 10 (by norm_num) (.lognormal 1 (1 / 2) none) one_pos 2).1
  rw [← h]
  simp only [fluxPriorInUnit, Option.map]
  norm_num

end

end Ngmix.Props
