import Verif.Model.FitModel
import Verif.Props.Likelihood

/-!
# The evaluations of a fit model as functions of the parameters only
-/

namespace Ngmix.Props

open Ngmix Ngmix.Spec

noncomputable section

/-- Class and number of parameters of a mixture object. -/
abbrev Sh := GKind × ℕ

def sh (o : GMixObj) : Sh := (o.kind, o.npars)
def shP (g : GMixObj × GMixObj) : Sh × Sh := (sh g.1, sh g.2)
def shape (st : FMState) : List (List (Sh × Sh)) := st.map fun gs => gs.map shP

def fillPure (s : Sh) (bp : List ℝ) : Except PyErr (List Gauss) :=
  if bp.length ≠ s.2 then .error .value else fillFunc s.1 bp

def onePure (dopsf : Bool) (bp : List ℝ) (i : Img) (s : Sh × Sh) : Except PyErr (List Gauss) :=
  if dopsf then i.psf.bind fun q => (fillPure s.1 bp).bind fun d => gmixConvolve d q.data
  else fillPure s.2 bp

def bandPure (dopsf : Bool) (bp : List ℝ) :
    List Img → List (Sh × Sh) → Except PyErr (List (List Gauss))
  | [], _ => .ok []
  | _ :: _, [] => .error .index
  | i :: is, s :: ss => (onePure dopsf bp i s).bind fun d => (bandPure dopsf bp is ss).map fun ds => d :: ds

def allPure (kind : FMKind) (dopsf : Bool) (pars : List ℝ) :
    ℕ → List (List Img) → List (List (Sh × Sh)) → Except PyErr (List (List (List Gauss)))
  | _, [], _ => .ok []
  | _, _ :: _, [] => .error .index
  | b, is :: obs, ss :: st => (kind.bandPars pars b).bind fun bp => (bandPure dopsf bp is ss).bind fun ds =>
      (allPure kind dopsf pars (b + 1) obs st).map fun dss => ds :: dss

/-- A stateful outcome against the pure one. -/
def Agrees {α : Type} (r : Except PyErr Unit) (p : Except PyErr α) (good : α → Prop) : Prop :=
  match p with
  | .ok d => r = .ok () ∧ good d
  | .error e => r = .error e

theorem fillGm_sh (gm : GMixObj) (bp : List ℝ) : sh (fillGm gm bp).1 = sh gm := by
  unfold fillGm fillObj
  split_ifs
  · rfl
  · cases fillFunc gm.kind bp <;> rfl

theorem fillGm_agrees (gm : GMixObj) (bp : List ℝ) :
    Agrees (fillGm gm bp).2 (fillPure (sh gm) bp) (fun d => (fillGm gm bp).1.data = d) := by
  unfold fillGm fillPure fillObj Agrees sh
  dsimp only
  split_ifs
  · rfl
  · cases fillFunc gm.kind bp <;> simp

theorem fillOne_sh (dopsf : Bool) (bp : List ℝ) (i : Img) (g : GMixObj × GMixObj) :
    shP (fillOne dopsf bp i g).1 = shP g := by
  unfold fillOne
  have h1 := fillGm_sh g.1 bp
  have h2 := fillGm_sh g.2 bp
  cases dopsf
  · simp only [Bool.false_eq_true, if_false]
    unfold shP
    rw [h2]
  · simp only [if_true]
    cases i.psf with
    | error e => rfl
    | ok q =>
      dsimp only
      rcases hf : fillGm g.1 bp with ⟨g0, r⟩
      rw [hf] at h1
      cases r with
      | error e => unfold shP; rw [← h1]
      | ok u =>
        dsimp only
        cases gmixConvolve g0.data q.data <;> (unfold shP; rw [← h1]; try rfl)

theorem fillOne_agrees (dopsf : Bool) (bp : List ℝ) (i : Img) (g : GMixObj × GMixObj) :
    Agrees (fillOne dopsf bp i g).2 (onePure dopsf bp i (shP g))
      (fun d => (fillOne dopsf bp i g).1.2.data = d) := by
  unfold fillOne onePure
  have h1 := fillGm_agrees g.1 bp
  have h2 := fillGm_agrees g.2 bp
  cases dopsf
  · simp only [Bool.false_eq_true, if_false]
    exact h2
  · simp only [if_true]
    cases i.psf with
    | error e => simp [Except.bind, Agrees]
    | ok q =>
      simp only [Except.bind]
      have hsh : (shP g).1 = sh g.1 := rfl
      rw [hsh]
      rcases hf : fillGm g.1 bp with ⟨g0, r⟩
      rw [hf] at h1
      cases hp : fillPure (sh g.1) bp with
      | error e =>
        rw [hp] at h1
        simp only [Agrees] at h1
        subst h1
        simp [Agrees]
      | ok d =>
        rw [hp] at h1
        simp only [Agrees] at h1
        obtain ⟨rfl, rfl⟩ := h1
        dsimp only
        cases gmixConvolve g0.data q.data <;> simp [Agrees]

theorem fillBand_sh (dopsf : Bool) (bp : List ℝ) (is : List Img) : ∀ gs,
    is.length = gs.length → (fillBand dopsf bp is gs).1.map shP = gs.map shP := by
  induction is with
  | nil => intro gs _; rfl
  | cons i is ih =>
    intro gs hl
    cases gs with
    | nil => simp at hl
    | cons g gs =>
      have h1 := fillOne_sh dopsf bp i g
      have h2 := ih gs (by simpa using hl)
      unfold fillBand
      rcases hx : fillOne dopsf bp i g with ⟨g', r⟩
      rw [hx] at h1
      cases r with
      | error e => simpa using h1
      | ok u =>
        rcases hb : fillBand dopsf bp is gs with ⟨gs', r'⟩
        rw [hb] at h2
        simp only [List.map_cons, List.cons.injEq]
        exact ⟨h1, h2⟩

theorem fillBand_agrees (dopsf : Bool) (bp : List ℝ) (is : List Img) : ∀ gs, is.length = gs.length →
    Agrees (fillBand dopsf bp is gs).2 (bandPure dopsf bp is (gs.map shP))
      (fun ds => (fillBand dopsf bp is gs).1.map (fun g => g.2.data) = ds) := by
  induction is with
  | nil =>
    intro gs hl
    have : gs = [] := List.length_eq_zero_iff.mp (by simpa using hl.symm)
    subst this
    simp [fillBand, bandPure, Agrees]
  | cons i is ih =>
    intro gs hl
    cases gs with
    | nil => simp at hl
    | cons g gs =>
      have h1 := fillOne_agrees dopsf bp i g
      have h2 := ih gs (by simpa using hl)
      unfold fillBand
      rw [List.map_cons, bandPure]
      rcases hf : fillOne dopsf bp i g with ⟨g', r⟩
      rw [hf] at h1
      cases hp : onePure dopsf bp i (shP g) with
      | error e =>
        rw [hp] at h1
        simp only [Agrees] at h1
        subst h1
        simp [Agrees, Except.bind]
      | ok d =>
        rw [hp] at h1
        simp only [Agrees] at h1
        obtain ⟨rfl, rfl⟩ := h1
        simp only [Except.bind]
        rcases hb : fillBand dopsf bp is gs with ⟨gs', r'⟩
        rw [hb] at h2
        cases hq : bandPure dopsf bp is (gs.map shP) with
        | error e =>
          rw [hq] at h2
          simp only [Agrees] at h2
          subst h2
          simp [Agrees, Except.map]
        | ok ds =>
          rw [hq] at h2
          simp only [Agrees] at h2
          obtain ⟨rfl, rfl⟩ := h2
          simp [Agrees, Except.map]

/-- The state has one pair of mixtures per observation. -/
def Fits (obs : List (List Img)) (st : FMState) : Prop :=
  List.Forall₂ (fun is gs => is.length = gs.length) obs st

theorem fits_of_shape {obs : List (List Img)} {st : FMState} (h : Fits obs st) :
    ∀ {st' : FMState}, shape st' = shape st → Fits obs st' := by
  induction h with
  | nil =>
    intro st' hs
    have : st' = [] := by simpa [shape] using hs
    subst this
    exact List.Forall₂.nil
  | cons h1 h2 ih =>
    intro st' hs
    cases st' with
    | nil => simp [shape] at hs
    | cons gs' st' =>
      simp only [shape, List.map_cons, List.cons.injEq] at hs
      refine List.Forall₂.cons ?_ (ih hs.2)
      have := congrArg List.length hs.1
      simp only [List.length_map] at this
      rw [this]
      exact h1

theorem fillAll_sh (kind : FMKind) (dopsf : Bool) (pars : List ℝ) (obs : List (List Img)) : ∀ (b : ℕ) (st : FMState),
    Fits obs st → shape (fillAll kind dopsf pars b obs st).1 = shape st := by
  induction obs with
  | nil => intro b st _; rfl
  | cons is obs ih =>
    intro b st hf
    cases hf with
    | cons h1 h2 =>
      rename_i gs st
      unfold fillAll
      cases kind.bandPars pars b with
      | error e => rfl
      | ok bp =>
        have hb := fillBand_sh dopsf bp is gs h1
        have ha := ih (b + 1) st h2
        dsimp only
        rcases hz : fillBand dopsf bp is gs with ⟨gs', r⟩
        rw [hz] at hb
        cases r with
        | error e => simpa [shape] using hb
        | ok u =>
          dsimp only
          rcases hx : fillAll kind dopsf pars (b + 1) obs st with ⟨st', r'⟩
          rw [hx] at ha
          simp only [shape, List.map_cons, List.cons.injEq]
          exact ⟨hb, ha⟩

/-- The components of the convolved mixtures. -/
def datas (st : FMState) : List (List (List Gauss)) := st.map fun gs => gs.map fun g => g.2.data

theorem fillAll_agrees (kind : FMKind) (dopsf : Bool) (pars : List ℝ) (obs : List (List Img)) :
    ∀ (b : ℕ) (st : FMState), Fits obs st →
    Agrees (fillAll kind dopsf pars b obs st).2 (allPure kind dopsf pars b obs (shape st))
      (fun dss => datas (fillAll kind dopsf pars b obs st).1 = dss) := by
  induction obs with
  | nil =>
    intro b st hf
    cases hf
    simp [fillAll, allPure, Agrees, datas]
  | cons is obs ih =>
    intro b st hf
    cases hf with
    | cons h1 h2 =>
      rename_i gs st
      unfold fillAll
      rw [shape, List.map_cons, allPure]
      cases kind.bandPars pars b with
      | error e => simp [Agrees, Except.bind]
      | ok bp =>
        have hb := fillBand_agrees dopsf bp is gs h1
        have ha := ih (b + 1) st h2
        simp only [Except.bind]
        rcases hx : fillBand dopsf bp is gs with ⟨gs', r⟩
        rw [hx] at hb
        cases hp : bandPure dopsf bp is (gs.map shP) with
        | error e =>
          rw [hp] at hb
          simp only [Agrees] at hb
          subst hb
          simp [Agrees]
        | ok ds =>
          rw [hp] at hb
          simp only [Agrees] at hb
          obtain ⟨rfl, rfl⟩ := hb
          dsimp only
          rcases hy : fillAll kind dopsf pars (b + 1) obs st with ⟨st', r'⟩
          rw [hy] at ha
          change Agrees _ ((allPure kind dopsf pars (b + 1) obs (shape st)).map _) _
          cases hq : allPure kind dopsf pars (b + 1) obs (shape st) with
          | error e =>
            rw [hq] at ha
            simp only [Agrees] at ha
            subst ha
            simp [Agrees, Except.map]
          | ok dss =>
            rw [hq] at ha
            simp only [Agrees] at ha
            obtain ⟨rfl, rfl⟩ := ha
            simp [Agrees, Except.map, datas]

/-! ### The loops over the pixels -/

def fdBandPure : List Img → List (List Gauss) → List Fl → ℕ → Except PyErr (List Fl × ℕ)
  | i :: is, d :: ds, fdiff, start =>
    (fillFdiffFl d i.pixels start fdiff).2.bind fun fdiff' => fdBandPure is ds fdiff' (start + i.pixels.length)
  | _, _, fdiff, start => .ok (fdiff, start)

def fdAllPure : List (List Img) → List (List (List Gauss)) → List Fl → ℕ → Except PyErr (List Fl × ℕ)
  | is :: obs, ds :: dss, fdiff, start =>
    (fdBandPure is ds fdiff start).bind fun r => fdAllPure obs dss r.1 r.2
  | _, _, fdiff, start => .ok (fdiff, start)

theorem fdiffBand_pure (is : List Img) : ∀ gs fdiff start,
    (fdiffBand is gs fdiff start).2 = fdBandPure is (gs.map fun g => g.2.data) fdiff start ∧
    (fdiffBand is gs fdiff start).1.map shP = gs.map shP := by
  induction is with
  | nil => intro gs fdiff start; cases gs <;> exact ⟨rfl, rfl⟩
  | cons i is ih =>
    intro gs fdiff start
    cases gs with
    | nil => exact ⟨rfl, rfl⟩
    | cons g gs =>
      unfold fdiffBand
      rw [List.map_cons, fdBandPure]
      rcases fillFdiffFl g.2.data i.pixels start fdiff with ⟨d, r⟩
      cases r with
      | error e => exact ⟨rfl, rfl⟩
      | ok fdiff' =>
        obtain ⟨h1, h2⟩ := ih gs fdiff' (start + i.pixels.length)
        refine ⟨h1, ?_⟩
        simp only [List.map_cons, h2]
        rfl

theorem fdiffAll_pure (obs : List (List Img)) : ∀ st fdiff start,
    (fdiffAll obs st fdiff start).2 = fdAllPure obs (datas st) fdiff start ∧
    shape (fdiffAll obs st fdiff start).1 = shape st := by
  induction obs with
  | nil => intro st fdiff start; cases st <;> exact ⟨rfl, rfl⟩
  | cons is obs ih =>
    intro st fdiff start
    cases st with
    | nil => exact ⟨rfl, rfl⟩
    | cons gs st =>
      obtain ⟨h1, h2⟩ := fdiffBand_pure is gs fdiff start
      unfold fdiffAll
      rw [datas, List.map_cons, fdAllPure, ← h1]
      rcases hz : fdiffBand is gs fdiff start with ⟨gs', r⟩
      rw [hz] at h2
      cases r with
      | error e => exact ⟨rfl, by simp only [shape, List.map_cons, h2]⟩
      | ok r =>
        obtain ⟨fdiff', start'⟩ := r
        obtain ⟨k1, k2⟩ := ih st fdiff' start'
        refine ⟨k1, ?_⟩
        simp only [shape, List.map_cons, List.cons.injEq]
        exact ⟨h2, k2⟩

def llBandPure : List Img → List (List Gauss) → LogLike → Except PyErr LogLike
  | i :: is, d :: ds, acc =>
    (getLoglike d i.pixels).2.bind fun r => llBandPure is ds ⟨acc.loglike + r.loglike, acc.numer + r.numer,
      acc.denom + r.denom, acc.npix + r.npix⟩
  | _, _, acc => .ok acc

def llAllPure : List (List Img) → List (List (List Gauss)) → LogLike → Except PyErr LogLike
  | is :: obs, ds :: dss, acc => (llBandPure is ds acc).bind fun r => llAllPure obs dss r
  | _, _, acc => .ok acc

theorem loglikeBand_pure (is : List Img) : ∀ gs acc,
    (loglikeBand is gs acc).2 = llBandPure is (gs.map fun g => g.2.data) acc ∧
    (loglikeBand is gs acc).1.map shP = gs.map shP := by
  induction is with
  | nil => intro gs acc; cases gs <;> exact ⟨rfl, rfl⟩
  | cons i is ih =>
    intro gs acc
    cases gs with
    | nil => exact ⟨rfl, rfl⟩
    | cons g gs =>
      unfold loglikeBand
      rw [List.map_cons, llBandPure]
      rcases getLoglike g.2.data i.pixels with ⟨d, r⟩
      cases r with
      | error e => exact ⟨rfl, rfl⟩
      | ok r =>
        obtain ⟨h1, h2⟩ := ih gs ⟨acc.loglike + r.loglike, acc.numer + r.numer, acc.denom + r.denom,
          acc.npix + r.npix⟩
        refine ⟨h1, ?_⟩
        simp only [List.map_cons, h2]
        rfl

theorem loglikeAll_pure (obs : List (List Img)) : ∀ st acc,
    (loglikeAll obs st acc).2 = llAllPure obs (datas st) acc ∧
    shape (loglikeAll obs st acc).1 = shape st := by
  induction obs with
  | nil => intro st acc; cases st <;> exact ⟨rfl, rfl⟩
  | cons is obs ih =>
    intro st acc
    cases st with
    | nil => exact ⟨rfl, rfl⟩
    | cons gs st =>
      obtain ⟨h1, h2⟩ := loglikeBand_pure is gs acc
      unfold loglikeAll
      rw [datas, List.map_cons, llAllPure, ← h1]
      rcases hz : loglikeBand is gs acc with ⟨gs', r⟩
      rw [hz] at h2
      cases r with
      | error e => exact ⟨rfl, by simp only [shape, List.map_cons, h2]⟩
      | ok r =>
        obtain ⟨k1, k2⟩ := ih st r
        refine ⟨k1, ?_⟩
        simp only [shape, List.map_cons, List.cons.injEq]
        exact ⟨h2, k2⟩

/-! ### The two evaluations -/

def catchRange {α : Type} (d : α) : Except PyErr α → Except PyErr α
  | .error .gmixRange => .ok d
  | r => r

def fdiffPure (fm : FitModel) (s : List (List (Sh × Sh))) (pars : List ℝ) : Except PyErr (List Fl) :=
  catchRange (List.replicate fm.fdiffSize .ninf)
    ((allPure fm.kind fm.dopsf pars 0 fm.obs s).bind fun dss =>
      (fillPriors fm.prior pars (List.replicate fm.fdiffSize (.fin 0))).bind fun r =>
        (fdAllPure fm.obs dss r.1 r.2).map fun x => x.1)

def lnprobPure (fm : FitModel) (s : List (List (Sh × Sh))) (pars : List ℝ) : Except PyErr LnprobRes :=
  catchRange ⟨.ninf, 0, 9999.0e47, 0⟩
    ((getPriors fm.prior pars).bind fun lnp =>
      (allPure fm.kind fm.dopsf pars 0 fm.obs s).bind fun dss =>
        (llAllPure fm.obs dss ⟨0, 0, 0, 0⟩).map fun a => ⟨.fin a.loglike + lnp, a.numer, a.denom, a.npix⟩)

theorem calcFdiff_catch (fm : FitModel) (st : FMState) (pars : List ℝ) : calcFdiff fm st pars =
    ((calcFdiffTry fm st pars).1,
      catchRange (List.replicate fm.fdiffSize .ninf) (calcFdiffTry fm st pars).2) := by
  unfold calcFdiff
  rcases calcFdiffTry fm st pars with ⟨st', r⟩
  cases r with
  | ok v => rfl
  | error e => cases e <;> rfl

theorem calcLnprob_catch (fm : FitModel) (st : FMState) (pars : List ℝ) : calcLnprob fm st pars =
    ((calcLnprobTry fm st pars).1, catchRange ⟨.ninf, 0, 9999.0e47, 0⟩ (calcLnprobTry fm st pars).2) := by
  unfold calcLnprob
  rcases calcLnprobTry fm st pars with ⟨st', r⟩
  cases r with
  | ok v => rfl
  | error e => cases e <;> rfl

theorem calcFdiff_pure (fm : FitModel) (st : FMState) (hf : Fits fm.obs st) (pars : List ℝ) :
    (calcFdiff fm st pars).2 = fdiffPure fm (shape st) pars ∧
    shape (calcFdiff fm st pars).1 = shape st := by
  rw [calcFdiff_catch]
  have h1 := fillAll_sh fm.kind fm.dopsf pars fm.obs 0 st hf
  have h2 := fillAll_agrees fm.kind fm.dopsf pars fm.obs 0 st hf
  unfold calcFdiffTry fdiffPure
  rcases hx : fillAll fm.kind fm.dopsf pars 0 fm.obs st with ⟨st1, r⟩
  rw [hx] at h1 h2
  cases hp : allPure fm.kind fm.dopsf pars 0 fm.obs (shape st) with
  | error e =>
    rw [hp] at h2
    simp only [Agrees] at h2
    subst h2
    exact ⟨rfl, h1⟩
  | ok dss =>
    rw [hp] at h2
    simp only [Agrees] at h2
    obtain ⟨rfl, rfl⟩ := h2
    simp only [Except.bind]
    cases fillPriors fm.prior pars (List.replicate fm.fdiffSize (.fin 0)) with
    | error e => exact ⟨rfl, h1⟩
    | ok r =>
      obtain ⟨fdiff, start⟩ := r
      dsimp only
      obtain ⟨k1, k2⟩ := fdiffAll_pure fm.obs st1 fdiff start
      rw [← k1]
      rcases hz : fdiffAll fm.obs st1 fdiff start with ⟨st2, r2⟩
      rw [hz] at k2
      cases r2 with
      | error e => exact ⟨rfl, k2.trans h1⟩
      | ok r2 => exact ⟨rfl, k2.trans h1⟩

theorem calcLnprob_pure (fm : FitModel) (st : FMState) (hf : Fits fm.obs st) (pars : List ℝ) :
    (calcLnprob fm st pars).2 = lnprobPure fm (shape st) pars ∧
    shape (calcLnprob fm st pars).1 = shape st := by
  rw [calcLnprob_catch]
  have h1 := fillAll_sh fm.kind fm.dopsf pars fm.obs 0 st hf
  have h2 := fillAll_agrees fm.kind fm.dopsf pars fm.obs 0 st hf
  unfold calcLnprobTry lnprobPure
  cases getPriors fm.prior pars with
  | error e => exact ⟨rfl, rfl⟩
  | ok lnp =>
    simp only [Except.bind]
    rcases hx : fillAll fm.kind fm.dopsf pars 0 fm.obs st with ⟨st1, r⟩
    rw [hx] at h1 h2
    cases hp : allPure fm.kind fm.dopsf pars 0 fm.obs (shape st) with
    | error e =>
      rw [hp] at h2
      simp only [Agrees] at h2
      subst h2
      exact ⟨rfl, h1⟩
    | ok dss =>
      rw [hp] at h2
      simp only [Agrees] at h2
      obtain ⟨rfl, rfl⟩ := h2
      dsimp only
      obtain ⟨k1, k2⟩ := loglikeAll_pure fm.obs st1 ⟨0, 0, 0, 0⟩
      rw [← k1]
      rcases hz : loglikeAll fm.obs st1 ⟨0, 0, 0, 0⟩ with ⟨st2, r2⟩
      rw [hz] at k2
      cases r2 with
      | error e => exact ⟨rfl, k2.trans h1⟩
      | ok r2 => exact ⟨rfl, k2.trans h1⟩

end

end Ngmix.Props
