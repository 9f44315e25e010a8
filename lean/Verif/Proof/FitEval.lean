import Verif.Proof.FitInit
import Verif.Proof.JointPrior

/-!
# The evaluations in terms of the specification
-/

namespace Ngmix.Props

open Ngmix Ngmix.Spec

noncomputable section

theorem onePure_ready {kind : FMKind} {gk : GKind} {n ng : ℕ} (hF : FreshAs kind gk n ng) (dopsf : Bool)
    (bp : List ℝ) (hl : bp.length = n) (i : Img) :
    (onePure dopsf bp i (shOf dopsf gk n ng i)).bind ready = modelFor kind dopsf bp i := by
  unfold onePure modelFor shOf
  rw [hF bp hl]
  cases dopsf
  · simp only [Bool.false_eq_true, if_false, fillPure, hl, ne_eq, not_true]
    cases fillFunc gk bp <;> rfl
  · simp only [if_true]
    cases i.psf with
    | error e => rfl
    | ok q =>
      simp only [Except.bind, fillPure, hl, ne_eq, not_true, if_false]
      cases fillFunc gk bp with
      | error e => rfl
      | ok d => rfl

abbrev Ready (d D : List Gauss) : Prop := ready d = .ok D

theorem band_ready {kind : FMKind} {gk : GKind} {n ng : ℕ} (hF : FreshAs kind gk n ng) (dopsf : Bool)
    (bp : List ℝ) (hl : bp.length = n) (is : List Img) : ∀ Ds,
    List.Forall₂ (fun i d => modelFor kind dopsf bp i = .ok d) is Ds ↔
    ∃ ds, bandPure dopsf bp is (is.map (shOf dopsf gk n ng)) = .ok ds ∧ List.Forall₂ Ready ds Ds := by
  induction is with
  | nil =>
    intro Ds
    constructor
    · intro h; cases h; exact ⟨[], rfl, .nil⟩
    · rintro ⟨ds, h1, h2⟩
      simp only [bandPure, Except.ok.injEq] at h1
      subst h1; cases h2; exact .nil
  | cons i is ih =>
    intro Ds
    rw [List.map_cons, bandPure]
    have h1 := onePure_ready hF dopsf bp hl i
    constructor
    · intro h
      cases h with
      | cons ha hb =>
        rename_i D Ds
        rw [← h1] at ha
        obtain ⟨ds, hds, hr⟩ := (ih Ds).mp hb
        cases ho : onePure dopsf bp i (shOf dopsf gk n ng i) with
        | error e => rw [ho] at ha; simp [Except.bind] at ha
        | ok d =>
          rw [ho] at ha
          exact ⟨d :: ds, by simp [Except.bind, hds, Except.map], .cons ha hr⟩
    · rintro ⟨ds, hds, hr⟩
      cases ho : onePure dopsf bp i (shOf dopsf gk n ng i) with
      | error e => rw [ho] at hds; simp [Except.bind] at hds
      | ok d =>
        rw [ho] at hds
        simp only [Except.bind] at hds
        cases hb : bandPure dopsf bp is (is.map (shOf dopsf gk n ng)) with
        | error e => rw [hb] at hds; simp [Except.map] at hds
        | ok ds' =>
          rw [hb] at hds
          simp only [Except.map, Except.ok.injEq] at hds
          subst hds
          cases hr with
          | cons r1 r2 =>
            refine .cons ?_ ((ih _).mpr ⟨ds', hb, r2⟩)
            rw [← h1, ho]
            exact r1

/-- `IsModel` with the bands numbered from `b`. -/
def IsModelFrom (kind : FMKind) (dopsf : Bool) (pars : List ℝ) (b : ℕ) (obs : List (List Img))
    (D : List (List (List Gauss))) : Prop :=
  D.length = obs.length ∧
  ∀ k is ds, obs[k]? = some is → D[k]? = some ds →
    ∃ bp, kind.bandPars pars (b + k) = .ok bp ∧
      List.Forall₂ (fun i d => modelFor kind dopsf bp i = .ok d) is ds

theorem isModelFrom_cons (kind : FMKind) (dopsf : Bool) (pars : List ℝ) (b : ℕ) (is : List Img)
    (obs : List (List Img)) (ds : List (List Gauss)) (D : List (List (List Gauss))) :
    IsModelFrom kind dopsf pars b (is :: obs) (ds :: D) ↔
    (∃ bp, kind.bandPars pars b = .ok bp ∧
      List.Forall₂ (fun i d => modelFor kind dopsf bp i = .ok d) is ds) ∧
    IsModelFrom kind dopsf pars (b + 1) obs D := by
  constructor
  · rintro ⟨h1, h2⟩
    refine ⟨by simpa using h2 0 is ds rfl rfl, by simpa using h1, ?_⟩
    intro k is' ds' hk hk'
    have := h2 (k + 1) is' ds' (by simpa using hk) (by simpa using hk')
    rwa [show b + (k + 1) = b + 1 + k by omega] at this
  · rintro ⟨h0, h1, h2⟩
    refine ⟨by simpa using h1, ?_⟩
    intro k is' ds' hk hk'
    cases k with
    | zero =>
      simp only [List.getElem?_cons_zero, Option.some.injEq] at hk hk'
      subst hk; subst hk'
      exact h0
    | succ k =>
      have := h2 k is' ds' (by simpa using hk) (by simpa using hk')
      rwa [show b + 1 + k = b + (k + 1) by omega] at this

theorem all_ready {kind : FMKind} {gk : GKind} {ng : ℕ} (hF : FreshAs kind gk (bandN kind) ng) (dopsf : Bool)
    (pars : List ℝ) (hc : ∀ k, kind = .coellip k → pars.length = 4 + 2 * k) (obs : List (List Img)) : ∀ b D,
    IsModelFrom kind dopsf pars b obs D ↔
    ∃ dss, allPure kind dopsf pars b obs (obs.map fun is => is.map (shOf dopsf gk (bandN kind) ng)) = .ok dss ∧
      List.Forall₂ (List.Forall₂ Ready) dss D := by
  induction obs with
  | nil =>
    intro b D
    constructor
    · rintro ⟨h1, -⟩
      have : D = [] := List.length_eq_zero_iff.mp (by simpa using h1)
      subst this
      exact ⟨[], rfl, .nil⟩
    · rintro ⟨dss, h1, h2⟩
      simp only [allPure, Except.ok.injEq] at h1
      subst h1; cases h2
      exact ⟨rfl, by intro k is ds h; simp at h⟩
  | cons is obs ih =>
    intro b D
    rw [List.map_cons, allPure]
    cases D with
    | nil =>
      constructor
      · rintro ⟨h1, -⟩; simp at h1
      · rintro ⟨dss, h1, h2⟩
        cases h2
        cases h0 : kind.bandPars pars b with
        | error e => rw [h0] at h1; simp [Except.bind] at h1
        | ok bp =>
          rw [h0] at h1
          simp only [Except.bind] at h1
          cases hb : bandPure dopsf bp is (is.map (shOf dopsf gk (bandN kind) ng)) with
          | error e => rw [hb] at h1; simp at h1
          | ok ds =>
            rw [hb] at h1
            simp only at h1
            cases ha : allPure kind dopsf pars (b + 1) obs
              (obs.map fun is => is.map (shOf dopsf gk (bandN kind) ng)) <;>
            · rw [ha] at h1; simp [Except.map] at h1
    | cons Ds D =>
      rw [isModelFrom_cons]
      constructor
      · rintro ⟨⟨bp, h0, h1⟩, h2⟩
        obtain ⟨ds, hds, hr⟩ := (band_ready hF dopsf bp (bandPars_length h0 hc) is Ds).mp h1
        obtain ⟨dss, hdss, hrr⟩ := (ih (b + 1) D).mp h2
        exact ⟨ds :: dss, by rw [h0]; simp [Except.bind, hds, hdss, Except.map], .cons hr hrr⟩
      · rintro ⟨dss, h1, h2⟩
        cases h0 : kind.bandPars pars b with
        | error e => rw [h0] at h1; simp [Except.bind] at h1
        | ok bp =>
          rw [h0] at h1
          simp only [Except.bind] at h1
          cases hb : bandPure dopsf bp is (is.map (shOf dopsf gk (bandN kind) ng)) with
          | error e => rw [hb] at h1; simp at h1
          | ok ds =>
            rw [hb] at h1
            simp only at h1
            cases ha : allPure kind dopsf pars (b + 1) obs
              (obs.map fun is => is.map (shOf dopsf gk (bandN kind) ng)) with
            | error e => rw [ha] at h1; simp [Except.map] at h1
            | ok dss' =>
              rw [ha] at h1
              simp only [Except.map, Except.ok.injEq] at h1
              subst h1
              cases h2 with
              | cons r1 r2 =>
                exact ⟨⟨bp, rfl, (band_ready hF dopsf bp (bandPars_length h0 hc) is Ds).mpr ⟨ds, hb, r1⟩⟩,
                  (ih (b + 1) D).mpr ⟨dss', ha, r2⟩⟩

/-! ### The residual loop -/

theorem fdiffLoopFl_eq (gm : List Gauss) (start : ℕ) : ∀ (pixels : List Pixel) (k : ℕ) (l : List Fl),
    start + k + pixels.length ≤ l.length →
    (pixels.foldl (fun (st : ℕ × List Fl) px =>
      (st.1 + 1, st.2.set (start + st.1) (.fin ((gmixEvalFast gm px.v px.u px.area - px.val) * px.ierr))))
      (k, l)).2 =
    l.take (start + k) ++ (pixels.map (residual gm)).map Fl.fin ++ l.drop (start + k + pixels.length) := by
  intro pixels
  induction pixels with
  | nil => intro k l h; simp
  | cons px pixels ih =>
    intro k l h
    simp only [List.length_cons] at h
    rw [List.foldl_cons, ih (k + 1) _ (by simp; omega)]
    have h1 : (l.set (start + k) (.fin (residual gm px))).take (start + (k + 1)) =
        l.take (start + k) ++ [.fin (residual gm px)] := by
      rw [← add_assoc, List.take_add_one, List.take_set_of_le (by omega)]
      congr 1
      rw [List.getElem?_set_self (by omega)]
      rfl
    have h2 : (l.set (start + k) (.fin (residual gm px))).drop (start + (k + 1) + pixels.length) =
        l.drop (start + k + (pixels.length + 1)) := by
      rw [List.drop_set_of_lt (by omega)]
      congr 1
      omega
    change (l.set (start + k) (.fin (residual gm px))).take _ ++ _ ++
      (l.set (start + k) (.fin (residual gm px))).drop _ = _
    rw [h1, h2]
    simp

theorem fillFdiffFl_ready {d D : List Gauss} (h : Ready d D) (pixels : List Pixel) (start : ℕ) (l : List Fl)
    (hl : start + pixels.length ≤ l.length) :
    (fillFdiffFl d pixels start l).2 =
      .ok (l.take start ++ (pixels.map (residual D)).map Fl.fin ++ l.drop (start + pixels.length)) := by
  unfold Ready ready at h
  unfold fillFdiffFl
  rcases hs : setNormsIfNeeded d with ⟨d', r⟩
  rw [hs] at h
  cases r with
  | error e => simp at h
  | ok u =>
    simp only [Except.ok.injEq] at h
    subst h
    exact congrArg _ (fdiffLoopFl_eq d' start pixels 0 l (by omega))

theorem fillFdiffFl_ok {d : List Gauss} {pixels : List Pixel} {start : ℕ} {l l' : List Fl}
    (h : (fillFdiffFl d pixels start l).2 = .ok l') : ∃ D, Ready d D := by
  unfold fillFdiffFl at h
  unfold Ready ready
  rcases hs : setNormsIfNeeded d with ⟨d', r⟩
  rw [hs] at h
  cases r with
  | error e => simp at h
  | ok u => exact ⟨d', rfl⟩

/-- The residuals of some images, in order. -/
def resOf (x : List (Img × List Gauss)) : List ℝ := x.flatMap fun y => y.1.pixels.map (residual y.2)

theorem splice (l a b : List Fl) (start : ℕ) (h : start + (a.length + b.length) ≤ l.length) :
    (l.take start ++ a ++ l.drop (start + a.length)).take (start + a.length) ++ b ++
      (l.take start ++ a ++ l.drop (start + a.length)).drop (start + a.length + b.length) =
    l.take start ++ (a ++ b) ++ l.drop (start + (a.length + b.length)) := by
  have hlen : (l.take start ++ a).length = start + a.length := by
    rw [List.length_append, List.length_take]; omega
  rw [List.take_left' hlen, List.drop_append, hlen]
  rw [List.drop_eq_nil_of_le (by rw [hlen]; omega), List.drop_drop]
  simp only [List.append_assoc, List.nil_append]
  rw [show start + a.length + (start + a.length + b.length - (start + a.length)) =
    start + (a.length + b.length) by omega]

theorem fdBand_ready {ds Ds : List (List Gauss)} (h : List.Forall₂ Ready ds Ds) : ∀ (is : List Img)
    (_ : is.length = ds.length) (l : List Fl) (start : ℕ),
    start + (resOf (is.zip Ds)).length ≤ l.length →
    fdBandPure is ds l start = .ok (l.take start ++ (resOf (is.zip Ds)).map Fl.fin ++
      l.drop (start + (resOf (is.zip Ds)).length), start + (resOf (is.zip Ds)).length) := by
  induction h with
  | nil =>
    intro is hl l start hlen
    have : is = [] := List.length_eq_zero_iff.mp (by simpa using hl)
    subst this
    simp [fdBandPure, resOf]
  | cons h1 h2 ih =>
    rename_i d D ds Ds
    intro is hl l start hlen
    cases is with
    | nil => simp at hl
    | cons i is =>
      have hres : resOf ((i :: is).zip (D :: Ds)) = i.pixels.map (residual D) ++ resOf (is.zip Ds) := by
        simp [resOf]
      rw [hres] at hlen ⊢
      rw [List.length_append, List.length_map] at hlen
      rw [fdBandPure, fillFdiffFl_ready h1 _ _ _ (by omega)]
      simp only [Except.bind]
      have e1 : start + i.pixels.length = start + ((i.pixels.map (residual D)).map Fl.fin).length := by simp
      rw [ih is (by simpa using hl) _ _ (by
        rw [List.length_append, List.length_append, List.length_take, List.length_drop, List.length_map,
          List.length_map]; omega)]
      congr 2
      · have := splice l ((i.pixels.map (residual D)).map Fl.fin) ((resOf (is.zip Ds)).map Fl.fin) start
          (by simp only [List.length_map]; omega)
        simp only [List.length_map] at this
        rw [List.map_append, List.length_append, List.length_map]
        exact this
      · rw [List.length_append, List.length_map]; omega

theorem fdAll_ready {dss D : List (List (List Gauss))} (h : List.Forall₂ (List.Forall₂ Ready) dss D) :
    ∀ (obs : List (List Img)) (_ : List.Forall₂ (fun is ds => is.length = ds.length) obs dss)
      (l : List Fl) (start : ℕ),
    start + (resOf (obs.flatten.zip D.flatten)).length ≤ l.length →
    fdAllPure obs dss l start = .ok (l.take start ++ (resOf (obs.flatten.zip D.flatten)).map Fl.fin ++
      l.drop (start + (resOf (obs.flatten.zip D.flatten)).length),
      start + (resOf (obs.flatten.zip D.flatten)).length) := by
  induction h with
  | nil =>
    intro obs hl l start hlen
    cases hl
    simp [fdAllPure, resOf]
  | cons h1 h2 ih =>
    rename_i ds Ds dss D
    intro obs hl l start hlen
    cases hl with
    | cons hl1 hl2 =>
      rename_i is obs
      have hz : (is :: obs).flatten.zip (Ds :: D).flatten = is.zip Ds ++ obs.flatten.zip D.flatten := by
        rw [List.flatten_cons, List.flatten_cons, List.zip_append (by rw [hl1, h1.length_eq])]
      have hres : resOf ((is :: obs).flatten.zip (Ds :: D).flatten) =
          resOf (is.zip Ds) ++ resOf (obs.flatten.zip D.flatten) := by
        rw [hz]; simp [resOf]
      rw [hres] at hlen ⊢
      rw [List.length_append] at hlen
      rw [fdAllPure, fdBand_ready h1 is hl1 _ _ (by omega)]
      simp only [Except.bind]
      rw [ih obs hl2 _ _ (by
        rw [List.length_append, List.length_append, List.length_take, List.length_drop, List.length_map]; omega)]
      congr 2
      · have := splice l ((resOf (is.zip Ds)).map Fl.fin) ((resOf (obs.flatten.zip D.flatten)).map Fl.fin) start
          (by simp only [List.length_map]; omega)
        simp only [List.length_map] at this
        rw [List.map_append, List.length_append]
        exact this
      · rw [List.length_append]; omega

theorem fdBand_ok {is : List Img} : ∀ {ds : List (List Gauss)} {l : List Fl} {start : ℕ} {r},
    is.length = ds.length → fdBandPure is ds l start = .ok r → ∃ Ds, List.Forall₂ Ready ds Ds := by
  induction is with
  | nil =>
    intro ds l start r hl _
    have : ds = [] := List.length_eq_zero_iff.mp (by simpa using hl.symm)
    subst this
    exact ⟨[], .nil⟩
  | cons i is ih =>
    intro ds l start r hl h
    cases ds with
    | nil => simp at hl
    | cons d ds =>
      rw [fdBandPure] at h
      cases h1 : (fillFdiffFl d i.pixels start l).2 with
      | error e => rw [h1] at h; simp [Except.bind] at h
      | ok l' =>
        rw [h1] at h
        simp only [Except.bind] at h
        obtain ⟨D, hD⟩ := fillFdiffFl_ok h1
        obtain ⟨Ds, hDs⟩ := ih (by simpa using hl) h
        exact ⟨D :: Ds, .cons hD hDs⟩

theorem fdAll_ok {obs : List (List Img)} : ∀ {dss : List (List (List Gauss))} {l : List Fl} {start : ℕ} {r},
    List.Forall₂ (fun is ds => is.length = ds.length) obs dss → fdAllPure obs dss l start = .ok r →
    ∃ D, List.Forall₂ (List.Forall₂ Ready) dss D := by
  induction obs with
  | nil =>
    intro dss l start r hl _
    cases hl
    exact ⟨[], .nil⟩
  | cons is obs ih =>
    intro dss l start r hl h
    cases hl with
    | cons hl1 hl2 =>
      rename_i ds dss
      rw [fdAllPure] at h
      cases h1 : fdBandPure is ds l start with
      | error e => rw [h1] at h; simp [Except.bind] at h
      | ok r1 =>
        rw [h1] at h
        simp only [Except.bind] at h
        obtain ⟨Ds, hDs⟩ := fdBand_ok hl1 h1
        obtain ⟨D, hD⟩ := ih hl2 h
        exact ⟨Ds :: D, .cons hDs hD⟩

/-! ### The likelihood loop -/

/-- The four sums over some images. -/
def llOf (x : List (Img × List Gauss)) : LogLike :=
  ⟨(x.map fun y => -(1 / 2) * (y.1.pixels.map fun px => residual y.2 px ^ 2).sum).sum,
   (x.map fun y => (y.1.pixels.map fun px =>
      px.val * gmixEvalFast y.2 px.v px.u px.area * (px.ierr * px.ierr)).sum).sum,
   (x.map fun y => (y.1.pixels.map fun px =>
      gmixEvalFast y.2 px.v px.u px.area ^ 2 * (px.ierr * px.ierr)).sum).sum,
   (x.map fun y => y.1.pixels.length).sum⟩

def llAdd (a b : LogLike) : LogLike := ⟨a.loglike + b.loglike, a.numer + b.numer, a.denom + b.denom, a.npix + b.npix⟩

theorem getLoglike_ready {d D : List Gauss} (h : Ready d D) (i : Img) :
    (getLoglike d i.pixels).2 = .ok (llOf [(i, D)]) := by
  unfold Ready ready at h
  unfold getLoglike
  rcases hs : setNormsIfNeeded d with ⟨d', r⟩
  rw [hs] at h
  cases r with
  | error e => simp at h
  | ok u =>
    simp only [Except.ok.injEq] at h
    subst h
    obtain ⟨h1, h2, h3, h4⟩ := loglike_sums d' i.pixels
    simp only [h1, h2, h3, h4, llOf, List.map_cons, List.map_nil, List.sum_cons, List.sum_nil, add_zero]
    congr 2
    norm_num
    ring

theorem llOf_append (x y : List (Img × List Gauss)) : llOf (x ++ y) = llAdd (llOf x) (llOf y) := by
  simp [llOf, llAdd]

theorem llAdd_assoc (a b c : LogLike) : llAdd (llAdd a b) c = llAdd a (llAdd b c) := by
  simp only [llAdd, add_assoc]

theorem llBand_ready {ds Ds : List (List Gauss)} (h : List.Forall₂ Ready ds Ds) : ∀ (is : List Img)
    (_ : is.length = ds.length) (acc : LogLike),
    llBandPure is ds acc = .ok (llAdd acc (llOf (is.zip Ds))) := by
  induction h with
  | nil =>
    intro is hl acc
    have : is = [] := List.length_eq_zero_iff.mp (by simpa using hl)
    subst this
    simp [llBandPure, llOf, llAdd]
  | cons h1 h2 ih =>
    rename_i d D ds Ds
    intro is hl acc
    cases is with
    | nil => simp at hl
    | cons i is =>
      rw [llBandPure, getLoglike_ready h1]
      simp only [Except.bind]
      rw [ih is (by simpa using hl)]
      rw [List.zip_cons_cons, show (i, D) :: is.zip Ds = [(i, D)] ++ is.zip Ds from rfl, llOf_append,
        ← llAdd_assoc]
      rfl

theorem llAll_ready {dss D : List (List (List Gauss))} (h : List.Forall₂ (List.Forall₂ Ready) dss D) :
    ∀ (obs : List (List Img)) (_ : List.Forall₂ (fun is ds => is.length = ds.length) obs dss) (acc : LogLike),
    llAllPure obs dss acc = .ok (llAdd acc (llOf (obs.flatten.zip D.flatten))) := by
  induction h with
  | nil =>
    intro obs hl acc
    cases hl
    simp [llAllPure, llOf, llAdd]
  | cons h1 h2 ih =>
    rename_i ds Ds dss D
    intro obs hl acc
    cases hl with
    | cons hl1 hl2 =>
      rename_i is obs
      rw [llAllPure, llBand_ready h1 is hl1]
      simp only [Except.bind]
      rw [ih obs hl2, List.flatten_cons, List.flatten_cons, List.zip_append (by rw [hl1, h1.length_eq]),
        llOf_append, llAdd_assoc]

theorem llBand_ok {is : List Img} : ∀ {ds : List (List Gauss)} {acc : LogLike} {r},
    is.length = ds.length → llBandPure is ds acc = .ok r → ∃ Ds, List.Forall₂ Ready ds Ds := by
  induction is with
  | nil =>
    intro ds acc r hl _
    have : ds = [] := List.length_eq_zero_iff.mp (by simpa using hl.symm)
    subst this
    exact ⟨[], .nil⟩
  | cons i is ih =>
    intro ds acc r hl h
    cases ds with
    | nil => simp at hl
    | cons d ds =>
      rw [llBandPure] at h
      cases h1 : (getLoglike d i.pixels).2 with
      | error e => rw [h1] at h; simp [Except.bind] at h
      | ok l' =>
        rw [h1] at h
        simp only [Except.bind] at h
        have hD : ∃ D, Ready d D := by
          unfold getLoglike at h1
          unfold Ready ready
          rcases hs : setNormsIfNeeded d with ⟨d', r⟩
          rw [hs] at h1
          cases r with
          | error e => simp at h1
          | ok u => exact ⟨d', rfl⟩
        obtain ⟨D, hD⟩ := hD
        obtain ⟨Ds, hDs⟩ := ih (by simpa using hl) h
        exact ⟨D :: Ds, .cons hD hDs⟩

theorem llAll_ok {obs : List (List Img)} : ∀ {dss : List (List (List Gauss))} {acc : LogLike} {r},
    List.Forall₂ (fun is ds => is.length = ds.length) obs dss → llAllPure obs dss acc = .ok r →
    ∃ D, List.Forall₂ (List.Forall₂ Ready) dss D := by
  induction obs with
  | nil =>
    intro dss acc r hl _
    cases hl
    exact ⟨[], .nil⟩
  | cons is obs ih =>
    intro dss acc r hl h
    cases hl with
    | cons hl1 hl2 =>
      rename_i ds dss
      rw [llAllPure] at h
      cases h1 : llBandPure is ds acc with
      | error e => rw [h1] at h; simp [Except.bind] at h
      | ok r1 =>
        rw [h1] at h
        simp only [Except.bind] at h
        obtain ⟨Ds, hDs⟩ := llBand_ok hl1 h1
        obtain ⟨D, hD⟩ := ih hl2 h
        exact ⟨Ds :: D, .cons hDs hD⟩

/-- The lists of mixtures have the lengths of the lists of images. -/
theorem allPure_lengths {kind : FMKind} {dopsf : Bool} {pars : List ℝ} (obs : List (List Img)) : ∀ {b st dss},
    allPure kind dopsf pars b obs st = .ok dss →
    List.Forall₂ (fun is ds => is.length = ds.length) obs dss := by
  have hband : ∀ (bp : List ℝ) (is : List Img) (ss : List (Sh × Sh)) ds, bandPure dopsf bp is ss = .ok ds →
      is.length = ds.length := by
    intro bp is
    induction is with
    | nil => intro ss ds h; simp only [bandPure, Except.ok.injEq] at h; subst h; rfl
    | cons i is ih =>
      intro ss ds h
      cases ss with
      | nil => simp [bandPure] at h
      | cons s ss =>
        rw [bandPure] at h
        cases h1 : onePure dopsf bp i s with
        | error e => rw [h1] at h; simp [Except.bind] at h
        | ok d =>
          rw [h1] at h
          simp only [Except.bind] at h
          cases h2 : bandPure dopsf bp is ss with
          | error e => rw [h2] at h; simp [Except.map] at h
          | ok ds' =>
            rw [h2] at h
            simp only [Except.map, Except.ok.injEq] at h
            subst h
            simp [ih ss ds' h2]
  induction obs with
  | nil => intro b st dss h; simp only [allPure, Except.ok.injEq] at h; subst h; exact .nil
  | cons is obs ih =>
    intro b st dss h
    cases st with
    | nil => simp [allPure] at h
    | cons ss st =>
      rw [allPure] at h
      cases h0 : kind.bandPars pars b with
      | error e => rw [h0] at h; simp [Except.bind] at h
      | ok bp =>
        rw [h0] at h
        simp only [Except.bind] at h
        cases h1 : bandPure dopsf bp is ss with
        | error e => rw [h1] at h; simp at h
        | ok ds =>
          rw [h1] at h
          simp only at h
          cases h2 : allPure kind dopsf pars (b + 1) obs st with
          | error e => rw [h2] at h; simp [Except.map] at h
          | ok dss' =>
            rw [h2] at h
            simp only [Except.map, Except.ok.injEq] at h
            subst h
            exact .cons (hband bp is ss ds h1) (ih h2)

/-! ### The frame of the prior residuals -/

theorem writeTerms_frame (ts : List (Except PyErr Fl)) : ∀ (f : List Fl) (i : ℕ) (g : List Fl) (n : ℕ),
    i ≤ f.length → JointPrior.writeTerms ts f i = .ok (g, n) →
    g.length = f.length ∧ n = i + ts.length ∧ n ≤ f.length ∧ g.drop n = f.drop n := by
  induction ts with
  | nil =>
    intro f i g n hi h
    simp only [JointPrior.writeTerms, Except.ok.injEq, Prod.mk.injEq] at h
    obtain ⟨rfl, rfl⟩ := h
    simp [hi]
  | cons t ts ih =>
    intro f i g n hi h
    cases t with
    | error e => simp [JointPrior.writeTerms, Except.bind] at h
    | ok v =>
      simp only [JointPrior.writeTerms, Except.bind, JointPrior.fdWrite] at h
      split_ifs at h with hlt
      · obtain ⟨h1, h2, h3, h4⟩ := ih _ _ g n (by simp; omega) h
        rw [List.length_set] at h1 h3
        refine ⟨h1, by rw [h2, List.length_cons]; omega, h3, ?_⟩
        rw [h4, List.drop_set_of_lt (by omega)]

theorem fillPriors_frame (prior : Option JointPrior) (pars : List ℝ) (f g : List Fl) (n : ℕ)
    (h : fillPriors prior pars f = .ok (g, n)) :
    g.length = f.length ∧ n ≤ f.length ∧ g.drop n = f.drop n ∧
    ∀ p, prior = some p → Shaped p → n = 3 + (layout p).length := by
  cases prior with
  | none =>
    simp only [fillPriors, Except.ok.injEq, Prod.mk.injEq] at h
    obtain ⟨rfl, rfl⟩ := h
    simp
  | some p =>
    simp only [fillPriors] at h
    have key : ∀ ts : List (Except PyErr Fl), JointPrior.writeTerms ts f 0 = .ok (g, n) →
        g.length = f.length ∧ n ≤ f.length ∧ g.drop n = f.drop n ∧ n = ts.length := by
      intro ts ht
      obtain ⟨h1, h2, h3, h4⟩ := writeTerms_frame ts f 0 g n (by omega) ht
      exact ⟨h1, h3, h4, by omega⟩
    have keyL : ((JointPrior.writeTerms (p.lnTerms pars) f 0).map fun r => (JointPrior.rootPrefix r.1 r.2, r.2)) =
        .ok (g, n) → g.length = f.length ∧ n ≤ f.length ∧ g.drop n = f.drop n ∧ n = (p.lnTerms pars).length := by
      intro ht
      cases hw : JointPrior.writeTerms (p.lnTerms pars) f 0 with
      | error e => rw [hw] at ht; simp [Except.map] at ht
      | ok r =>
        rw [hw] at ht
        obtain ⟨g', n'⟩ := r
        simp only [Except.map, Except.ok.injEq, Prod.mk.injEq] at ht
        obtain ⟨rfl, rfl⟩ := ht
        obtain ⟨h1, h2, h3, h4⟩ := writeTerms_frame _ f 0 g' n' (by omega) hw
        have hlen : ((g'.take n').map fun x => Fl.sqrt (Fl.clip0 (.fin (-2) * x))).length = n' := by
          rw [List.length_map, List.length_take]; omega
        refine ⟨?_, h3, ?_, by omega⟩
        · unfold JointPrior.rootPrefix
          rw [List.length_append, hlen, List.length_drop]; omega
        · unfold JointPrior.rootPrefix
          rw [List.drop_left' hlen, h4]
    have lenL : Shaped p → (p.lnTerms pars).length = 3 + (layout p).length := by
      intro hs
      simp only [JointPrior.lnTerms, List.length_cons, oneDTerms_layout _ p hs, List.length_map,
        List.length_zipIdx]
      omega
    have lenF : Shaped p → (p.fdTerms pars).length = 3 + (layout p).length := by
      intro hs
      simp only [JointPrior.fdTerms, List.length_cons, oneDTerms_layout _ p hs, List.length_map,
        List.length_zipIdx]
      omega
    unfold JointPrior.fillFdiff at h
    cases hcls : p.cls with
    | bd =>
      rw [hcls] at h
      obtain ⟨h1, h2, h3, h4⟩ := key _ h
      exact ⟨h1, h2, h3, fun q hq hs => by injection hq with hq; subst hq; rw [h4, lenF hs]⟩
    | bdf =>
      rw [hcls] at h
      obtain ⟨h1, h2, h3, h4⟩ := key _ h
      exact ⟨h1, h2, h3, fun q hq hs => by injection hq with hq; subst hq; rw [h4, lenF hs]⟩
    | simple =>
      rw [hcls] at h
      obtain ⟨h1, h2, h3, h4⟩ := keyL h
      exact ⟨h1, h2, h3, fun q hq hs => by injection hq with hq; subst hq; rw [h4, lenL hs]⟩
    | spergel =>
      rw [hcls] at h
      obtain ⟨h1, h2, h3, h4⟩ := keyL h
      exact ⟨h1, h2, h3, fun q hq hs => by injection hq with hq; subst hq; rw [h4, lenL hs]⟩
    | coellip k =>
      rw [hcls] at h
      dsimp only at h
      split_ifs at h
      obtain ⟨h1, h2, h3, h4⟩ := keyL h
      exact ⟨h1, h2, h3, fun q hq hs => by injection hq with hq; subst hq; rw [h4, lenL hs]⟩

end

end Ngmix.Props
