import Verif.Spec.Bands
import Verif.Props.Order

/-!
# The order of the bands (C109)
-/

namespace Ngmix.Props

open Ngmix Ngmix.Spec

noncomputable section

theorem fl_add_right_comm (a b c : Fl) : a + b + c = a + c + b := by
  show Fl.add (Fl.add a b) c = Fl.add (Fl.add a c) b
  cases a <;> cases b <;> cases c <;> simp only [Fl.add, Fl.fin.injEq, reduceCtorEq]
  exact add_right_comm _ _ _

theorem sumTerms_iff : ∀ (ts : List (Except PyErr Fl)) (acc v : Fl), JointPrior.sumTerms ts acc = .ok v ↔
    ∃ vs : List Fl, ts = vs.map Except.ok ∧ v = vs.foldl (fun a b => a + b) acc
  | [], acc, v => by
    simp only [JointPrior.sumTerms, Except.ok.injEq]
    constructor
    · rintro rfl; exact ⟨[], rfl, rfl⟩
    · rintro ⟨vs, h1, h2⟩
      rw [List.nil_eq, List.map_eq_nil_iff] at h1
      subst h1
      exact h2.symm
  | .error e :: ts, acc, v => by
    simp only [JointPrior.sumTerms, Except.bind]
    constructor
    · intro h; cases h
    · rintro ⟨vs, h1, -⟩
      rcases vs with _ | ⟨w, vs⟩ <;> simp at h1
  | .ok w :: ts, acc, v => by
    simp only [JointPrior.sumTerms, Except.bind]
    rw [sumTerms_iff ts (acc + w) v]
    constructor
    · rintro ⟨vs, rfl, rfl⟩; exact ⟨w :: vs, rfl, rfl⟩
    · rintro ⟨vs, h1, h2⟩
      rcases vs with _ | ⟨x, vs⟩
      · simp at h1
      · simp only [List.map_cons, List.cons.injEq, Except.ok.injEq] at h1
        obtain ⟨rfl, rfl⟩ := h1
        exact ⟨vs, rfl, h2⟩

theorem sumTerms_perm {ts ts' : List (Except PyErr Fl)} (h : ts.Perm ts') (acc v : Fl)
    (hv : JointPrior.sumTerms ts acc = .ok v) : JointPrior.sumTerms ts' acc = .ok v := by
  rw [sumTerms_iff] at hv ⊢
  obtain ⟨vs, rfl, rfl⟩ := hv
  obtain ⟨vs', rfl, hp⟩ : ∃ vs', ts' = vs'.map Except.ok ∧ vs.Perm vs' := by
    have h2 : ∀ t ∈ ts', ∃ v, t = Except.ok v := by
      intro t ht
      obtain ⟨v, -, rfl⟩ := List.mem_map.1 (h.symm.subset ht)
      exact ⟨v, rfl⟩
    obtain ⟨vs', rfl⟩ : ∃ vs' : List Fl, ts' = vs'.map Except.ok := by
      clear h
      induction ts' with
      | nil => exact ⟨[], rfl⟩
      | cons t ts ih =>
        obtain ⟨v, rfl⟩ := h2 t List.mem_cons_self
        obtain ⟨vs', rfl⟩ := ih fun t ht => h2 t (List.mem_cons_of_mem _ ht)
        exact ⟨v :: vs', rfl⟩
    exact ⟨vs', rfl, (List.map_perm_map_iff fun _ _ h => Except.ok.inj h).1 h⟩
  exact ⟨vs', rfl, hp.foldl_eq' (fun a _ b _ z => fl_add_right_comm z a b) acc⟩

/-- The terms of the flux priors, band by band. -/
theorem flux_terms (m : Prior1 → ℝ → Except PyErr Fl) (shared : List ℝ) (bands : List Band) :
    ((bands.map Band.prior).zipIdx.map fun F => JointPrior.at1 (m F.1) (bandsPars shared bands) (shared.length + F.2)) =
      bands.map fun b => m b.prior b.flux := by
  refine List.ext_getElem (by simp) fun i h1 h2 => ?_
  have hi : i < bands.length := by simpa using h2
  simp only [List.getElem_map, List.getElem_zipIdx, JointPrior.at1, JointPrior.parAt, bandsPars, Nat.zero_add]
  rw [List.getElem?_append_right (by omega)]
  simp [hi, Except.bind]

theorem lnprob_bands {name : String} {n : ℕ} (hn : getModelNpars (.str name) = .ok n) (p : JointPrior) (hs : Shaped p)
    (bands bands' : List Band) (hm : MadeFor (.std name) { p with fs := bands.map Band.prior } bands.length)
    (hp : bands.Perm bands') (shared : List ℝ) (hl : shared.length = n - 1) (v : Fl)
    (h : JointPrior.lnprob { p with fs := bands.map Band.prior } (bandsPars shared bands) = .ok v) :
    JointPrior.lnprob { p with fs := bands'.map Band.prior } (bandsPars shared bands') = .ok v := by
  obtain ⟨cls, cen, g, mids, fs⟩ := p
  obtain ⟨-, hcase⟩ := hm
  simp only at hcase
  have hat : ∀ {i : ℕ} (_ : i < shared.length) (b : List Band), (bandsPars shared b)[i]? = shared[i]? := by
    intro i hi b
    unfold bandsPars
    rw [List.getElem?_append_left hi]
  have hlen : shared.length = 5 ∧ cls = .simple ∨ shared.length = 7 ∧ cls = .bd ∨ shared.length = 6 ∧ cls = .bdf := by
    rcases npars_names hn with ⟨rfl, rfl⟩ | ⟨rfl, rfl⟩ | ⟨rfl, rfl⟩ | ⟨rfl, rfl⟩ | ⟨rfl, rfl⟩ | ⟨rfl, rfl⟩ |
      ⟨rfl, rfl⟩ | ⟨rfl, rfl⟩ <;> simp at hcase <;> simp [hcase, hl]
  have h5 : 5 ≤ shared.length := by rcases hlen with ⟨h, -⟩ | ⟨h, -⟩ | ⟨h, -⟩ <;> omega
  have at2e : ∀ (f : ℝ → ℝ → Except PyErr Fl) (i j : ℕ), i < 5 → j < 5 →
      JointPrior.at2 f (bandsPars shared bands') i j = JointPrior.at2 f (bandsPars shared bands) i j := by
    intro f i j hi hj
    unfold JointPrior.at2 JointPrior.parAt
    rw [hat (by omega), hat (by omega), hat (by omega), hat (by omega)]
  have at1e : ∀ (f : ℝ → Except PyErr Fl) (i : ℕ), i < shared.length →
      JointPrior.at1 f (bandsPars shared bands') i = JointPrior.at1 f (bandsPars shared bands) i := by
    intro f i hi
    unfold JointPrior.at1 JointPrior.parAt
    rw [hat hi, hat hi]
  have hterms : (JointPrior.oneDTerms Prior1.lnprob ⟨cls, cen, g, mids, bands.map Band.prior⟩ (bandsPars shared bands)).Perm
      (JointPrior.oneDTerms Prior1.lnprob ⟨cls, cen, g, mids, bands'.map Band.prior⟩ (bandsPars shared bands')) := by
    have hf := flux_terms Prior1.lnprob shared bands
    have hf' := flux_terms Prior1.lnprob shared bands'
    have hpm := hp.map fun b => b.prior.lnprob b.flux
    rcases hlen with ⟨h0, rfl⟩ | ⟨h0, rfl⟩ | ⟨h0, rfl⟩ <;> rw [h0] at hf hf'
    · obtain ⟨T, rfl⟩ : ∃ T, mids = [T] := List.length_eq_one_iff.1 hs
      simp only [JointPrior.oneDTerms]
      rw [hf, hf', at1e _ 4 (by omega)]
      exact hpm.cons _
    · obtain ⟨T, r, f, rfl⟩ : ∃ T r f, mids = [T, r, f] := List.length_eq_three.1 hs
      simp only [JointPrior.oneDTerms]
      rw [hf, hf', at1e _ 4 (by omega), at1e _ 5 (by omega), at1e _ 6 (by omega)]
      exact ((hpm.cons _).cons _).cons _
    · obtain ⟨T, f, rfl⟩ : ∃ T f, mids = [T, f] := List.length_eq_two.1 hs
      simp only [JointPrior.oneDTerms]
      rw [hf, hf', at1e _ 4 (by omega), at1e _ 5 (by omega)]
      exact (hpm.cons _).cons _
  have key : ∀ c gl, JointPrior.sumTerms (JointPrior.oneDTerms Prior1.lnprob ⟨cls, cen, g, mids, bands.map Band.prior⟩
      (bandsPars shared bands)) (c + gl) = .ok v → JointPrior.sumTerms (JointPrior.oneDTerms Prior1.lnprob
        ⟨cls, cen, g, mids, bands'.map Band.prior⟩ (bandsPars shared bands')) (c + gl) = .ok v :=
    fun c gl hv => sumTerms_perm hterms _ v hv
  have hgo : ∀ (bs : List Band), JointPrior.lnprob ⟨cls, cen, g, mids, bs.map Band.prior⟩ (bandsPars shared bs) =
      (JointPrior.at2 (fun x y => .ok (.fin (cen.lnprob x y))) (bandsPars shared bs) 0 1).bind fun c =>
        (JointPrior.at2 g.lnprob (bandsPars shared bs) 2 3).bind fun gl =>
          JointPrior.sumTerms (JointPrior.oneDTerms Prior1.lnprob ⟨cls, cen, g, mids, bs.map Band.prior⟩ (bandsPars shared bs))
            (c + gl) := by
    intro bs
    rcases hlen with ⟨h, rfl⟩ | ⟨h, rfl⟩ | ⟨h, rfl⟩ <;> rfl
  simp only at h ⊢
  rw [hgo] at h ⊢
  rw [at2e _ 0 1 (by omega) (by omega), at2e _ 2 3 (by omega) (by omega)]
  obtain ⟨c, hc, h⟩ := exBind_ok h
  obtain ⟨gl, hg, h⟩ := exBind_ok h
  rw [hc, hg]
  exact key c gl h

theorem getPriors_bands {name : String} {n : ℕ} (hn : getModelNpars (.str name) = .ok n) (prior : Option JointPrior)
    (bands bands' : List Band) (hm : ∀ p, prior = some p → Shaped p ∧
      MadeFor (.std name) { p with fs := bands.map Band.prior } bands.length)
    (hp : bands.Perm bands') (shared : List ℝ) (hl : shared.length = n - 1) (v : Fl)
    (h : getPriors (bandsPrior prior bands) (bandsPars shared bands) = .ok v) :
    getPriors (bandsPrior prior bands') (bandsPars shared bands') = .ok v := by
  cases prior with
  | none => exact h
  | some p => exact lnprob_bands hn p (hm p rfl).1 bands bands' (hm p rfl).2 hp shared hl v h

/-- The mixtures of the bands, one after the other. -/
theorem isModel_bands {name : String} {n : ℕ} (hn : getModelNpars (.str name) = .ok n) (hname : name ≠ "bdc") (dopsf : Bool)
    (shared : List ℝ) (hl : shared.length = n - 1) : ∀ (pre bands : List Band) (D : List (List (List Gauss))),
    IsModelFrom (.std name) dopsf (bandsPars shared (pre ++ bands)) pre.length (bandImages bands) D ↔
      List.Forall₂ (fun (b : Band) ds => List.Forall₂ (fun i d => modelFor (.std name) dopsf (shared ++ [b.flux]) i = .ok d)
        b.images ds) bands D
  | pre, [], D => by
    unfold IsModelFrom bandImages
    rcases D with _ | ⟨d, D⟩ <;> simp
  | pre, b :: bands, [] => by
    unfold IsModelFrom bandImages
    simp
  | pre, b :: bands, ds :: D => by
    have h1 : (FMKind.std name).bandPars (bandsPars shared (pre ++ b :: bands)) pre.length = .ok (shared ++ [b.flux]) := by
      have := ((C47_band_pars name n hn hname shared ((pre ++ b :: bands).map Band.flux) hl pre.length).1 (by simp)).1
      refine Eq.trans this ?_
      simp
    have ih := isModel_bands hn hname dopsf shared hl (pre ++ [b]) bands D
    rw [List.append_assoc, List.singleton_append, List.length_append, List.length_singleton] at ih
    unfold bandImages at ih ⊢
    rw [List.map_cons, isModelFrom_cons, ih, List.forall₂_cons]
    refine and_congr_left fun _ => ?_
    rw [h1]
    constructor
    · rintro ⟨bp, e, h⟩
      cases e
      exact h
    · exact fun h => ⟨_, rfl, h⟩

theorem pairs_bands {R : Band → List (List Gauss) → Prop} (hR : ∀ b ds, R b ds → b.images.length = ds.length) :
    ∀ {bands : List Band} {D : List (List (List Gauss))}, List.Forall₂ R bands D →
    (bandImages bands).flatten.zip D.flatten = (bands.zip D).flatMap fun x => x.1.images.zip x.2
  | _, _, .nil => rfl
  | _, _, .cons a as => by
    have := pairs_bands hR as
    unfold bandImages at this ⊢
    rw [List.map_cons, List.flatten_cons, List.flatten_cons, List.zip_append (hR _ _ a), this, List.zip_cons_cons,
      List.flatMap_cons]

theorem totpix_bands {kind kind' : FMKind} {prior prior' : Option JointPrior} {d d' : Bool} {bands bands' : List Band} (hp : bands.Perm bands') :
    FitModel.totpix ⟨kind, prior, bandImages bands, d⟩ = FitModel.totpix ⟨kind', prior', bandImages bands', d'⟩ := by
  unfold FitModel.totpix bandImages
  exact (((hp.map _).flatten).map _).sum_eq

variable {name : String} {prior : Option JointPrior} {bands bands' : List Band} {shared : List ℝ} {guess guess' : List ℝ}
  {fm fm' : FitModel} {st st' : FMState}

/-- C109.  Two fits of the same bands in another order, with the flux priors in the same order as the bands, of which both use
the psfs or both do not: at parameters with the fluxes in the order of the bands, whatever the guesses and histories, the same
parameters are in range.  When both evaluations return, the log probability, the sums for the signal to noise and the number of
pixels are the same.  Without prior the residuals are the same numbers in another order. -/
theorem C109_bands {n : ℕ} (hn : getModelNpars (.str name) = .ok n) (hname : name ≠ "bdc") (hl : shared.length = n - 1)
    (hp : bands.Perm bands')
    (hprior : ∀ p, prior = some p → Shaped p ∧ MadeFor (.std name) { p with fs := bands.map Band.prior } bands.length)
    (h : newFitModel (.std name) (bandsPrior prior bands) (bandImages bands) guess = .ok (fm, st))
    (h' : newFitModel (.std name) (bandsPrior prior bands') (bandImages bands') guess' = .ok (fm', st'))
    (hd : fm.dopsf = fm'.dopsf) (calls calls' : List Call) :
    ((∃ D, IsModel fm (bandsPars shared bands) D) ↔ ∃ D, IsModel fm' (bandsPars shared bands') D) ∧
    (∀ r r', (calcLnprob fm (runCalls fm st calls) (bandsPars shared bands)).2 = .ok r →
      (calcLnprob fm' (runCalls fm' st' calls') (bandsPars shared bands')).2 = .ok r' → r = r') ∧
    (prior = none → ∀ l l', (calcFdiff fm (runCalls fm st calls) (bandsPars shared bands)).2 = .ok l →
      (calcFdiff fm' (runCalls fm' st' calls') (bandsPars shared bands')).2 = .ok l' → l.Perm l') := by
  obtain ⟨hk, hpr, hob, -, -, hnp, -⟩ := new_shape h
  obtain ⟨hk', hpr', hob', -, -, hnp', -⟩ := new_shape h'
  have hlb : bands.length = bands'.length := hp.length_eq
  have hnpars : ∀ (b : List Band) (g : List ℝ), (FMKind.std name).npars (bandImages b).length = .ok g.length →
      (bandsPars shared b).length = g.length := by
    intro b g hg
    unfold bandImages at hg
    rw [List.length_map] at hg
    unfold bandsPars
    rw [List.length_append, hl, List.length_map]
    simp only [FMKind.npars, hn, Except.map, Except.ok.injEq] at hg
    have h6 : 1 ≤ n := by
      rcases npars_names hn with ⟨-, rfl⟩ | ⟨-, rfl⟩ | ⟨-, rfl⟩ | ⟨-, rfl⟩ | ⟨-, rfl⟩ | ⟨-, rfl⟩ | ⟨-, rfl⟩ | ⟨-, rfl⟩ <;> omega
    omega
  have hpars := hnpars bands guess hnp
  have hpars' := hnpars bands' guess' hnp'
  have hprior' : ∀ p, prior = some p → Shaped p ∧ MadeFor (.std name) { p with fs := bands'.map Band.prior } bands'.length := by
    intro p e
    obtain ⟨h1, h2⟩ := hprior p e
    refine ⟨h1, ?_⟩
    simp only [MadeFor, List.length_map, true_and] at h2 ⊢
    exact h2
  have hR : ∀ (b : Band) (ds : List (List Gauss)), List.Forall₂ (fun i d => modelFor (.std name) fm.dopsf (shared ++ [b.flux]) i = .ok d)
      b.images ds → b.images.length = ds.length := fun b ds h => h.length_eq
  have hmodel : ∀ D, IsModel fm (bandsPars shared bands) D → ∃ D', IsModel fm' (bandsPars shared bands') D' ∧
      (pairs fm D).Perm (pairs fm' D') := by
    intro D hD
    rw [isModel_from, hk, hob] at hD
    have hD1 := (isModel_bands hn hname fm.dopsf shared hl [] bands D).1 hD
    obtain ⟨D', h1, h2⟩ := permZip hp D hD1
    refine ⟨D', ?_, ?_⟩
    · rw [isModel_from, hk', hob', ← hd]
      exact (isModel_bands hn hname fm.dopsf shared hl [] bands' D').2 h1
    · unfold pairs
      rw [hob, hob', pairs_bands hR hD1, pairs_bands hR h1]
      exact h2.flatMap_right _
  have hmodel' : ∀ D, IsModel fm' (bandsPars shared bands') D → ∃ D', IsModel fm (bandsPars shared bands) D' := by
    intro D hD
    rw [isModel_from, hk', hob', ← hd] at hD
    have hD1 := (isModel_bands hn hname fm.dopsf shared hl [] bands' D).1 hD
    obtain ⟨D', h1, -⟩ := permZip hp.symm D hD1
    exact ⟨D', by rw [isModel_from, hk, hob]; exact (isModel_bands hn hname fm.dopsf shared hl [] bands D').2 h1⟩
  have hout := C47_out_of_range (.std name) _ _ guess fm st h calls _ hpars
  have hout' := C47_out_of_range (.std name) _ _ guess' fm' st' h' calls' _ hpars'
  have hno : ∀ D lnp, IsModel fm (bandsPars shared bands) D → getPriors (bandsPrior prior bands) (bandsPars shared bands) = .ok lnp →
      ∀ r r', (calcLnprob fm (runCalls fm st calls) (bandsPars shared bands)).2 = .ok r →
      (calcLnprob fm' (runCalls fm' st' calls') (bandsPars shared bands')).2 = .ok r' → r = r' := by
    intro D lnp hD hlnp r r' hr hr'
    obtain ⟨D', hD', hpp⟩ := hmodel D hD
    have hlnp' := getPriors_bands hn prior bands bands' hprior hp shared hl lnp hlnp
    rw [C47_lnprob (.std name) _ _ guess fm st h calls _ hpars D hD lnp hlnp, Except.ok.injEq] at hr
    rw [C47_lnprob (.std name) _ _ guess' fm' st' h' calls' _ hpars' D' hD' lnp hlnp', Except.ok.injEq] at hr'
    rw [← hr, ← hr']
    have ht : fm.totpix = fm'.totpix := by
      rw [← residuals_length fm _ D hD, ← residuals_length fm' _ D' hD']
      exact (hpp.flatMap_right _).length_eq
    have hs : ∀ f : Img × List Gauss → ℝ, ((pairs fm D).map f).sum = ((pairs fm' D').map f).sum := fun f => (hpp.map f).sum_eq
    rw [ht]
    simp only [hs]
  refine ⟨⟨fun ⟨D, hD⟩ => ?_, fun ⟨D, hD⟩ => hmodel' D hD⟩, ?_, ?_⟩
  · obtain ⟨D', h1, -⟩ := hmodel D hD
    exact ⟨D', h1⟩
  · intro r r' hr hr'
    rcases hout.2.1 r hr with ⟨⟨D, hD⟩, lnp, hlnp⟩ | h1
    · exact hno D lnp hD hlnp r r' hr hr'
    · rcases hout'.2.1 r' hr' with ⟨⟨D', hD'⟩, lnp, hlnp⟩ | h2
      · obtain ⟨D, hD⟩ := hmodel' D' hD'
        exact hno D lnp hD (getPriors_bands hn prior bands' bands hprior' hp.symm shared hl lnp hlnp) r r' hr hr'
      · rw [h1, h2]
  · rintro rfl l l' hl0 hl0'
    by_cases hex : ∃ D, IsModel fm (bandsPars shared bands) D
    · obtain ⟨D, hD⟩ := hex
      obtain ⟨D', hD', hpp⟩ := hmodel D hD
      rw [(C41_no_prior (.std name) _ guess fm st h calls _ hpars D hD).2, Except.ok.injEq] at hl0
      rw [(C41_no_prior (.std name) _ guess' fm' st' h' calls' _ hpars' D' hD').2, Except.ok.injEq] at hl0'
      rw [← hl0, ← hl0']
      exact (hpp.flatMap_right _).map _
    · have hsz : fm.fdiffSize = fm'.fdiffSize := by
        obtain ⟨k, q, o, d⟩ := fm
        obtain ⟨k', q', o', d'⟩ := fm'
        simp only at hk hk' hpr hpr' hob hob'
        subst hk hk' hpr hpr' hob hob'
        have e := totpix_bands (kind := .std name) (kind' := .std name) (prior := bandsPrior none bands)
          (prior' := bandsPrior none bands') (d := d) (d' := d') hp
        unfold FitModel.fdiffSize
        simp only [e]
        simp only [bandImages, List.length_map, hlb, bandsPrior, Option.map_none]
      rcases hout.1 l hl0 with ⟨h1, -⟩ | h1
      · exact absurd h1 hex
      rcases hout'.1 l' hl0' with ⟨⟨D', hD'⟩, -⟩ | h2
      · exact absurd (hmodel' D' hD') hex
      rw [h1, h2, hsz]

/-! ### Galsim fits -/

theorem galaxy_band (G : GSLib) (kind : GSKind) (shared fluxes : List ℝ) (hl : shared.length = leadPars kind) (b : ℕ) (F : ℝ)
    (hF : fluxes[b]? = some F) (gal : G.Obj) :
    Galaxy G kind (shared ++ fluxes) b gal ↔ Galaxy G kind (shared ++ [F]) 0 gal := by
  cases kind with
  | simple name =>
    match shared, hl with
    | [c1, c2, g1, g2, r], _ =>
      constructor
      · intro h
        cases h with
        | simple _ _ _ _ _ _ F' _ _ o1 o2 _ hF' hr h1 h2 h3 =>
          replace hF' : fluxes[b]? = some F' := hF'
          rw [hF] at hF'
          cases hF'
          exact .simple name c1 c2 g1 g2 r F [F] 0 o1 o2 gal rfl hr h1 h2 h3
      · intro h
        cases h with
        | simple _ _ _ _ _ _ F' _ _ o1 o2 _ hF' hr h1 h2 h3 =>
          cases hF'
          exact .simple name c1 c2 g1 g2 r F fluxes b o1 o2 gal hF hr h1 h2 h3
  | spergel =>
    match shared, hl with
    | [c1, c2, g1, g2, r, nu], _ =>
      constructor
      · intro h
        cases h with
        | spergel _ _ _ _ _ _ F' _ _ o1 o2 _ hF' h1 h2 h3 =>
          replace hF' : fluxes[b]? = some F' := hF'
          rw [hF] at hF'
          cases hF'
          exact .spergel c1 c2 g1 g2 r nu F [F] 0 o1 o2 gal rfl h1 h2 h3
      · intro h
        cases h with
        | spergel _ _ _ _ _ _ F' _ _ o1 o2 _ hF' h1 h2 h3 =>
          cases hF'
          exact .spergel c1 c2 g1 g2 r nu F fluxes b o1 o2 gal hF h1 h2 h3
  | moffat =>
    match shared, hl with
    | [c1, c2, g1, g2, r, nu], _ =>
      constructor
      · intro h
        cases h with
        | moffat _ _ _ _ _ _ F' _ _ o1 o2 _ hF' h1 h2 h3 =>
          replace hF' : fluxes[b]? = some F' := hF'
          rw [hF] at hF'
          cases hF'
          exact .moffat c1 c2 g1 g2 r nu F [F] 0 o1 o2 gal rfl h1 h2 h3
      · intro h
        cases h with
        | moffat _ _ _ _ _ _ F' _ _ o1 o2 _ hF' h1 h2 h3 =>
          cases hF'
          exact .moffat c1 c2 g1 g2 r nu F fluxes b o1 o2 gal hF h1 h2 h3

theorem images_bands (G : GSLib) (kind : GSKind) (shared : List ℝ) (hl : shared.length = leadPars kind) :
    ∀ (pre bands : List KBand) (ms : List (List (List ℂ))),
    ModelImages G kind (shared ++ (pre ++ bands).map KBand.flux) pre.length (bands.map KBand.obs) ms ↔
      List.Forall₂ (fun (b : KBand) m => List.Forall₂ (ModelImage G kind (shared ++ [b.flux]) 0) b.obs m) bands ms
  | pre, [], ms => by
    simp only [List.map_nil, ModelImages, List.forall₂_nil_left_iff]
  | pre, b :: bands, ms => by
    have ih := fun ms => images_bands G kind shared hl (pre ++ [b]) bands ms
    rw [List.append_assoc, List.singleton_append, List.length_append, List.length_singleton] at ih
    have e : ∀ k m, ModelImage G kind (shared ++ (pre ++ b :: bands).map KBand.flux) pre.length k m ↔
        ModelImage G kind (shared ++ [b.flux]) 0 k m := by
      intro k m
      unfold ModelImage
      simp only [galaxy_band G kind shared ((pre ++ b :: bands).map KBand.flux) hl pre.length b.flux (by simp)]
    have e2 : ModelImage G kind (shared ++ (pre ++ b :: bands).map KBand.flux) pre.length = ModelImage G kind (shared ++ [b.flux]) 0 := by
      funext k m
      exact propext (e k m)
    rw [List.map_cons]
    simp only [ModelImages, ih, e2]
    constructor
    · rintro ⟨m, ms', rfl, h1, h2⟩
      exact .cons h1 h2
    · intro h
      cases h with
      | cons h1 h2 => exact ⟨_, _, rfl, h1, h2⟩

theorem kpairs_bands {R : KBand → List (List ℂ) → Prop} (hR : ∀ b m, R b m → m.length = b.obs.length) :
    ∀ {bands : List KBand} {ms : List (List (List ℂ))}, List.Forall₂ R bands ms →
    ms.flatten.zip (bands.map KBand.obs).flatten = (bands.zip ms).flatMap fun x => x.2.zip x.1.obs
  | _, _, .nil => rfl
  | _, _, .cons a as => by
    rw [List.map_cons, List.flatten_cons, List.flatten_cons, List.zip_append (hR _ _ a), kpairs_bands hR as, List.zip_cons_cons,
      List.flatMap_cons]

/-- C109.  Galsim fits: with the bands in another order and the fluxes of the guess in that order, the same guesses are
accepted, the same parameters are in range, and without prior the residuals are the same numbers in another order, after any
histories. -/
theorem C109_galsim (G : GSLib) (kind : GSKind) (bands bands' : List KBand) (hp : bands.Perm bands') (shared : List ℝ)
    (hl : shared.length = leadPars kind) (hm : OwnMeta (bands.map KBand.obs))
    (hk : ∀ k ∈ (bands.map KBand.obs).flatten, KSized k) :
    (∀ prior prior' mem, (∃ mem' f, newGSFit G kind prior (bands.map KBand.obs) (shared ++ bands.map KBand.flux) mem = (mem', .ok f)) ↔
      ∃ mem' f, newGSFit G kind prior' (bands'.map KBand.obs) (shared ++ bands'.map KBand.flux) mem = (mem', .ok f)) ∧
    ((∃ ms, ModelImages G kind (shared ++ bands.map KBand.flux) 0 (bands.map KBand.obs) ms) ↔
      ∃ ms, ModelImages G kind (shared ++ bands'.map KBand.flux) 0 (bands'.map KBand.obs) ms) ∧
    ∀ guess guess' mem0 mem0' mem mem' f f', newGSFit G kind none (bands.map KBand.obs) guess mem0 = (mem, .ok f) →
      newGSFit G kind none (bands'.map KBand.obs) guess' mem0' = (mem', .ok f') → ∀ l l',
      (∃ ms, ModelImages G kind (shared ++ bands.map KBand.flux) 0 (bands.map KBand.obs) ms) → ∃ r r',
        (gsFdiff G f (gsCalls G f mem l) (shared ++ bands.map KBand.flux)).2 = .ok r ∧
        (gsFdiff G f' (gsCalls G f' mem' l') (shared ++ bands'.map KBand.flux)).2 = .ok r' ∧ r.Perm r' := by
  have hfl : (bands.map KBand.obs).flatten.Perm (bands'.map KBand.obs).flatten := (hp.map _).flatten
  have hm' : OwnMeta (bands'.map KBand.obs) := (hfl.map _).nodup_iff.1 hm
  have hk' : ∀ k ∈ (bands'.map KBand.obs).flatten, KSized k := fun k h => hk k (hfl.symm.subset h)
  have himg : ∀ (bs : List KBand) ms, ModelImages G kind (shared ++ bs.map KBand.flux) 0 (bs.map KBand.obs) ms ↔
      List.Forall₂ (fun (b : KBand) m => List.Forall₂ (ModelImage G kind (shared ++ [b.flux]) 0) b.obs m) bs ms :=
    fun bs ms => images_bands G kind shared hl [] bs ms
  have hR : ∀ (b : KBand) (m : List (List ℂ)), List.Forall₂ (ModelImage G kind (shared ++ [b.flux]) 0) b.obs m →
      m.length = b.obs.length := fun b m h => h.length_eq.symm
  refine ⟨?_, ?_, ?_⟩
  · intro prior prior' mem
    rw [C80_construct, C80_construct]
    have hg : ∀ (bs : List KBand), (∀ b < (bs.map KBand.obs).length, ∃ gal, Galaxy G kind (shared ++ bs.map KBand.flux) b gal) ↔
        ∀ b ∈ bs, ∃ gal, Galaxy G kind (shared ++ [b.flux]) 0 gal := by
      intro bs
      have e : ∀ b (hb : b < bs.length) gal, Galaxy G kind (shared ++ bs.map KBand.flux) b gal ↔
          Galaxy G kind (shared ++ [bs[b].flux]) 0 gal := fun b hb gal =>
        galaxy_band G kind shared _ hl b _ (by simp [hb]) gal
      constructor
      · intro h b hb
        obtain ⟨i, hi, rfl⟩ := List.getElem_of_mem hb
        obtain ⟨gal, hgal⟩ := h i (by simpa using hi)
        exact ⟨gal, (e i hi gal).1 hgal⟩
      · intro h b hb
        rw [List.length_map] at hb
        obtain ⟨gal, hgal⟩ := h bs[b] (List.getElem_mem hb)
        exact ⟨gal, (e b hb gal).2 hgal⟩
    rw [hg, hg]
    simp only [List.length_append, List.length_map, hl, hp.length_eq, hp.mem_iff]
  · constructor
    · rintro ⟨ms, h⟩
      obtain ⟨ms', h1, -⟩ := permZip hp ms ((himg _ _).1 h)
      exact ⟨ms', (himg _ _).2 h1⟩
    · rintro ⟨ms, h⟩
      obtain ⟨ms', h1, -⟩ := permZip hp.symm ms ((himg _ _).1 h)
      exact ⟨ms', (himg _ _).2 h1⟩
  · rintro guess guess' mem0 mem0' mem mem' f f' h h' l l' ⟨ms, hms⟩
    have hg := ((C80_construct G kind none _ guess mem0).1 ⟨_, _, h⟩).2.1
    have hg' := ((C80_construct G kind none _ guess' mem0').1 ⟨_, _, h'⟩).2.1
    have h1 := (himg _ _).1 hms
    obtain ⟨ms', h2, hz⟩ := permZip hp ms h1
    refine ⟨_, _, C80_residuals h hm hk l _ (by rw [hg]; simp [hl]) ms hms,
      C80_residuals h' hm' hk' l' _ (by rw [hg']; simp [hl]) ms' ((himg _ _).2 h2), ?_⟩
    unfold kResids
    rw [kpairs_bands hR h1, kpairs_bands hR h2]
    exact ((hz.flatMap_right _).flatMap_right _).map _

/-! ### Examples -/

/-- Two bands in both orders, with a prior: the hypotheses of `C109_bands` are met. -/
example (a c : List Pixel) (P Q : Prior1) : ∃ (bands bands' : List Band) (fm fm' : FitModel) (st st' : FMState),
    bands.Perm bands' ∧ bands ≠ bands' ∧
    newFitModel (.std "gauss") (bandsPrior (some exPrior) bands) (bandImages bands) [0, 0, 0, 0, 4, 1, 1] = .ok (fm, st) ∧
    newFitModel (.std "gauss") (bandsPrior (some exPrior) bands') (bandImages bands') [0, 0, 0, 0, 4, 1, 1] = .ok (fm', st') ∧
    fm.dopsf = fm'.dopsf ∧ Shaped exPrior ∧
    MadeFor (.std "gauss") { exPrior with fs := bands.map Band.prior } bands.length := by
  have hk : CanFit (.std "gauss") := by simp [CanFit]
  have hf : Feasible (.std "gauss") [0, 0, 0, 0, 4, 1, 1] := by
    simp [Feasible, InDisk]
  have hpsf : ∀ x : List Pixel, psfRefusal ⟨x, .ok exPsf⟩ = none := by
    intro x
    simp [psfRefusal, exPsf, gauss2dSet, Flux]
  have hset : ∀ (x y : List Pixel) (R S : Prior1), ∃ st, newFitModel (.std "gauss") (some { exPrior with fs := [R, S] })
      [[⟨x, .ok exPsf⟩], [⟨y, .ok exPsf⟩]] [0, 0, 0, 0, 4, 1, 1] =
        .ok (⟨.std "gauss", some { exPrior with fs := [R, S] }, [[⟨x, .ok exPsf⟩], [⟨y, .ok exPsf⟩]], true⟩, st) := by
    intro x y R S
    exact ((C92_setup (.std "gauss") hk _ ⟨x, .ok exPsf⟩ [] [[⟨y, .ok exPsf⟩]] [0, 0, 0, 0, 4, 1, 1] 7 rfl rfl).2.2 hf
      ⟨_, rfl⟩).1 (by simp [hpsf])
  obtain ⟨st, h1⟩ := hset a c P Q
  obtain ⟨st', h2⟩ := hset c a Q P
  refine ⟨[⟨[⟨a, .ok exPsf⟩], 1, P⟩, ⟨[⟨c, .ok exPsf⟩], 2, Q⟩], [⟨[⟨c, .ok exPsf⟩], 2, Q⟩, ⟨[⟨a, .ok exPsf⟩], 1, P⟩], _, _, st, st',
    .swap _ _ _, by simp, h1, h2, rfl, rfl, rfl, by simp [exPrior]⟩

/-- The toy galaxy in two bands, in both orders. -/
example (mem0 : KMem) (l l' : List GSOp) : ∃ mem f mem' f' r r',
    newGSFit toyGal (.simple "exp") none [[toyK 1 0], [toyK 4 1]] [0, 0, 0.1, 0, 1, 2, 3] mem0 = (mem, .ok f) ∧
    newGSFit toyGal (.simple "exp") none [[toyK 4 1], [toyK 1 0]] [0, 0, 0.1, 0, 1, 3, 2] mem0 = (mem', .ok f') ∧
    (gsFdiff toyGal f (gsCalls toyGal f mem l) [0, 0, 0.1, 0, 1, 2, 3]).2 = .ok r ∧
    (gsFdiff toyGal f' (gsCalls toyGal f' mem' l') [0, 0, 0.1, 0, 1, 3, 2]).2 = .ok r' ∧ r.Perm r' := by
  have hp : [⟨[toyK 1 0], 2⟩, ⟨[toyK 4 1], 3⟩].Perm [(⟨[toyK 4 1], 3⟩ : KBand), ⟨[toyK 1 0], 2⟩] := .swap _ _ _
  obtain ⟨h1, -, h3⟩ := C109_galsim toyGal (.simple "exp") _ _ hp [0, 0, 0.1, 0, 1] rfl (by simp [OwnMeta, toyK]) (by
    intro k hk
    simp only [List.map_cons, List.map_nil, List.flatten_cons, List.flatten_nil, List.append_nil, List.singleton_append,
      List.mem_cons, List.not_mem_nil, or_false] at hk
    rcases hk with rfl | rfl <;> exact toyK_sized _ _)
  have hnew : ∃ mem' f, newGSFit toyGal (.simple "exp") none [[toyK 1 0], [toyK 4 1]] [0, 0, 0.1, 0, 1, 2, 3] mem0 = (mem', .ok f) := by
    rw [C80_construct]
    refine ⟨by intro name h; cases h; exact .inl rfl, rfl, ?_⟩
    intro b hb
    have hb : b < 2 := hb
    have hs : (0.1 : ℝ) ^ 2 + 0 ^ 2 < 1 := by norm_num
    interval_cases b
    · exact ⟨(2 : ℝ), Galaxy.simple (G := toyGal) "exp" 0 0 0.1 0 1 2 [2, 3] 0 (2 : ℝ) (2 : ℝ) (2 : ℝ) rfl (by norm_num) rfl (if_pos hs) rfl⟩
    · exact ⟨(3 : ℝ), Galaxy.simple (G := toyGal) "exp" 0 0 0.1 0 1 3 [2, 3] 1 (3 : ℝ) (3 : ℝ) (3 : ℝ) rfl (by norm_num) rfl (if_pos hs) rfl⟩
  obtain ⟨mem', f', h'⟩ := (h1 none none mem0).1 hnew
  obtain ⟨mem, f, h⟩ := hnew
  obtain ⟨r, r', k1, k2, k3⟩ := h3 _ _ _ _ _ _ _ _ h h' l l' ⟨_, (images_bands toyGal (.simple "exp") [0, 0, 0.1, 0, 1] rfl []
    [⟨[toyK 1 0], 2⟩, ⟨[toyK 4 1], 3⟩] [[[(2 : ℝ)]], [[(3 : ℝ)]]]).2 (.cons (.cons (toy_image 2 (by norm_num) 1 0) .nil)
      (.cons (.cons (toy_image 3 (by norm_num) 4 1) .nil) .nil))⟩
  exact ⟨mem, f, mem', f', r, r', h, h', k1, k2, k3⟩

end

end Ngmix.Props
