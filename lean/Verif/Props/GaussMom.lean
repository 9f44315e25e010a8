import Verif.Props.WSums
import Verif.Props.MomResult
import Verif.Props.Models

/-!
# C75: gaussian weighted moments
-/

namespace Ngmix.Props

open Ngmix Ngmix.Spec

noncomputable section

/-- The smallest widths the weight can have. -/
def WidthOk (sigma : ℝ) : Prop := gmixLowDetval ≤ sigma ^ 4 ∧ gmixLowDetval < 2 * sigma ^ 2

theorem gauss_fill (T : ℝ) : ∃ o, newGMixModel [0.0, 0.0, 0.0, 0.0, T, 1.0] (.str "gauss") = .ok o ∧
    o.data = [gauss2dSet 1 0 0 (T / 2) 0 (T / 2)] := by
  have z : (0.0 : ℝ) = 0 := by norm_num
  have one : (1.0 : ℝ) = 1 := by norm_num
  have hf : fillSimple fvalsGauss pvalsGauss 0 0 0 0 T 1 = .ok [gauss2dSet 1 0 0 (T / 2) 0 (T / 2)] := by
    have hg : g1g2ToE1E2nb (0 : ℝ) 0 = .ok (0, 0) := by
      simp [g1g2ToE1E2nb]
    simp only [fillSimple, hg, Except.map, fvalsGauss, pvalsGauss, List.zip_cons_cons, List.zip_nil_right,
      List.map_cons, List.map_nil, coGauss]
    congr 2
    have h2 : (0.5 : ℝ) * T * 1.0 * (1 - 0) = T / 2 := by norm_num; ring
    have h3 : (0.5 : ℝ) * T * 1.0 * (1 + 0) = T / 2 := by norm_num; ring
    congr 1 <;> norm_num <;> ring
  rw [z, one]
  simp [newGMixModel, num_facts, name_facts, ngauss_facts, npars_facts, Except.bind, fillNames, built, fillChecked, resetObj,
    fillObj, fillFunc, hf]

theorem width_usable (sigma : ℝ) : Usable (gauss2dSet 1 0 0 (2 * sigma ^ 2 / 2) 0 (2 * sigma ^ 2 / 2)) ↔ WidthOk sigma := by
  unfold Usable WidthOk gauss2dSet
  have h1 : 2 * sigma ^ 2 / 2 * (2 * sigma ^ 2 / 2) - 0 * 0 = sigma ^ 4 := by ring
  have h2 : 2 * sigma ^ 2 / 2 + 2 * sigma ^ 2 / 2 = 2 * sigma ^ 2 := by ring
  simp only [h1, h2]

/-- C75.  The constructor refuses only widths that are too small, with GMixRangeError; otherwise the weight is the round
gaussian of the given width, centred on the origin, of peak one (per unit pixel area). -/
theorem C75_weight (fwhm : ℝ) :
    (¬ WidthOk (fwhmToSigma fwhm) → gaussMomWeight fwhm = .error .gmixRange) ∧
    (WidthOk (fwhmToSigma fwhm) → ∃ w w', gaussMomWeight fwhm = .ok [w] ∧ setNormsIfNeeded [w] = ([w'], .ok ()) ∧
      w'.normSet = true ∧ w'.row = 0 ∧ w'.col = 0 ∧ gmGetT [w'] = some (2 * fwhmToSigma fwhm ^ 2) ∧
      ∀ px : Pixel, gmixEval [w'] px.v px.u px.area = some (roundWeight (fwhmToSigma fwhm) px * px.area)) := by
  set s := fwhmToSigma fwhm with hs
  have hT : fwhmToT fwhm = 2 * s ^ 2 := rfl
  obtain ⟨o, ho, hd⟩ := gauss_fill (fwhmToT fwhm)
  have hu := width_usable s
  rw [← hT] at hu
  set g := gauss2dSet 1 0 0 (fwhmToT fwhm / 2) 0 (fwhmToT fwhm / 2) with hg
  have hdc : DetCurrent g := rfl
  obtain ⟨c1, c2⟩ := C20_set_norm g hdc
  constructor
  · intro hw
    have := c2 fun h => hw (hu.1 h)
    unfold gaussMomWeight
    rw [ho]
    simp only [Except.bind, hd, gmixSetNorms, this]
  · intro hw
    have hus := hu.2 hw
    obtain ⟨k1, k2, k3, k4, k5⟩ := c1 hus
    rcases hgn : gauss2dSetNorm g with ⟨g1, r1⟩
    rw [hgn] at k1 k2 k3 k4 k5
    simp only at k1 k2 k3 k4 k5
    obtain ⟨d, hgd, hdet, -, -, -, hnorm, hpn⟩ := k2
    obtain ⟨e1, e2, e3, e4, e5, e6⟩ := k4
    have hspos : 0 < s ^ 2 := by
      have := lowDet_pos
      have := hw.2
      linarith
    have hirr : g1.irr = s ^ 2 := by rw [← e4, hg]; simp only [gauss2dSet, hT]; ring
    have hirc : g1.irc = 0 := by rw [← e5, hg]; rfl
    have hicc : g1.icc = s ^ 2 := by rw [← e6, hg]; simp only [gauss2dSet, hT]; ring
    have hp : g1.p = 1 := by rw [← e1, hg]; rfl
    have hrow : g1.row = 0 := by rw [← e2, hg]; rfl
    have hcol : g1.col = 0 := by rw [← e3, hg]; rfl
    have hdd : g1.irr * g1.icc - g1.irc * g1.irc = (s ^ 2) ^ 2 := by rw [hirr, hirc, hicc]; ring
    have hsq : Real.sqrt ((s ^ 2) ^ 2) = s ^ 2 := Real.sqrt_sq hspos.le
    rw [hdd, hsq] at hnorm
    have hpi := Real.pi_pos
    set w : Gauss := { g1 with p := g1.p * (1.0 / d.norm / psum [g1]), normSet := false } with hwdef
    have hps : psum [g1] = 1 := by simp [psum, hp]
    have hwp : w.p = 2 * Real.pi * s ^ 2 := by
      rw [hwdef]
      simp only [hps, hp, hnorm]
      have : (1.0 : ℝ) = 1 := by norm_num
      rw [this, one_div_one_div]; ring
    have hmake : gaussMomWeight fwhm = .ok [w] := by
      unfold gaussMomWeight
      rw [ho]
      simp only [Except.bind, hd, gmixSetNorms, hgn, k1, List.head?_cons, Option.bind_some, hgd]
      unfold setFlux
      rw [if_neg (by rw [hps]; norm_num)]
      rfl
    have hwu : Usable w := by
      have e : Usable w ↔ Usable g1 := Iff.rfl
      rw [e]
      have : Usable g1 ↔ Usable g := by unfold Usable; rw [e4, e5, e6]
      exact this.2 hus
    have hwd : DetCurrent w := k5
    obtain ⟨m1, m2, m3, m4, m5⟩ := (C20_set_norm w hwd).1 hwu
    rcases hwn : gauss2dSetNorm w with ⟨w', r2⟩
    rw [hwn] at m1 m2 m3 m4 m5
    simp only at m1 m2 m3 m4 m5
    obtain ⟨f1, f2, f3, f4, f5, f6⟩ := m4
    have hirr' : w'.irr = s ^ 2 := by rw [← f4]; exact hirr
    have hirc' : w'.irc = 0 := by rw [← f5]; exact hirc
    have hicc' : w'.icc = s ^ 2 := by rw [← f6]; exact hicc
    have hp' : w'.p = 2 * Real.pi * s ^ 2 := by rw [← f1]; exact hwp
    have hrow' : w'.row = 0 := by rw [← f2]; exact hrow
    have hcol' : w'.col = 0 := by rw [← f3]; exact hcol
    have hdd' : w'.irr * w'.icc - w'.irc * w'.irc = (s ^ 2) ^ 2 := by rw [hirr', hirc', hicc']; ring
    refine ⟨w, w', hmake, ?_, m3, hrow', hcol', ?_, ?_⟩
    · have : w.normSet = false := rfl
      simp only [setNormsIfNeeded, this, Bool.false_eq_true, if_false, gmixSetNorms, hwn, m1]
    · have hsm : SecondMoments [w'] w'.irr w'.irc w'.icc := by
        have hpp : w'.p ≠ 0 := by rw [hp']; positivity
        refine ⟨w'.row, w'.col, ⟨?_, ?_, ?_⟩, ?_, ?_, ?_⟩ <;> simp [Flux, hpp]
      rw [(C18_size_and_shape [w'] _ _ _ hsm).1, hirr', hicc']
      congr 1; ring
    · intro px
      obtain ⟨d', hd', -, h1, h2, h3, h4, h5⟩ := m2
      rw [hdd', hsq, hp'] at h5
      rw [hdd', hirr'] at h1
      rw [hdd', hirc', zero_div] at h2
      rw [hdd', hicc'] at h3
      have hpn : d'.pnorm = 1 := by
        rw [h5]; exact div_self (by positivity)
      simp only [gmixEval, List.foldl_cons, List.foldl_nil, Option.bind_some, gaussEval, hd', Option.map_some, hpn, gaussChi2,
        hrow', hcol', h1, h2, h3, roundWeight]
      congr 1
      rw [zero_add, one_mul]
      congr 2
      have : (-0.5 : ℝ) = -(1 / 2) := by norm_num
      rw [this]
      field_simp
      ring

theorem wsSums_getD (higher : Bool) (a : WAcc) (i : ℕ) (hi : i < nMom higher) :
    (wsSums higher (some a)).getD i .nan = .fin (a.sums i) := by
  have hl : i < ((List.range (nMom higher)).map fun i => Fl.fin (a.sums i)).length := by simpa using hi
  unfold wsSums
  rw [List.getD_eq_getElem?_getD, List.getElem?_eq_getElem hl]
  simp

theorem nMom_cases (higher : Bool) : nMom higher = 6 ∨ nMom higher = 17 := by
  cases higher <;> simp [nMom]

theorem wmom_input (higher : Bool) (a : WAcc) : MomInput (nMom higher) (wsSums higher (some a)) (wsCov higher (some a)) a.cov
    (a.sums 2) (a.sums 3) (a.sums 4) (a.sums 5) := by
  have h5 : 5 < nMom higher := by rcases nMom_cases higher with h | h <;> omega
  refine ⟨nMom_cases higher, ?_, wsSums_getD _ _ _ (by omega), wsSums_getD _ _ _ (by omega), wsSums_getD _ _ _ (by omega),
    wsSums_getD _ _ _ h5, rfl, rfl, fun _ _ _ _ => rfl⟩
  simp [wsSums]

theorem ratioQuad_scale (k a b va vb cab : ℝ) (hk : k ≠ 0) (hb : b ≠ 0) :
    ratioQuad (k * a) (k * b) (k ^ 2 * va) (k ^ 2 * vb) (k ^ 2 * cab) = ratioQuad a b va vb cab := by
  unfold ratioQuad
  field_simp

/-- Decision and values of a successful measurement in units of flux per unit weight, and of a failed one. -/
structure GaussMomResult (higher : Bool) (sigma : ℝ) (pixels : List Pixel) (area : ℝ) (m : WMom) : Prop where
  npix : m.npix = (within 0 0 ((100 * sigma) ^ 2) pixels).length
  flags : m.res.flags = 0 ↔ (∀ i < nMom higher, 0 < gMomentCov sigma pixels i i) ∧ 0 < gMoment sigma pixels 5 ∧
    0 < gMoment sigma pixels 4 ∧ gMoment sigma pixels 2 ≠ 0 ∧ gMoment sigma pixels 3 ≠ 0
  flux : m.res.flags = 0 → m.res.flux = .fin (gMoment sigma pixels 5) ∧
    m.res.fluxErr = .fin (Real.sqrt (gMomentCov sigma pixels 5 5)) ∧
    m.res.s2n = .fin (gMoment sigma pixels 5 / Real.sqrt (gMomentCov sigma pixels 5 5))
  size : m.res.flags = 0 → m.res.T = .fin (gMoment sigma pixels 4 / gMoment sigma pixels 5) ∧
    m.res.Terr = .fin (Real.sqrt (max (ratioQuad (gMoment sigma pixels 4) (gMoment sigma pixels 5)
      (gMomentCov sigma pixels 4 4) (gMomentCov sigma pixels 5 5) (gMomentCov sigma pixels 4 5)) 0))
  shape : m.res.flags = 0 → m.res.e1 = .fin (gMoment sigma pixels 2 / gMoment sigma pixels 4) ∧
    m.res.e2 = .fin (gMoment sigma pixels 3 / gMoment sigma pixels 4) ∧
    m.res.eErr = (.fin (Real.sqrt (max (ratioQuad (gMoment sigma pixels 2) (gMoment sigma pixels 4)
        (gMomentCov sigma pixels 2 2) (gMomentCov sigma pixels 4 4) (gMomentCov sigma pixels 2 4)) 0)),
      .fin (Real.sqrt (max (ratioQuad (gMoment sigma pixels 3) (gMoment sigma pixels 4)
        (gMomentCov sigma pixels 3 3) (gMomentCov sigma pixels 4 4) (gMomentCov sigma pixels 3 4)) 0)))
  sums : m.res.flags = 0 → m.res.sums = (List.range (nMom higher)).map fun i => .fin (gMoment sigma pixels i)
  cov : m.res.flags = 0 → ∀ i < nMom higher, ∀ j < nMom higher, m.res.sumsCov.get i j = .fin (gMomentCov sigma pixels i j)
  errs : m.res.flags = 0 → m.res.sumsErr = (List.range (nMom higher)).map fun i =>
    .fin (Real.sqrt (gMomentCov sigma pixels i i))
  norm : m.res.flags = 0 → m.wsum = .fin (pixSum (within 0 0 ((100 * sigma) ^ 2) pixels) (roundWeight sigma)) ∧
    m.res.sumsNorm = .fin (pixSum (within 0 0 ((100 * sigma) ^ 2) pixels) (roundWeight sigma))
  /-- the position entries of `pars` and the named flux keep the pixel area -/
  pars : m.res.flags = 0 → m.res.pars = some [.fin (area * gMoment sigma pixels 0), .fin (area * gMoment sigma pixels 1),
    .fin (gMoment sigma pixels 2 / gMoment sigma pixels 4), .fin (gMoment sigma pixels 3 / gMoment sigma pixels 4),
    .fin (gMoment sigma pixels 4 / gMoment sigma pixels 5), .fin (gMoment sigma pixels 5)]
  named : (∀ name ∈ ["MF", "M00"], ∃ err, (name, Fl.fin (area * gMoment sigma pixels 5), err) ∈ m.res.named)
  failed : m.res.flags ≠ 0 → m.res.flux = .fin (area * gMoment sigma pixels 5) ∧
    m.res.sums = (List.range (nMom higher)).map fun i => .fin (area * gMoment sigma pixels i)

theorem named_mem {l : List (String × Fl × Fl)} {name : String} {x : Fl} (h : (name, x) ∈ l.map fun y => (y.1, y.2.1)) :
    ∃ err, (name, x, err) ∈ l := by
  obtain ⟨y, hy, he⟩ := List.mem_map.1 h
  obtain ⟨h1, h2⟩ := Prod.mk.inj he
  exact ⟨y.2.2, by rw [← h1, ← h2]; exact hy⟩

/-- C75.  A run on an observation whose pixels (within 100 sigma) have nonzero weight. -/
theorem C75_go (fwhm : ℝ) (hw : WidthOk (fwhmToSigma fwhm)) (higher : Bool) (pixels : List Pixel) (area : ℝ) (ha : 0 < area)
    (hpa : ∀ px ∈ pixels, px.area = area)
    (hz : ∀ px ∈ within 0 0 ((100 * fwhmToSigma fwhm) ^ 2) pixels, px.ierr ≠ 0) :
    ∃ w w' m, gaussMomWeight fwhm = .ok w ∧ gaussMomGo w higher (.obs pixels area) = (w', .ok m) ∧
      GaussMomResult higher (fwhmToSigma fwhm) pixels area m := by
  obtain ⟨w, w', hmake, hn, -, hr0, hc0, hT, hev⟩ := (C75_weight fwhm).2 hw
  set s := fwhmToSigma fwhm with hs
  refine ⟨[w], [w'], ?_⟩
  set P := within 0 0 ((100 * s) ^ 2) pixels with hP
  have hrad : wsMaxrad2 [w'] none = some ((100 * s) ^ 2) := by
    refine radius_eq ⟨fun r h => (by cases h), fun _ => ⟨_, hT, by positivity, by ring⟩⟩
  obtain ⟨-, hloop⟩ := loop_sums higher w' [w'] ((100 * s) ^ 2) (fun px => roundWeight s px * px.area) hev pixels 0
    ⟨0, fun _ => 0, fun _ _ => 0⟩
  rw [hr0, hc0] at hloop
  obtain ⟨a, hla, hadd⟩ := hloop hz
  rw [← hP] at hla hadd
  have hPa : ∀ px ∈ P, px.area = area := by
    intro px hpx
    rw [hP] at hpx
    exact hpa px (List.mem_of_mem_filter hpx)
  have s_eq : ∀ i < nMom higher, a.sums i = area * gMoment s pixels i := by
    intro i hi
    rw [hadd.sums i hi]
    simp only [zero_add]
    unfold gMoment
    rw [← pixSum_mul]
    exact pixSum_congr _ _ _ fun px hpx => by rw [hPa px hpx]; ring
  have c_eq : ∀ i < nMom higher, ∀ j < nMom higher, a.cov i j = area ^ 2 * gMomentCov s pixels i j := by
    intro i hi j hj
    rw [hadd.cov i hi j hj]
    simp only [zero_add]
    unfold gMomentCov
    rw [← pixSum_mul]
    exact pixSum_congr _ _ _ fun px hpx => by rw [hPa px hpx]; ring
  have w_eq : a.wsum = area * pixSum P (roundWeight s) := by
    rw [hadd.wsum]
    simp only [zero_add]
    rw [← pixSum_mul]
    exact pixSum_congr _ _ _ fun px hpx => by rw [hPa px hpx]; ring
  have h5 : 5 < nMom higher := by rcases nMom_cases higher with h | h <;> omega
  have hin := wmom_input higher a
  obtain ⟨r, hr, hf, ht, hsh, hsums, hcov, hnrm⟩ := C11_decision_table _ _ _ _ _ _ _ _ hin (some (wsWsum (some a)))
  obtain ⟨hflag, -⟩ := C11_flags_zero_iff _ _ _ _ _ _ _ _ hin _ r hr
  have hnamed := C11_named_moments _ _ _ _ _ _ _ _ hin _ r hr
  have hgo : getWeightedMoments [w] pixels none higher = ([w'], .ok ⟨r, .fin a.wsum, P.length⟩) := by
    unfold getWeightedMoments getWeightedSums
    rw [hn]
    simp only [hrad, WRes.zero, hla]
    simp only [weightedStats, hr, Except.map, zero_add]
    rfl
  have k2 := s_eq 2 (by omega)
  have k3 := s_eq 3 (by omega)
  have k4 := s_eq 4 (by omega)
  have k5 := s_eq 5 h5
  have dpos : ∀ i < nMom higher, (0 < a.cov i i ↔ 0 < gMomentCov s pixels i i) := by
    intro i hi
    rw [c_eq i hi i hi]
    exact mul_pos_iff_of_pos_left (by positivity)
  have hflag' : r.flags = 0 ↔ (∀ i < nMom higher, 0 < gMomentCov s pixels i i) ∧ 0 < gMoment s pixels 5 ∧
      0 < gMoment s pixels 4 ∧ gMoment s pixels 2 ≠ 0 ∧ gMoment s pixels 3 ≠ 0 := by
    rw [hflag, k2, k3, k4, k5]
    have e1 : (∀ i < nMom higher, 0 < a.cov i i) ↔ ∀ i < nMom higher, 0 < gMomentCov s pixels i i :=
      forall_congr' fun i => forall_congr' fun hi => dpos i hi
    rw [e1, mul_pos_iff_of_pos_left ha, mul_pos_iff_of_pos_left ha, mul_ne_zero_iff, mul_ne_zero_iff]
    simp [ha.ne']
  have hmf : ∀ name ∈ ["MF", "M00"], ∃ err, (name, Fl.fin (area * gMoment s pixels 5), err) ∈ r.named := by
    intro name hname
    apply named_mem
    rw [hnamed, k5]
    refine List.mem_map.2 ⟨(name, 5), ?_, ?_⟩
    · rw [List.mem_filter]
      refine ⟨?_, by simpa using h5⟩
      simp only [List.mem_cons, List.not_mem_nil, or_false] at hname
      rcases hname with rfl | rfl <;> simp [momentsNameMap]
    · simp only [List.mem_cons, List.not_mem_nil, or_false] at hname
      rcases hname with rfl | rfl <;> simp
  by_cases hfl : r.flags = 0
  · refine ⟨gaussMomScale area ⟨r, .fin a.wsum, P.length⟩, hmake, ?_, ?_⟩
    · simp only [gaussMomGo]
      rw [hgo]
      simp only [hfl, ne_eq, not_true_eq_false, if_false]
    · obtain ⟨b1, b2, b3, b4, b5⟩ := hflag.1 hfl
      obtain ⟨g1, g2, g3⟩ := hf.good (b1 5 h5)
      obtain ⟨t1, t2, t3, -⟩ := ht.good (b1 5 h5) (b1 4 (by omega)) b2
      obtain ⟨s1, s2, s3⟩ := hsh.shape b1 b2 b3
      obtain ⟨-, s4⟩ := hsh.good b1 b2 b3 b4 b5
      have m4 : gMoment s pixels 4 ≠ 0 := (hflag'.1 hfl).2.2.1.ne'
      have m5 : gMoment s pixels 5 ≠ 0 := (hflag'.1 hfl).2.1.ne'
      have hfac : (Fl.fin 1 / Fl.fin area : Fl) = .fin (1 / area) := Fl.fin_div _ _ ha.ne'
      have hratio : ∀ x y : ℝ, area * x / (area * y) = x / y := fun x y => mul_div_mul_left x y ha.ne'
      have hsc : ∀ x : ℝ, Fl.fin (area * x) * Fl.fin (1 / area) = .fin x := by
        intro x; rw [Fl.fin_mul]; congr 1; field_simp
      have hsqrt : ∀ x : ℝ, Real.sqrt (area ^ 2 * x) = area * Real.sqrt x := by
        intro x; rw [Real.sqrt_mul (by positivity), Real.sqrt_sq ha.le]
      have c55 := c_eq 5 h5 5 h5
      have c44 := c_eq 4 (by omega) 4 (by omega)
      have c45 := c_eq 4 (by omega) 5 h5
      have c22 := c_eq 2 (by omega) 2 (by omega)
      have c33 := c_eq 3 (by omega) 3 (by omega)
      have c24 := c_eq 2 (by omega) 4 (by omega)
      have c34 := c_eq 3 (by omega) 4 (by omega)
      refine ⟨rfl, ?_, fun _ => ⟨?_, ?_, ?_⟩, fun _ => ⟨?_, ?_⟩, fun _ => ⟨?_, ?_, ?_⟩, fun _ => ?_, fun _ i hi j hj => ?_,
        fun _ => ?_, fun _ => ⟨?_, ?_⟩, fun _ => ?_, ?_, fun h => absurd hfl h⟩
      · exact hflag'
      · simp only [gaussMomScale, hf.flux, k5, hfac, hsc]
      · simp only [gaussMomScale, g2, c55, hsqrt, hfac, hsc]
      · simp only [gaussMomScale, g3, c55, hsqrt, k5, hratio]
      · simp only [gaussMomScale, t2, k4, k5, hratio]
      · simp only [gaussMomScale, t3 b3.ne', k4, k5, c44, c55, c45, ratioQuad_scale area _ _ _ _ _ ha.ne' m5]
      · simp only [gaussMomScale, s1, k2, k4, hratio]
      · simp only [gaussMomScale, s2, k3, k4, hratio]
      · simp only [gaussMomScale, s4, k2, k3, k4, c22, c33, c44, c24, c34, ratioQuad_scale area _ _ _ _ _ ha.ne' m4]
      · simp only [gaussMomScale, hsums, wsSums, List.map_map, hfac]
        apply List.map_congr_left
        intro i hi
        simp only [Function.comp, s_eq i (List.mem_range.1 hi), hsc]
      · simp only [gaussMomScale, hcov, wsCov, hfac, Fl.fin_sq, Fl.fin_mul, c_eq i hi j hj]
        congr 1
        field_simp
      · simp only [gaussMomScale, hsh.sumsErr b1, List.map_map, hfac]
        apply List.map_congr_left
        intro i hi
        have hi' := List.mem_range.1 hi
        simp only [Function.comp, c_eq i hi' i hi', hsqrt, hsc]
      · simp only [gaussMomScale, w_eq, hfac, hsc, hP]
      · simp only [gaussMomScale, hnrm, Option.getD_some, wsWsum, w_eq, hfac, hsc, hP]
      · simp only [gaussMomScale, s3, Option.map_some, hfac, wsSums_getD higher a 0 (by omega),
          wsSums_getD higher a 1 (by omega), s_eq 0 (by omega), s_eq 1 (by omega), k2, k3, k4, k5, hratio,
          List.modify_succ_cons, List.modify_zero_cons, hsc]
      · exact hmf
  · refine ⟨⟨r, .fin a.wsum, P.length⟩, hmake, ?_, ?_⟩
    · simp only [gaussMomGo]
      rw [hgo]
      simp only [ne_eq, hfl, not_false_eq_true, if_true]
    · refine ⟨rfl, hflag', fun h => absurd h hfl, fun h => absurd h hfl, fun h => absurd h hfl, fun h => absurd h hfl,
        fun h => absurd h hfl, fun h => absurd h hfl, fun h => absurd h hfl, fun h => absurd h hfl, hmf, fun _ => ⟨?_, ?_⟩⟩
      · simp only [hf.flux, k5]
      · simp only [hsums, wsSums]
        apply List.map_congr_left
        intro i hi
        rw [s_eq i (List.mem_range.1 hi)]

/-- C75.  A pixel of zero weight within 100 sigma raises ZeroDivisionError. -/
theorem C75_zero_weight (fwhm : ℝ) (hw : WidthOk (fwhmToSigma fwhm)) (higher : Bool) (pixels : List Pixel) (area : ℝ)
    (hz : ∃ px ∈ within 0 0 ((100 * fwhmToSigma fwhm) ^ 2) pixels, px.ierr = 0) :
    ∃ w, gaussMomWeight fwhm = .ok w ∧ (gaussMomGo w higher (.obs pixels area)).2 = .error .zeroDiv := by
  obtain ⟨w, w', hmake, hn, -, hr0, hc0, hT, hev⟩ := (C75_weight fwhm).2 hw
  set s := fwhmToSigma fwhm with hs
  refine ⟨[w], hmake, ?_⟩
  have hrad : wsMaxrad2 [w'] none = some ((100 * s) ^ 2) := by
    refine radius_eq ⟨fun r h => (by cases h), fun _ => ⟨_, hT, by positivity, by ring⟩⟩
  obtain ⟨hloop, -⟩ := loop_sums higher w' [w'] ((100 * s) ^ 2) (fun px => roundWeight s px * px.area) hev pixels 0
    ⟨0, fun _ => 0, fun _ _ => 0⟩
  rw [hr0, hc0] at hloop
  unfold gaussMomGo getWeightedMoments getWeightedSums
  rw [hn]
  simp only [hrad, WRes.zero, hloop hz]

/-- C75.  The lists of observations that the documentation offers are refused: AttributeError. -/
theorem C75_lists (fwhm : ℝ) (hw : WidthOk (fwhmToSigma fwhm)) (higher : Bool) :
    ∃ w, gaussMomWeight fwhm = .ok w ∧ (gaussMomGo w higher .list).2 = .error .attribute := by
  obtain ⟨w, w', hmake, hn, -⟩ := (C75_weight fwhm).2 hw
  refine ⟨[w], hmake, ?_⟩
  simp only [gaussMomGo, hn, Except.bind]

/-- C75.  The measurement can be repeated: the object is unchanged by a run apart from computed norms. -/
theorem C75_repeatable (fwhm : ℝ) (hw : WidthOk (fwhmToSigma fwhm)) (higher : Bool) (x y : GMomArg) :
    ∃ w, gaussMomWeight fwhm = .ok w ∧ (gaussMomGo (gaussMomGo w higher x).1 higher y).2 = (gaussMomGo w higher y).2 := by
  obtain ⟨w, w', hmake, hn, hset, -⟩ := (C75_weight fwhm).2 hw
  refine ⟨[w], hmake, ?_⟩
  have hn' : setNormsIfNeeded [w'] = ([w'], .ok ()) := by simp [setNormsIfNeeded, hset]
  have left : (gaussMomGo [w] higher x).1 = [w'] := by
    cases x with
    | list => simp only [gaussMomGo, hn]
    | obs p a =>
        unfold gaussMomGo getWeightedMoments getWeightedSums
        rw [hn]
        simp only
        cases wsLoop higher w' [w'] (wsMaxrad2 [w'] none) p WRes.zero with
        | error e => rfl
        | ok v => simp only; cases weightedStats higher v <;> rfl
  rw [left]
  cases y with
  | list => simp only [gaussMomGo, hn, hn']
  | obs p a => unfold gaussMomGo getWeightedMoments getWeightedSums; rw [hn, hn']

example : WidthOk (fwhmToSigma (1.2 * fwhmFac)) := by
  have h : fwhmFac ≠ 0 := by
    unfold fwhmFac
    positivity
  have : fwhmToSigma (1.2 * fwhmFac) = 1.2 := by unfold fwhmToSigma; field_simp
  rw [this]
  norm_num [WidthOk, gmixLowDetval]

end

end Ngmix.Props
