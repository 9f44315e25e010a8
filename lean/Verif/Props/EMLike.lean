import Verif.Proof.EMLike
import Verif.Props.EM

/-!
# C103: EM and the likelihood
-/

namespace Ngmix.Props

open Ngmix Ngmix.Spec Ngmix.Proof.EM

noncomputable section

theorem chain_path {kind : EMKind} {vary fill : Bool} {psf : List Gauss} {n : ℕ} {a b : EMPoint}
    (h : EMChain kind vary fill psf n a b) : ∃ path : ℕ → EMPoint, path 0 = a ∧ path n = b ∧
      ∀ k < n, EMUpdate kind vary fill psf (path k) (path (k + 1)) := by
  induction h with
  | one a b h =>
    refine ⟨fun k => if k = 0 then a else b, rfl, rfl, fun k hk => ?_⟩
    have : k = 0 := by omega
    subst this
    exact h
  | snoc n a b c _ h2 ih =>
    obtain ⟨path, h0, hn, hs⟩ := ih
    refine ⟨fun k => if k ≤ n then path k else c, by simp [h0], by simp, fun k hk => ?_⟩
    rcases Nat.lt_succ_iff_lt_or_eq.mp hk with hk | rfl
    · simp only [if_pos hk.le, if_pos (Nat.succ_le_of_lt hk)]
      exact hs k hk
    · simp only [le_refl, if_true, if_neg (Nat.not_succ_le_self k), hn]
      exact h2

/-- C103: with nonnegative pixel values, sky and fluxes, the iterations of a fit are a path of mixtures and skies, from the
guess to the result.  A fit of the fluxes alone lowers the likelihood of the unmasked pixels in no iteration.  The other
fits, with a psf of one gaussian (or none), lower it in an iteration by at most `1e-4` of the flux found, if every
gaussian keeps the pixels that it had light from and no covariance was replaced. -/
theorem C103_iterations (f : EMFitter) (obs : EMObs) (guess : GMixObj) (sky : Option ℝ) (i : EMInput obs guess sky)
    (hpx : ∀ p ∈ i.px, 0 ≤ p.val ∧ 0 ≤ p.area) (hs0 : 0 ≤ i.s) (hg0 : ∀ g ∈ i.g0.data, 0 ≤ g.p)
    (hpsf : ∀ g ∈ i.psf.data, 0 ≤ g.p) (res : EMResult) (h : emGo f obs guess sky = some (.ok res))
    (gm : GMixObj) (hg : res.getGmix = .ok gm) :
    ∃ n, ∃ path : ℕ → EMPoint, res.numiter = some n ∧
      (path 0).gmix = i.g0.data ∧ (path 0).pixels = i.px ∧ (path 0).sky = i.s ∧
      List.Forall₂ SameGauss (path n).gmix gm.data ∧ res.sky = some (path n).sky ∧
      (∀ k ≤ n, IsConvolved (path k).gmix i.psf.data (path k).conv) ∧
      ∀ k < n, EMUpdate f.kind f.varySky (anyZeroWeight i.px) i.psf.data (path k) (path (k + 1)) ∧
        (f.kind = .fluxonly →
          logLike (anyZeroWeight i.px) i.px (path k) ≤ logLike (anyZeroWeight i.px) i.px (path (k + 1))) ∧
        ∀ q, i.psf.data = [q] → StillCovered (path (k + 1)).pixels (path k) (path (k + 1)) →
          (movesCov f.kind = true → NoneForced q (path (k + 1)).pixels (path k)) →
          logLike (anyZeroWeight i.px) i.px (path k) ≤
            logLike (anyZeroWeight i.px) i.px (path (k + 1)) + 1e-4 * Flux (path (k + 1)).gmix := by
  obtain ⟨n, conv0, b, cv, hn, c1, c2, hs, hgm, -, -⟩ := C48_fit f obs guess sky i res h gm hg
  obtain ⟨path, h0, h1, hstep⟩ := chain_path c2
  have key : ∀ k, k ≤ n → Nonneg i.psf.data (path k) ∧
      ∀ c, logLike (anyZeroWeight i.px) (path k).pixels c = logLike (anyZeroWeight i.px) i.px c := by
    intro k
    induction k with
    | zero => intro _; rw [h0]; exact ⟨⟨c1, hg0, hpx, hs0⟩, fun _ => rfl⟩
    | succ k ih =>
      intro hk
      obtain ⟨h2, h3⟩ := ih (by omega)
      have hu := hstep k (by omega)
      refine ⟨update_nonneg hpsf _ _ hu h2, fun c => ?_⟩
      rw [hu.1, logLike_filled, h3]
  refine ⟨n, path, hn, by rw [h0], by rw [h0], by rw [h0], by rw [h1]; exact hgm, by rw [h1]; exact hs, fun k hk => (key k hk).1.1,
    fun k hk => ⟨hstep k hk, fun hf => ?_, fun q hq hcov hforce => ?_⟩⟩
  · have hu := hstep k hk
    rw [hf] at hu
    obtain ⟨h2, h3⟩ := key k hk.le
    have := like_fluxonly hpsf hu h2
    rwa [h3, h3] at this
  · have hu := hstep k hk
    obtain ⟨h2, h3⟩ := key k hk.le
    obtain ⟨h4, -⟩ := key (k + 1) hk
    have hfl : 0 ≤ Flux (path (k + 1)).gmix := List.sum_nonneg fun x hx => by
      obtain ⟨g, hg, rfl⟩ := List.mem_map.mp hx
      exact h4.2.1 g hg
    by_cases hf : f.kind = .fluxonly
    · rw [hf] at hu
      have := like_fluxonly hpsf hu h2
      rw [h3, h3] at this
      norm_num
      linarith
    · rw [hq] at hu h2
      have := like_moved hf (hpsf q (by rw [hq]; simp)) hu h2 hcov hforce
      rwa [h3, h3] at this

/-- C103: the result of a fit of the fluxes alone is at least as likely as the guess, whatever the psf. -/
theorem C103_fluxonly (f : EMFitter) (hf : f.kind = .fluxonly) (obs : EMObs) (guess : GMixObj) (sky : Option ℝ)
    (i : EMInput obs guess sky)
    (hpx : ∀ p ∈ i.px, 0 ≤ p.val ∧ 0 ≤ p.area) (hs0 : 0 ≤ i.s) (hg0 : ∀ g ∈ i.g0.data, 0 ≤ g.p)
    (hpsf : ∀ g ∈ i.psf.data, 0 ≤ g.p) (res : EMResult) (h : emGo f obs guess sky = some (.ok res))
    (gm : GMixObj) (hg : res.getGmix = .ok gm) :
    ∃ conv0 conv1 sky', res.sky = some sky' ∧ IsConvolved i.g0.data i.psf.data conv0 ∧
      IsConvolved gm.data i.psf.data conv1 ∧
      logLike (anyZeroWeight i.px) i.px ⟨i.g0.data, conv0, i.px, i.s⟩ ≤
        logLike (anyZeroWeight i.px) i.px ⟨gm.data, conv1, i.px, sky'⟩ := by
  obtain ⟨n, conv0, b, cv, hn, c1, c2, hs, hgm, -, -⟩ := C48_fit f obs guess sky i res h gm hg
  rw [hf] at c2
  obtain ⟨h1, h2, -⟩ := chain_fluxonly hpsf c2 ⟨c1, hg0, hpx, hs0⟩
  refine ⟨conv0, b.conv, b.sky, hs, c1, convolved_same h1.1 hgm, h2.trans_eq ?_⟩
  unfold logLike expected
  rw [flux_same hgm]

/-- C103: if another iteration would leave the fluxes and the sky as they are, then no other fluxes (and sky, if it is
fitted) are more likely, with the same centres and covariances and any psf. -/
theorem C103_maximum (vary fill : Bool) (psf : List Gauss) (hp : ∀ q ∈ psf, 0 ≤ q.p) (a b : EMPoint)
    (h : EMUpdate .fluxonly vary fill psf a b) (hconv : IsConvolved a.gmix psf a.conv)
    (hpx : ∀ px ∈ a.pixels, 0 ≤ px.val ∧ 0 ≤ px.area) (hs : 0 ≤ a.sky)
    (hfix : List.Forall₂ (fun g g' : Gauss => g'.p = g.p) a.gmix b.gmix) (hsky : b.sky = a.sky)
    (hpos : ∀ g ∈ a.gmix, 0 < g.p) (hspos : vary = true → 0 < a.sky)
    (c : EMPoint) (hc : IsConvolved c.gmix psf c.conv) (hsh : SameShapes a.gmix c.gmix)
    (hcs : vary = false → c.sky = a.sky) (hlit : ∀ px ∈ a.pixels, ¬ Masked fill px → 0 < px.val → 0 < expected c px) :
    logLike fill a.pixels c ≤ logLike fill a.pixels a :=
  fixed_max hp h ⟨hconv, fun g hg => (hpos g hg).le, hpx, hs⟩ hfix hsky hpos hspos c hc hsh hcs hlit

/-! The exception: a gaussian that moves away from a pixel by more than five sigma. -/

/-- Two pixels at `x` sigma on either side of a round gaussian, one three times as bright as the other. -/
def twoPixels (x : ℝ) : List Pixel := [⟨0, x, 1, 3, 1⟩, ⟨0, -x, 1, 1, 1⟩]
def twoObs (x : ℝ) : EMObs :=
  ⟨⟨2, 1, fun r _ => if r = 0 then 3 else 1⟩, ⟨1 / 2, 0, -2 * x, 0, 0, 1 / (2 * x), -1, 1⟩, some (twoPixels x), none⟩

theorem fast_at (g : Gauss) (hn : NormsCurrent g) (hs : g.irr = 1 ∧ g.irc = 0 ∧ g.icc = 1 ∧ g.col = 0) (v val : ℝ) :
    gaussEvalFast g v 0 1 = if (v - g.row) ^ 2 < 25 then g.p * (1 / (2 * Real.pi) * fexp (-0.5 * (v - g.row) ^ 2)) else 0 := by
  have := fast_eq hn ⟨0, v, 1, val, 1⟩
  simp only at this
  rw [this]
  unfold fastUnit
  dsimp only
  rw [hs.1, hs.2.1, hs.2.2.1, hs.2.2.2]
  have e : (1 * (v - g.row) ^ 2 + 1 * (0 - 0) ^ 2 - 2 * 0 * ((v - g.row) * (0 - 0))) / (1 * 1 - 0 * 0) = (v - g.row) ^ 2 := by
    norm_num
  rw [e]
  by_cases h : (v - g.row) ^ 2 < 25
  · rw [if_pos h, if_pos ⟨h, sq_nonneg _⟩]
    norm_num
  · rw [if_neg h, if_neg fun x => h x.1, mul_zero]

theorem moved_norms (p r : ℝ) : ∃ g, gmixSetNorms [gauss2dSet p r 0 1 0 1] = ([g], .ok ()) ∧
    SameGauss (gauss2dSet p r 0 1 0 1) g ∧ DetCurrent g ∧ NormsCurrent g := by
  have hu : ∀ g ∈ [gauss2dSet p r 0 1 0 1], Usable g := by
    intro g hg
    rw [List.mem_singleton] at hg
    subst hg
    constructor <;> norm_num [gauss2dSet, gmixLowDetval]
  have hd : ∀ g ∈ [gauss2dSet p r 0 1 0 1], DetCurrent g := by
    intro g hg
    rw [List.mem_singleton] at hg
    subst hg
    rfl
  obtain ⟨h1, h2⟩ := (C20_set_norms _ hd).1 hu
  rcases hs : gmixSetNorms [gauss2dSet p r 0 1 0 1] with ⟨l, x⟩
  rw [hs] at h1 h2
  simp only at h1 h2
  subst h1
  cases h2 with
  | cons h3 h4 =>
    cases h4
    exact ⟨_, rfl, h3.1, h3.2.1, h3.2.2.1⟩

theorem moved_conv (p r : ℝ) :
    gmixConvolve [gauss2dSet p r 0 1 0 1] [gauss2dSet 1 0 0 0 0 0] = .ok [gauss2dSet p r 0 1 0 1] := by
  have hc : Centroid [gauss2dSet 1 0 0 0 0 0] 0 0 := by
    refine ⟨?_, ?_, ?_⟩ <;> norm_num [Flux, gauss2dSet]
  rw [gmixConvolve, (gmixGetCen_ok _ 0 0 _).mpr ⟨hc, rfl⟩]
  simp [Except.map, gauss2dSet, Flux]

theorem like_two (x : ℝ) (g : Gauss) (gm : List Gauss) (pxs : List Pixel) (sky : ℝ) :
    logLike false (twoPixels x) ⟨gm, [g], pxs, sky⟩ =
    3 * Real.log (gaussEvalFast g x 0 1 + sky) + Real.log (gaussEvalFast g (-x) 0 1 + sky) - (Flux gm + sky * 2) := by
  classical
  unfold logLike Masked expected twoPixels predicted
  simp

/-- One iteration of a fit of centres and fluxes to the two pixels, with the sky `s`. -/
theorem two_run (x s tol : ℝ) (hx : x ^ 2 < 25) (hs0 : 0 < s) : ∃ (i : EMInput (twoObs x) (oneGauss 1) (some s)),
    i.px = twoPixels x ∧ i.s = s ∧ i.g0.data = [gauss2dSet 1 0 0 1 0 1] ∧ i.psf.data = [gauss2dSet 1 0 0 0 0 0] ∧
    ∃ A g g' res gm, 0 < A ∧ A = 1 / (2 * Real.pi) * fexp (-0.5 * x ^ 2) ∧
      SameGauss (gauss2dSet 1 0 0 1 0 1) g ∧ NormsCurrent g ∧ gaussEvalFast g x 0 1 = A ∧ gaussEvalFast g (-x) 0 1 = A ∧
      SameGauss (gauss2dSet (4 * A / (A + s)) (x / 2) 0 1 0 1) g' ∧ NormsCurrent g' ∧
      emGo ⟨.fixcov, 2, 1, tol, false⟩ (twoObs x) (oneGauss 1) (some s) = some (.ok res) ∧
      res.getGmix = .ok gm ∧ res.sky = some s ∧ res.numiter = some 1 ∧
      IsConvolved i.g0.data i.psf.data [g] ∧ IsConvolved gm.data i.psf.data [g'] ∧
      List.Forall₂ SameGauss [gauss2dSet (4 * A / (A + s)) (x / 2) 0 1 0 1] gm.data := by
  obtain ⟨A, hA⟩ : ∃ A, A = 1 / (2 * Real.pi) * fexp (-0.5 * x ^ 2) := ⟨_, rfl⟩
  have hpi := Real.pi_pos
  have hA0 : 0 < A := by
    have := fexp_pos (x := -0.5 * x ^ 2) (by norm_num; linarith) (by norm_num; positivity)
    rw [hA]; positivity
  obtain ⟨g, hn, hsame, hd, hnc⟩ := moved_norms 1 0
  obtain ⟨s1, s2, s3, s4, s5, s6⟩ := id hsame
  simp only [gauss2dSet] at s1 s2 s3 s4 s5 s6
  have hE1 : gaussEvalFast g x 0 1 = A := by
    rw [fast_at g hnc ⟨s4.symm, s5.symm, s6.symm, s3.symm⟩ x 0, ← s2, sub_zero, if_pos hx, ← s1, hA, one_mul]
  have hE2 : gaussEvalFast g (-x) 0 1 = A := by
    rw [fast_at g hnc ⟨s4.symm, s5.symm, s6.symm, s3.symm⟩ (-x) 0, ← s2, sub_zero, neg_sq, if_pos hx, ← s1, hA, one_mul]
  let i : EMInput (twoObs x) (oneGauss 1) (some s) :=
    ⟨twoObs x, s, twoPixels x, _, { resetObj .full 6 1 with data := [gauss2dSet 1 0 0 1 0 1] }, rfl, rfl,
      by simp only [emPsf, twoObs]; rw [deltaPsf], rfl⟩
  refine ⟨i, rfl, rfl, rfl, rfl, A, g, ?_⟩
  obtain ⟨conv, hc, e⟩ := emGo_eq (f := ⟨.fixcov, 2, 1, tol, false⟩) i
  have hc' : gmixConvolve [gauss2dSet 1 0 0 1 0 1] [gauss2dSet 1 0 0 0 0 0] = .ok conv := hc
  rw [moved_conv, Except.ok.injEq] at hc'
  subst hc'
  have hz : anyZeroWeight (twoPixels x) = false := by simp [anyZeroWeight, twoPixels]
  have hAs : A + s ≠ 0 := by positivity
  obtain ⟨P, hP⟩ : ∃ P, P = 4 * A / (A + s) := ⟨_, rfl⟩
  have hP0 : 0 < P := by rw [hP]; positivity
  have hpl : ∃ ss el sk, pixelLoop 1 ([g].zip (logtauLogdet [g])) s (twoPixels x)
      (clearSums [EMSums.zero], .fin 0, 0) = .ok ([ss], el, sk) ∧ ss.pnew = P ∧ ss.vsum * (1 / ss.pnew) = x / 2 ∧
      ss.usum * (1 / ss.pnew) = 0 := by
    simp only [pixelLoop, doScratchSums, scratchAll, logtauLogdet, clearSums, List.map_cons, List.map_nil,
      List.zip_cons_cons, List.zip_nil_right, List.take_succ_cons, List.take_zero, List.foldl_cons, List.foldl_nil,
      scratchGauss, doSums, zero_add, twoPixels, if_neg hAs, resetScratch, hE1, hE2]
    refine ⟨_, _, _, rfl, ?_, ?_, ?_⟩
    · simp only
      rw [hP]
      field_simp
      norm_num
    · simp only
      field_simp
      ring
    · simp
  obtain ⟨ss, el, sk, hpl, hss, hvs, hus⟩ := hpl
  obtain ⟨g', hn', hsame', hd', hnc'⟩ := moved_norms P (x / 2)
  have hsf : setFromSums .fixcov [gauss2dSet 1 0 0 1 0 1] [gauss2dSet 1 0 0 0 0 0] [ss] =
      .ok ([gauss2dSet P (x / 2) 0 1 0 1], [g']) := by
    have hl : setFromSumsLoop .fixcov (0, 0, 0) [gauss2dSet 1 0 0 1 0 1] [ss] =
        .ok [gauss2dSet P (x / 2) 0 1 0 1] := by
      simp only [setFromSumsLoop, setGaussFromSums, Except.bind, Except.map]
      rw [if_neg (by rw [hss]; exact hP0.ne'), hvs, hus, hss]
      rfl
    simp only [setFromSums, Except.bind, hl, moved_conv, hn']
  have hrun : ∃ fr px', emRun .fixcov ⟨tol, 2, 1, s, false⟩ (twoPixels x) [gauss2dSet 1 0 0 1 0 1]
      [gauss2dSet 1 0 0 0 0 0] [gauss2dSet 1 0 0 1 0 1] false = .ok ⟨1, fr, s,
        [gauss2dSet P (x / 2) 0 1 0 1], [g'], px'⟩ := by
    have hit : emIter .fixcov ⟨tol, 2, 1, s, false⟩ [gauss2dSet 1 0 0 0 0 0] false 1
        ⟨[gauss2dSet 1 0 0 1 0 1], [g], [EMSums.zero], twoPixels x, s, .fin (-9999.9e9), none⟩ =
        .ok (⟨[gauss2dSet P (x / 2) 0 1 0 1], [g'], [ss], twoPixels x, s, el, none⟩, false) := by
      unfold emIter
      simp only [Bool.false_eq_true, if_false, List.length_cons, List.length_nil, zero_add, hpl, Except.bind, hsf,
        emNewSky, emTest, emCur]
      rw [if_neg (by norm_num)]
    simp only [emRun, hn]
    rw [if_neg (by norm_num)]
    simp only [Int.toNat_one, emLoop, List.length_cons, List.length_nil, zero_add, List.replicate_one,
      Nat.cast_zero, hit, Except.bind, Except.map, Bool.false_eq_true, if_false]
    exact ⟨_, _, rfl⟩
  obtain ⟨fr, px', hrun⟩ := hrun
  have e' : emGo ⟨.fixcov, 2, 1, tol, false⟩ (twoObs x) (oneGauss 1) (some s) = some (emFinish 1
      (.ok ⟨1, fr, s, [gauss2dSet P (x / 2) 0 1 0 1], [g'], px'⟩)) := by
    rw [e, ← hrun, ← hz]
  rw [e']
  obtain ⟨a, ha, -⟩ := C18_full_pars_roundtrip [gauss2dSet P (x / 2) 0 1 0 1]
  obtain ⟨b, hb, -⟩ := C18_full_pars_roundtrip [g']
  rcases hf : emFinish 1 (.ok ⟨1, fr, s, [gauss2dSet P (x / 2) 0 1 0 1], [g'], px'⟩) with y | res
  · simp only [emFinish, Except.bind, ha, hb, Except.map] at hf
    simp at hf
  · rcases emFinish_ok hf with ⟨r, gm, cv, hr, rfl, h1, h2, h3, h4⟩ | ⟨h, -⟩
    · cases hr
      have hgm : List.Forall₂ SameGauss [gauss2dSet P (x / 2) 0 1 0 1] gm.data := h1
      have hcp : ∃ gm', copyGMix gm = .ok gm' ∧ gm'.data = gm.data := by
        simp only [copyGMix, h3]
        exact ⟨_, rfl, rfl⟩
      obtain ⟨gm', hcp, hdat⟩ := hcp
      rw [← hP]
      refine ⟨g', _, gm', hA0, hA, hsame, hnc, hE1, hE2, hsame', hnc', rfl, hcp, rfl, rfl,
        (convolved_norms _ _ _ _ (moved_conv 1 0) hn).1, ?_, by rw [hdat]; exact hgm⟩
      rw [hdat]
      exact convolved_same (convolved_norms _ _ _ _ (moved_conv P (x / 2)) hn').1 hgm
    · simp at h

/-- C103 (violation of "EM does not lower the likelihood"): a fit of the centres and fluxes can lower it by any amount,
with pixels at four sigma, one of which is beyond five sigma from the new centre. -/
theorem C103_lower (N tol : ℝ) : ∃ sky, 0 < sky ∧ ∃ (i : EMInput (twoObs 4) (oneGauss 1) (some sky)), i.px = twoPixels 4 ∧
    ∃ res gm conv0 conv1, emGo ⟨.fixcov, 2, 1, tol, false⟩ (twoObs 4) (oneGauss 1) (some sky) = some (.ok res) ∧
      res.getGmix = .ok gm ∧ res.sky = some sky ∧ IsConvolved i.g0.data i.psf.data conv0 ∧ IsConvolved gm.data i.psf.data conv1 ∧
      logLike false i.px ⟨gm.data, conv1, i.px, sky⟩ + N < logLike false i.px ⟨i.g0.data, conv0, i.px, sky⟩ := by
  obtain ⟨A, hA⟩ : ∃ A, A = 1 / (2 * Real.pi) * fexp (-0.5 * 4 ^ 2) := ⟨_, rfl⟩
  have hpi : (1 : ℝ) < Real.pi := by linarith [Real.two_le_pi]
  have hfe : ∀ x : ℝ, -15 ≤ x → x ≤ 0 → 0 < 1 / (2 * Real.pi) * fexp x ∧ 1 / (2 * Real.pi) * fexp x ≤ 1 := by
    intro x h1 h2
    obtain ⟨y, -, hy, he⟩ := C26_exp5 x h1 h2
    have h3 : Real.exp x ≤ 1 := Real.exp_le_one_iff.mpr h2
    have h4 := abs_le.mp he
    norm_num at h4
    have h5 := fexp_pos h1 h2
    have h6 : fexp x ≤ 2 := by rw [hy]; nlinarith [h4.2, Real.exp_pos x]
    refine ⟨by positivity, ?_⟩
    rw [one_div, inv_mul_le_iff₀ (by positivity)]
    linarith
  obtain ⟨hA0, hA1⟩ := hfe (-0.5 * 4 ^ 2) (by norm_num) (by norm_num)
  rw [← hA] at hA0 hA1
  obtain ⟨K, hK⟩ : ∃ K, K = |14 + N - 3 * Real.log A| := ⟨_, rfl⟩
  have hK0 : 0 ≤ K := by rw [hK]; exact abs_nonneg _
  obtain ⟨s, hs⟩ : ∃ s, s = A * Real.exp (-K) := ⟨_, rfl⟩
  have hs0 : 0 < s := by rw [hs]; positivity
  have hs1 : s ≤ 1 := by
    rw [hs]
    calc A * Real.exp (-K) ≤ 1 * 1 :=
          mul_le_mul hA1 (Real.exp_le_one_iff.mpr (by linarith)) (Real.exp_pos _).le zero_le_one
      _ = 1 := by norm_num
  obtain ⟨i, i1, -, i2, i3, A', g, g', res, gm, -, hA', -, -, hE1, hE2, hsame', hnc', hgo, hgm, hsk, -, c0, c1, hF⟩ :=
    two_run 4 s tol (by norm_num) hs0
  rw [← hA] at hA'
  subst hA'
  refine ⟨s, hs0, i, i1, res, gm, [g], [g'], hgo, hgm, hsk, c0, c1, ?_⟩
  rw [i1, like_two, like_two, hE1, hE2, ← flux_same hF, i2]
  obtain ⟨P, hP⟩ : ∃ P, P = 4 * A' / (A' + s) := ⟨_, rfl⟩
  have hP0 : 0 < P := by rw [hP]; positivity
  have hP4 : P ≤ 4 := by rw [hP, div_le_iff₀ (by positivity)]; nlinarith
  rw [← hP] at hsame' ⊢
  obtain ⟨r1, r2, r3, r4, r5, r6⟩ := id hsame'
  simp only [gauss2dSet] at r1 r2 r3 r4 r5 r6
  have hF1 : gaussEvalFast g' 4 0 1 = P * (1 / (2 * Real.pi) * fexp (-2)) := by
    rw [fast_at g' hnc' ⟨r4.symm, r5.symm, r6.symm, r3.symm⟩ 4 0, ← r2, if_pos (by norm_num), ← r1]
    norm_num
  have hF2 : gaussEvalFast g' (-4) 0 1 = 0 := by
    rw [fast_at g' hnc' ⟨r4.symm, r5.symm, r6.symm, r3.symm⟩ (-4) 0, ← r2, if_neg (by norm_num)]
  rw [hF1, hF2, zero_add]
  have hfl1 : Flux [gauss2dSet P (4 / 2) 0 1 0 1] = P := by simp [Flux, gauss2dSet]
  have hfl0 : Flux [gauss2dSet 1 0 0 1 0 1] = 1 := by simp [Flux, gauss2dSet]
  rw [hfl1, hfl0]
  obtain ⟨hB0, hB1⟩ := hfe (-2) (by norm_num) (by norm_num)
  have hX : P * (1 / (2 * Real.pi) * fexp (-2)) ≤ 4 := by nlinarith
  have hlX := Real.log_le_sub_one_of_pos (x := P * (1 / (2 * Real.pi) * fexp (-2)) + s) (by positivity)
  have hls : Real.log s = Real.log A' - K := by
    rw [hs, Real.log_mul hA0.ne' (Real.exp_pos _).ne', Real.log_exp]; ring
  have hlA : Real.log A' ≤ Real.log (A' + s) := Real.log_le_log hA0 (by linarith)
  have hKl : 14 + N - 3 * Real.log A' ≤ K := by rw [hK]; exact le_abs_self _
  linarith

/-! ## Concrete cases -/

/-- The pixels are those of an image of two by one. -/
example : makePixels (twoObs 4).image ⟨2, 1, fun _ _ => 1⟩ (twoObs 4).jac true = .ok (twoPixels 4) := by
  simp [makePixels, countPositive, fillPixels, fillPixelsBody, twoObs, twoPixels, List.range_succ, Jacobian.getVU,
    Jacobian.area, Pixel.zero]
  norm_num

/-- With the two pixels at one sigma both stay covered, and the bound holds. -/
example : ∃ res gm, emGo ⟨.fixcov, 2, 1, 1, false⟩ (twoObs 1) (oneGauss 1) (some 1) = some (.ok res) ∧
    res.getGmix = .ok gm ∧ ∃ path : ℕ → EMPoint, List.Forall₂ SameGauss (path 1).gmix gm.data ∧
      (path 0).gmix = [gauss2dSet 1 0 0 1 0 1] ∧
      logLike false (twoPixels 1) (path 0) ≤ logLike false (twoPixels 1) (path 1) + 1e-4 * Flux (path 1).gmix := by
  obtain ⟨i, i1, i0, i2, i3, A, g, g', res, gm, hA0, hA', -, -, hE1, hE2, hsame', hnc', hgo, hgm, hsk, hni, c0, c1, hF⟩ :=
    two_run 1 1 1 (by norm_num) one_pos
  refine ⟨res, gm, hgo, hgm, ?_⟩
  have hz : anyZeroWeight (twoPixels 1) = false := by simp [anyZeroWeight, twoPixels]
  obtain ⟨n, path, h1, h2, h3, h4, h5, h6, h7, h8⟩ := C103_iterations _ _ _ _ i (by
      rw [i1]; intro p hp; simp only [twoPixels, List.mem_cons, List.not_mem_nil, or_false] at hp
      rcases hp with rfl | rfl <;> norm_num) (by rw [i0]; norm_num)
    (by rw [i2]; intro g hg; rw [List.mem_singleton.mp hg]; simp [gauss2dSet])
    (by rw [i3]; intro g hg; rw [List.mem_singleton.mp hg]; simp [gauss2dSet]) res hgo gm hgm
  rw [hni, Option.some.injEq] at h1
  subst h1
  refine ⟨path, h5, h2.trans i2, ?_⟩
  obtain ⟨hu, -, hb⟩ := h8 0 one_pos
  have := hb _ i3 ?_ (by simp [movesCov])
  · rwa [i1, hz] at this
  · -- both gaussians are within two sigma of both pixels
    have hb0 := h7 0 (by norm_num)
    have hb1 := h7 1 le_rfl
    rw [i3] at hb0 hb1
    obtain ⟨l0, f0⟩ := conv_single hb0
    obtain ⟨l1, f1⟩ := conv_single hb1
    have hg1 : (path 1).gmix.length = 1 := by rw [h5.length_eq, ← hF.length_eq]; rfl
    rw [h2, i2] at l0
    rw [hg1] at l1
    obtain ⟨x0, e0⟩ := List.length_eq_one_iff.mp l0
    obtain ⟨x1, e1⟩ := List.length_eq_one_iff.mp l1
    have hp1 : (path 1).pixels = twoPixels 1 := by
      rw [hu.1, i1, hz]
      simp [filled, h3, i1]
    intro px hpx hv
    rw [e0, e1]
    refine List.Forall₂.cons (fun _ => ?_) List.Forall₂.nil
    obtain ⟨y1, ey⟩ := List.length_eq_one_iff.mp hg1
    have f1' := f1 0 (by rw [hg1]; exact one_pos) (by rw [l1]; exact one_pos)
    simp only [e1, ey, List.getElem_cons_zero] at f1'
    rw [ey] at h5
    have hy : SameGauss y1 (gauss2dSet (4 * A / (A + 1)) (1 / 2) 0 1 0 1) := by
      rcases hd : gm.data with _ | ⟨z, zs⟩
      · rw [hd] at hF; cases hF
      · rw [hd] at hF h5
        cases hF with
        | cons hF _ =>
          cases h5 with
          | cons h5 _ =>
            exact ⟨h5.1.trans hF.1.symm, h5.2.1.trans hF.2.1.symm, h5.2.2.1.trans hF.2.2.1.symm,
              h5.2.2.2.1.trans hF.2.2.2.1.symm, h5.2.2.2.2.1.trans hF.2.2.2.2.1.symm,
              h5.2.2.2.2.2.trans hF.2.2.2.2.2.symm⟩
    obtain ⟨y1', y2', y3', y4', y5', y6'⟩ := hy
    simp only [gauss2dSet] at y1' y2' y3' y4' y5' y6'
    obtain ⟨k1, k2, k3, k4, k5, k6, k7, -⟩ := f1'
    have hpi := Real.pi_pos
    rw [predicted_one]
    rw [hp1] at hpx
    have hst : x1.irr = 1 ∧ x1.irc = 0 ∧ x1.icc = 1 ∧ x1.col = 0 :=
      ⟨by rw [k1, y4']; simp [gauss2dSet], by rw [k2, y5']; simp [gauss2dSet], by rw [k3, y6']; simp [gauss2dSet],
        by rw [k5, y3']⟩
    have hval : ∀ v : ℝ, (v - 1 / 2) ^ 2 < 25 → 0 < gaussEvalFast x1 v 0 1 := by
      intro v hv
      rw [fast_at x1 k7 hst v 0, k4, y2', if_pos hv, k6, y1']
      have := fexp_pos (x := -0.5 * (v - 1 / 2) ^ 2) (by norm_num; linarith) (by norm_num; positivity)
      positivity
    simp only [twoPixels, List.mem_cons, List.not_mem_nil, or_false] at hpx
    rcases hpx with rfl | rfl
    · exact hval 1 (by norm_num)
    · exact hval (-1) (by norm_num)

/-- A flux fit that starts at the solution: the update of the fluxes keeps it, and it is the likeliest. -/
example (p : ℝ) (hp : 0 < p) : ∃ a b : EMPoint, a.gmix.length = 1 ∧ EMUpdate .fluxonly false false [gauss2dSet 1 0 0 0 0 0] a b ∧
    (∀ c : EMPoint, IsConvolved c.gmix [gauss2dSet 1 0 0 0 0 0] c.conv → SameShapes a.gmix c.gmix → c.sky = a.sky →
      (∀ px ∈ a.pixels, 0 < px.val → 0 < expected c px) → logLike false a.pixels c ≤ logLike false a.pixels a) := by
  obtain ⟨res, gm, h1, h2, -, h3, -⟩ := C49_converged_yet_flagged p 1 hp one_pos
  let i : EMInput (onePixel p) (oneGauss p) (some 0) :=
    ⟨onePixel p, 0, [⟨0, 0, 1, p, 1⟩], _, { resetObj .full 6 1 with data := [gauss2dSet p 0 0 1 0 1] }, rfl, rfl,
      by simp only [emPsf, onePixel]; rw [deltaPsf], rfl⟩
  have hz : anyZeroWeight [⟨0, 0, 1, p, 1⟩] = false := by simp [anyZeroWeight]
  obtain ⟨n, path, g1, g2, g3, g4, g5, g6, g7, g8⟩ := C103_iterations _ _ _ _ i
    (by intro q hq; have : q = ⟨0, 0, 1, p, 1⟩ := List.mem_singleton.mp hq; rw [this]; exact ⟨hp.le, zero_le_one⟩) le_rfl
    (by intro g hg; have : g = gauss2dSet p 0 0 1 0 1 := List.mem_singleton.mp hg; rw [this]; exact hp.le)
    (by intro g hg; have : g = gauss2dSet 1 0 0 0 0 0 := List.mem_singleton.mp hg; rw [this]; exact zero_le_one) res h1 gm h2
  rw [h3, Option.some.injEq] at g1
  subst g1
  obtain ⟨hu, -, -⟩ := g8 0 one_pos
  have g2 : (path 0).gmix = [gauss2dSet p 0 0 1 0 1] := g2
  have g3 : (path 0).pixels = [⟨0, 0, 1, p, 1⟩] := g3
  have g4 : (path 0).sky = 0 := g4
  have hu : EMUpdate .fluxonly false (anyZeroWeight [⟨0, 0, 1, p, 1⟩]) [gauss2dSet 1 0 0 0 0 0] (path 0) (path 1) := hu
  rw [hz] at hu
  have hcv : IsConvolved (path 0).gmix [gauss2dSet 1 0 0 0 0 0] (path 0).conv := g7 0 (by norm_num)
  refine ⟨path 0, path 1, by rw [g2]; rfl, hu, fun c hc hsh hcs hlit => ?_⟩
  refine C103_maximum false false _ (by intro g hg; rw [List.mem_singleton.mp hg]; exact zero_le_one) _ _ hu hcv
    (by rw [g3]; intro q hq; rw [List.mem_singleton.mp hq]; exact ⟨hp.le, zero_le_one⟩) (by rw [g4]) ?_ ?_
    (by rw [g2]; intro g hg; rw [List.mem_singleton.mp hg]; exact hp) (by simp) c hc hsh (fun _ => hcs)
    (fun px hx _ hv => hlit px hx hv)
  · obtain ⟨hl, hcu⟩ := update_get hu
    have hl1 : (path 1).gmix.length = 1 := by rw [hl, g2]; rfl
    obtain ⟨y, hy⟩ := List.length_eq_one_iff.mp hl1
    have hf := update_flux hcv hu
    have hpx : (path 1).pixels = [⟨0, 0, 1, p, 1⟩] := by rw [hu.1, g3.symm]; simp [filled]
    have hne := hu.2.1
    rw [hpx, g4] at hne
    have hne := hne _ (List.mem_singleton.mpr rfl)
    rw [hpx, g4, hy] at hf
    simp only [Flux, List.map_cons, List.map_nil, List.sum_cons, List.sum_nil, add_zero] at hf hne
    rw [g2, hy]
    refine List.Forall₂.cons ?_ List.Forall₂.nil
    rw [hf]
    simp only [gauss2dSet]
    field_simp
  · have := hu.2.2.2.2
    rw [if_neg (by simp)] at this
    exact this

end

end Ngmix.Props
