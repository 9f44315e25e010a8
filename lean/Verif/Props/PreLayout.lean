import Verif.Props.PreTurn

/-!
# C110: pre-psf moments of an image with rows and columns exchanged
-/

namespace Ngmix.Props

open Ngmix Ngmix.Spec

noncomputable section

/-- Kernels with rows and columns exchanged. -/
def kernelsT (K : Kernels) : Kernels :=
  ⟨fun r c => K.msk c r, fun r c => K.fkf c r, fun r c => K.fkr c r, fun r c => K.fkp c r, fun r c => K.fkc c r, K.nrm, K.fk00⟩

theorem sum_square_swap {β : Type} [AddCommMonoid β] (n : ℕ) (f : ℕ → ℕ → β) :
    ∑ x ∈ Finset.range n ×ˢ Finset.range n, f x.2 x.1 = ∑ x ∈ Finset.range n ×ˢ Finset.range n, f x.1 x.2 := by
  rw [Finset.sum_product, Finset.sum_product_right]

theorem modes_swap {β : Type} [AddCommMonoid β] (n : ℕ) (msk : ℕ → ℕ → Prop) (f : ℕ → ℕ → β) :
    ∑ x ∈ modes n (fun r c => msk c r), f x.2 x.1 = ∑ x ∈ modes n msk, f x.1 x.2 := by
  classical
  unfold modes
  rw [Finset.sum_filter, Finset.sum_filter]
  exact sum_square_swap n fun r c => if msk r c then f r c else 0

theorem dft2_swap (n : ℕ) (im : ℕ → ℕ → ℝ) (kr kc : ℕ) : dft2 n (fun r c => im c r) kr kc = dft2 n im kc kr := by
  unfold dft2
  have := sum_square_swap n fun r c => (im r c : ℂ) *
    Complex.exp (-(2 * Real.pi * Complex.I * (((kc : ℝ) * r + (kr : ℝ) * c) / n : ℝ)))
  rw [← this]
  refine Finset.sum_congr rfl fun x _ => ?_
  simp only
  rw [add_comm ((kr : ℝ) * x.1)]

theorem cenPhase_swap (n : ℕ) (row col : ℝ) (kr kc : ℕ) : cenPhase n col row kr kc = cenPhase n row col kc kr := by
  unfold cenPhase
  simp only
  rw [mul_comm]

theorem freqSwap (j : Jacobian) (n r c : ℕ) :
    freqV (jacTransposed j) n r c = freqV j n c r ∧ freqU (jacTransposed j) n r c = freqU j n c r := by
  unfold freqV freqU jacTransposed Jacobian.finishInit
  simp only
  have e : j.dvdcol * j.dudrow - j.dvdrow * j.dudcol = -(j.dvdrow * j.dudcol - j.dvdcol * j.dudrow) := by ring
  rw [e]
  generalize j.dvdrow * j.dudcol - j.dvdcol * j.dudrow = d
  generalize fftfreq n c * (2.0 * Real.pi) = fx
  generalize fftfreq n r * (2.0 * Real.pi) = fy
  constructor
  · rw [div_neg, div_neg]; ring
  · rw [div_neg, div_neg]; ring

theorem freqSq_swap (j : Jacobian) (n : ℕ) : freqSq (jacTransposed j) n = fun r c => freqSq j n c r := by
  funext r c
  unfold freqSq
  rw [(freqSwap j n r c).1, (freqSwap j n r c).2]

theorem det_swap (j : Jacobian) : (jacTransposed j).dvdrow * (jacTransposed j).dudcol - (jacTransposed j).dvdcol * (jacTransposed j).dudrow =
    -(j.dvdrow * j.dudcol - j.dvdcol * j.dudrow) := by
  unfold jacTransposed Jacobian.finishInit
  simp only
  ring

theorem detAtinv_swap (j : Jacobian) : detAtinv (jacTransposed j) = detAtinv j := by
  unfold detAtinv
  rw [det_swap, div_neg, abs_neg]

theorem kernelNorm_swap (n : ℕ) (msk : ℕ → ℕ → Prop) (f : ℕ → ℕ → ℝ) :
    kernelNorm n (fun r c => msk c r) (fun r c => f c r) = kernelNorm n msk f := by
  unfold kernelNorm
  rw [modes_swap n msk f]

theorem preKernels_swap (cfg : PreCfg) (n : ℕ) (j : Jacobian) :
    preKernels cfg n (jacTransposed j) = (preKernels cfg n j).map kernelsT := by
  unfold preKernels
  have hd : ((jacTransposed j).dvdrow * (jacTransposed j).dudcol - (jacTransposed j).dvdcol * (jacTransposed j).dudrow = 0) ↔
      j.dvdrow * j.dudcol - j.dvdcol * j.dudrow = 0 := by rw [det_swap, neg_eq_zero]
  by_cases hs : cfg.ksigma = true
  · rw [if_pos hs, if_pos hs]
    unfold ksigmaKernels
    by_cases h : j.dvdrow * j.dudcol - j.dvdcol * j.dudrow = 0
    · rw [if_pos h, if_pos (hd.2 h)]; rfl
    rw [if_neg h, if_neg (mt hd.1 h)]
    simp only [freqSq_swap, detAtinv_swap]
    by_cases h0 : fwhmToSigma cfg.fwhm ^ 2 = 0
    · rw [if_pos h0, if_pos h0]; rfl
    rw [if_neg h0, if_neg h0]
    generalize (2 * 4 / fwhmToSigma cfg.fwhm ^ 2 : ℝ) = κ
    generalize detAtinv j / (4 / (fwhmToSigma cfg.fwhm ^ 2 * 10 * Real.pi)) = knrm
    have hn := kernelNorm_swap n (fun r c => freqSq j n r c < κ) fun r c => (1.0 - freqSq j n r c / κ) ^ 4 * knrm
    rw [hn]
    by_cases h1 : ¬ |kernelNorm n (fun r c => freqSq j n r c < κ) (fun r c => (1.0 - freqSq j n r c / κ) ^ 4 * knrm) - 1.0| ≤ 1e-5
    · rw [if_pos h1, if_pos h1]; rfl
    rw [if_neg h1, if_neg h1]
    simp only [Except.map, kernelsT, fun r c => (freqSwap j n r c).1, fun r c => (freqSwap j n r c).2]
  · rw [if_neg hs, if_neg hs]
    unfold gaussKernels
    by_cases h : j.dvdrow * j.dudcol - j.dvdcol * j.dudrow = 0
    · rw [if_pos h, if_pos (hd.2 h)]; rfl
    rw [if_neg h, if_neg (mt hd.1 h)]
    simp only [freqSq_swap, detAtinv_swap]
    generalize fwhmToSigma cfg.fwhm = s
    generalize detAtinv j * Real.pi * 2 * (s * s) = knrm
    have hn := kernelNorm_swap n (fun r c => s * s / 2 * freqSq j n r c < fastexpMaxChi2 / 2 ∧ s * s / 2 * freqSq j n r c ≥ 0)
      fun r c => fexp (-(s * s / 2 * freqSq j n r c)) * knrm
    rw [hn]
    by_cases h1 : ¬ |kernelNorm n (fun r c => s * s / 2 * freqSq j n r c < fastexpMaxChi2 / 2 ∧ s * s / 2 * freqSq j n r c ≥ 0)
      (fun r c => fexp (-(s * s / 2 * freqSq j n r c)) * knrm) - 1.0| ≤ 1e-5
    · rw [if_pos h1, if_pos h1]; rfl
    rw [if_neg h1, if_neg h1]
    simp only [Except.map, kernelsT, fun r c => (freqSwap j n r c).1, fun r c => (freqSwap j n r c).2]

theorem kernT (K : Kernels) (i r c : ℕ) : (kernelsT K).kern i r c = K.kern i c r := by
  match i with
  | 0 => rfl
  | 1 => rfl
  | 2 => rfl
  | 3 => rfl
  | 4 => rfl
  | (_ + 5) => rfl

theorem measure_swap (n : ℕ) (kim kpsf : ℕ → ℕ → ℂ) (tv pad : ℝ) (K : Kernels) (dr dc : ℝ) :
    measureMoments n (fun r c => kim c r) (fun r c => kpsf c r) tv pad (kernelsT K) dc dr =
      measureMoments n kim kpsf tv pad K dr dc := by
  have hmem : ∀ x : ℕ × ℕ, x ∈ modes n (kernelsT K).msk ↔ x.swap ∈ modes n K.msk := by
    intro x
    unfold modes kernelsT
    simp only [Finset.mem_filter, Finset.mem_product, Finset.mem_range, Prod.fst_swap, Prod.snd_swap]
    tauto
  have hex : (∃ k ∈ modes n (kernelsT K).msk, psfUsed (kpsf k.2 k.1) ‖kpsf 0 0‖ = 0) ↔
      ∃ k ∈ modes n K.msk, psfUsed (kpsf k.1 k.2) ‖kpsf 0 0‖ = 0 := by
    constructor
    · rintro ⟨x, h1, h2⟩
      exact ⟨x.swap, (hmem x).1 h1, h2⟩
    · rintro ⟨x, h1, h2⟩
      exact ⟨x.swap, (hmem _).2 (by rwa [Prod.swap_swap]), h2⟩
  have hsum : ∀ f : ℕ → ℕ → ℝ, ∑ x ∈ modes n (kernelsT K).msk, f x.2 x.1 = ∑ x ∈ modes n K.msk, f x.1 x.2 :=
    fun f => modes_swap n K.msk f
  by_cases h0 : ∃ k ∈ modes n K.msk, psfUsed (kpsf k.1 k.2) ‖kpsf 0 0‖ = 0
  · unfold measureMoments
    dsimp only
    rw [if_pos h0, if_pos (hex.2 h0)]
  · obtain ⟨m, hm⟩ : ∃ m, measureMoments n kim kpsf tv pad K dr dc = some m := by
      unfold measureMoments
      dsimp only
      rw [if_neg h0]
      exact ⟨_, rfl⟩
    obtain ⟨m', hm'⟩ : ∃ m, measureMoments n (fun r c => kim c r) (fun r c => kpsf c r) tv pad (kernelsT K) dc dr = some m := by
      unfold measureMoments
      dsimp only
      rw [if_neg (mt hex.1 h0)]
      exact ⟨_, rfl⟩
    obtain ⟨-, a1, a2⟩ := measure_some hm
    obtain ⟨-, b1, b2⟩ := measure_some hm'
    have hat : ∀ i, m'.at i = m.at i := by
      intro i
      rw [a1, b1]
      congr 1
      simp only [kernT, cenPhase_swap n dr dc]
      exact hsum fun r c => (kim r c / psfUsed (kpsf r c) ‖kpsf 0 0‖ * cenPhase n dr dc r c * (K.kern i r c : ℂ)).re
    have hcov : m'.cov = m.cov := by
      funext i j
      rw [a2, b2]
      congr 2
      simp only [kernT]
      exact hsum fun r c => (((K.kern i r c : ℂ) * (1 / psfUsed (kpsf r c) ‖kpsf 0 0‖)) *
          (starRingEnd ℂ) ((K.kern j r c : ℂ) * (1 / psfUsed (kpsf r c) ‖kpsf 0 0‖))).re
    rw [hm, hm', Option.some.injEq]
    have e2 := hat 2
    have e3 := hat 3
    have e4 := hat 4
    have e5 := hat 5
    cases m
    cases m'
    simp only [KMoments.at] at e2 e3 e4 e5
    simp only at hcov
    rw [e2, e3, e4, e5, hcov]

/-- A transform with rows and columns exchanged. -/
def kimT (x : KIm) : KIm := ⟨x.nrow, x.ncol, fun r c => x.k c r, x.col, x.row⟩

theorem apMask_swap (ap : ℝ) (h : 0 < ap) (n r c : ℕ) (hr : r < n) (hc : c < n) : apMask ap n n r c = apMask ap n n c r := by
  rw [(C59_mask ap h n n r c hr hc).1, (C59_mask ap h n n c r hc hr).1]
  ring

theorem padAndFft_swap (im : Image) (hsq : im.nrow = im.ncol) (r0 c0 : ℝ) (t : ℤ) (ap : ℝ) :
    padAndFft (transposed im) c0 r0 t ap = (padAndFft im r0 c0 t ap).map kimT := by
  have hget : ∀ r < im.nrow, ∀ c < im.nrow, (apodize ap (transposed im)).get r c = (apodize ap im).get c r := by
    intro r hr c hc
    unfold apodize
    by_cases h : ap > 0
    · rw [if_pos h, if_pos h]
      simp only [transposed, ← hsq]
      rw [apMask_swap ap h _ r c hr hc]
    · rw [if_neg h, if_neg h]; rfl
  have h1 : (apodize ap (transposed im)).nrow = im.nrow ∧ (apodize ap (transposed im)).ncol = im.nrow := by
    rw [(apodize_nrow ap _).1, (apodize_nrow ap _).2]
    exact ⟨hsq.symm, rfl⟩
  have h2 : (apodize ap im).nrow = im.nrow ∧ (apodize ap im).ncol = im.nrow := by
    rw [(apodize_nrow ap _).1, (apodize_nrow ap _).2]
    exact ⟨rfl, hsq.symm⟩
  unfold padAndFft
  generalize apodize ap (transposed im) = A at hget h1
  generalize apodize ap im = B at hget h2
  generalize im.nrow = n at *
  rcases A with ⟨a1, a2, ga⟩
  rcases B with ⟨b1, b2, gb⟩
  simp only at h1 h2 hget
  obtain ⟨rfl, e2⟩ := h1
  subst e2
  obtain ⟨rfl, e3⟩ := h2
  subst e3
  unfold zeroPadImage
  simp only
  split_ifs with g1 g2
  all_goals first | rfl | skip
  all_goals
    simp only [Except.map, kimT, Except.ok.injEq, KIm.mk.injEq, true_and, and_true]
    funext kr kc
    rw [← dft2_swap]
    congr 1
    funext c r
    by_cases hb : ((t - (b2 : ℤ)) / 2).toNat ≤ r ∧ r < ((t - (b2 : ℤ)) / 2).toNat + b2
    · by_cases hb' : ((t - (b2 : ℤ)) / 2).toNat ≤ c ∧ c < ((t - (b2 : ℤ)) / 2).toNat + b2
      · rw [if_pos ⟨hb, hb'⟩, if_pos ⟨hb', hb⟩, hget _ (by omega) _ (by omega)]
      · rw [if_neg fun hh => hb' hh.2, if_neg fun hh => hb' hh.1]
    · rw [if_neg fun hh => hb hh.1, if_neg fun hh => hb hh.2]

theorem totVar_swap (w : Image) : totVar (transposed w) = totVar w := by
  classical
  unfold totVar transposed
  rw [Finset.sum_filter, Finset.sum_filter]
  simp only
  rw [Finset.sum_product, Finset.sum_product_right]

theorem sameWcs_swap (a b : Jacobian) : sameWcs (jacTransposed a) (jacTransposed b) ↔ sameWcs a b := by
  unfold sameWcs jacTransposed Jacobian.finishInit
  simp only
  tauto

/-- The moments of the image with rows and columns exchanged. -/
theorem moments_swap (cfg : PreCfg) (o : PreObs) (noPsf : Bool) (hq : noPsf = true ∨ SquarePsf o) :
    preMoments cfg (some (preTransposed o)) noPsf = (preMoments cfg (some o) noPsf).map fun x => (x.1, kernelsT x.2) := by
  have hi : (preTransposed o).image = transposed o.image := rfl
  have hn : (transposed o.image).nrow = o.image.ncol := rfl
  have hn' : (transposed o.image).ncol = o.image.nrow := rfl
  have hw : (preTransposed o).weight = transposed o.weight := rfl
  have hj : (preTransposed o).jac = jacTransposed o.jac := rfl
  have hr0 : (jacTransposed o.jac).row0 = o.jac.col0 := rfl
  have hc0 : (jacTransposed o.jac).col0 = o.jac.row0 := rfl
  by_cases hsq : o.image.nrow ≠ o.image.ncol
  · have hsq' : (preTransposed o).image.nrow ≠ (preTransposed o).image.ncol := fun hh => hsq hh.symm
    unfold preMoments checkObs
    simp only
    rw [if_pos hsq, if_pos hsq']
    rfl
  have hsq' : ¬ (preTransposed o).image.nrow ≠ (preTransposed o).image.ncol := fun hh => hsq fun h2 => hh h2.symm
  have hsqe : o.image.nrow = o.image.ncol := not_not.1 hsq
  -- the part after the checks
  have core : ∀ psf : Option (Image × Jacobian), (∀ p, psf = some p → p.1.nrow = p.1.ncol) →
      checkObs (some o) noPsf = .ok (o, psf) →
      checkObs (some (preTransposed o)) noPsf = .ok (preTransposed o, psf.map fun p => (transposed p.1, jacTransposed p.2)) →
      preMoments cfg (some (preTransposed o)) noPsf = (preMoments cfg (some o) noPsf).map fun x => (x.1, kernelsT x.2) := by
    intro psf hp hc hc'
    unfold preMoments
    rw [hc, hc']
    simp only [Except.bind]
    have ht : targetDim cfg (preTransposed o) (psf.map fun p => (transposed p.1, jacTransposed p.2)) = targetDim cfg o psf := by
      unfold targetDim
      rcases psf with _ | p
      · simp only [Option.map_none, hi, hn, hsqe]
      · have := hp p rfl
        have e : (transposed p.1).nrow = p.1.nrow := this.symm
        simp only [Option.map_some, hi, hn, ← hsqe, e]
    have hps : ∀ t n, psfFft (psf.map fun p => (transposed p.1, jacTransposed p.2)) t n = (psfFft psf t n).map kimT := by
      intro t n
      unfold psfFft
      rcases psf with _ | p
      · simp only [Option.map_none, Except.map, kimT, Except.ok.injEq, KIm.mk.injEq, true_and, and_true]
        funext r c
        unfold pixelFft
        rw [mul_comm]
      · simp only [Option.map_some]
        exact padAndFft_swap p.1 (hp p rfl) p.2.row0 p.2.col0 t 0
    rw [ht, hi, hw, hj, hr0, hc0, hn, totVar_swap, padAndFft_swap o.image hsqe, ← hsqe]
    by_cases h0 : o.image.nrow = 0
    · rw [if_pos h0, if_pos h0]; rfl
    rw [if_neg h0, if_neg h0]
    rcases padAndFft o.image o.jac.row0 o.jac.col0 (targetDim cfg o psf) cfg.apRad with e | kim
    · rfl
    simp only [Except.map, hps]
    have hk : (kimT kim).nrow = kim.nrow := rfl
    rw [hk]
    rcases psfFft psf (targetDim cfg o psf) kim.nrow with e | kpsf
    · rfl
    simp only [Except.map, preKernels_swap]
    rcases preKernels cfg kim.nrow o.jac with e | K
    · rfl
    simp only [Except.map]
    have hk1 : (kimT kpsf).nrow = kpsf.nrow := rfl
    have hk2 : (kimT kpsf).ncol = kpsf.ncol := rfl
    rw [hk1, hk2]
    by_cases hz : kpsf.nrow ≠ kpsf.ncol
    · rw [if_pos hz, if_pos hz]
    rw [if_neg hz, if_neg hz]
    simp only [kimT, measure_swap]
  cases noPsf with
  | true =>
    refine core none (fun p hp => by cases hp) ?_ ?_
    · unfold checkObs; simp only; rw [if_neg hsq]
    · unfold checkObs; simp only; rw [if_neg hsq']; rfl
  | false =>
    have hq : SquarePsf o := by
      rcases hq with h | h
      · cases h
      · exact h
    rcases h1 : o.psf with _ | p
    · have h2 : (preTransposed o).psf = none := by unfold preTransposed; rw [h1]; rfl
      unfold preMoments checkObs
      simp only [h1, h2]
      rw [if_neg hsq, if_neg hsq']
      rfl
    · have h2 : (preTransposed o).psf = some (transposed p.1, jacTransposed p.2) := by unfold preTransposed; rw [h1]; rfl
      by_cases hs : ¬ sameWcs p.2 o.jac
      · have hs' : ¬ sameWcs (jacTransposed p.2) (preTransposed o).jac := by rwa [hj, sameWcs_swap]
        unfold preMoments checkObs
        simp only [h1, h2]
        rw [if_neg hsq, if_neg hsq', if_pos hs, if_pos hs']
        rfl
      · have hs' : ¬ ¬ sameWcs (jacTransposed p.2) (preTransposed o).jac := by rwa [hj, sameWcs_swap]
        refine core (some p) (fun q hqq => hq q (by rw [h1, hqq])) ?_ ?_
        · unfold checkObs; simp only [h1]; rw [if_neg hsq, if_neg hs]
        · unfold checkObs; simp only [h2]; rw [if_neg hsq', if_neg hs']; rfl

/-- C110: with rows and columns exchanged in the image, the weight map and the (square) psf image, and in the Jacobians, the
same exception is raised or the same result is returned: every field of it. -/
theorem C110_transposed (cfg : PreCfg) (o : PreObs) (noPsf : Bool) (hq : noPsf = true ∨ SquarePsf o) :
    (preGo cfg (some (preTransposed o)) noPsf).map Prod.fst = (preGo cfg (some o) noPsf).map Prod.fst := by
  unfold preGo
  rw [moments_swap cfg o noPsf hq]
  rcases preMoments cfg (some o) noPsf with e | ⟨_ | m, K⟩
  · rfl
  · rfl
  · simp only [Except.map, Except.bind, kernelsT]
    rcases makeMomResult (preSums m) ⟨6, 6, fun i j => .fin (m.cov i j)⟩ (some (.fin K.fk00)) with e | r
    · rfl
    · rfl

/-! ### A case -/

open PreExample in
/-- The hypotheses of the theorems are met by every four by four image: turned by 90 degrees, in a unit of half the length. -/
example (get : ℕ → ℕ → ℝ) : ∃ o' : PreObs, TurnedPre 2 (Real.pi / 2) 1 (obs ⟨4, 4, get⟩) o' ∧ SquarePsf (obs ⟨4, 4, get⟩) ∧
    (∃ r K, preGo PreExample.cfg (some (obs ⟨4, 4, get⟩)) false = .ok (some r, K)) ∧
    (∃ r' K', preGo (cfgInLength 2 PreExample.cfg) (some o') false = .ok (some r', K')) := by
  have hT : ∀ a b : ℝ, TurnedJac 2 (Real.pi / 2) 1 (J a b) (Jacobian.finishInit a b 0 (-2) 2 0) := by
    intro a b
    refine ⟨rfl, rfl, fun r c => ?_⟩
    simp only [SkyMap.point, simMap, Jacobian.getVU, Jacobian.finishInit, J, Real.cos_pi_div_two, Real.sin_pi_div_two,
      Prod.mk.injEq]
    constructor <;> ring
  let o' : PreObs := ⟨⟨4, 4, get⟩, ⟨4, 4, fun _ _ => 1⟩, Jacobian.finishInit 1.5 1.5 0 (-2) 2 0,
    some (⟨4, 4, deltaImage⟩, Jacobian.finishInit 0 0 0 (-2) 2 0)⟩
  have hto : TurnedPre 2 (Real.pi / 2) 1 (obs ⟨4, 4, get⟩) o' := ⟨rfl, rfl, hT 1.5 1.5, rfl, hT 0 0⟩
  have hrun : ∃ r K, preGo PreExample.cfg (some (obs ⟨4, 4, get⟩)) false = .ok (some r, K) := by
    obtain ⟨mm, K, h1, -⟩ := measured get
    obtain ⟨r, hr, -⟩ := C11_decision_table 6 _ _ _ _ _ _ _ (pre_input mm) (some (.fin K.fk00))
    refine ⟨r, K, ?_⟩
    unfold preGo
    rw [h1]
    simp only [Except.bind, hr, Except.map]
  refine ⟨o', hto, ?_, hrun, ?_⟩
  · intro p hp
    simp only [obs, Option.some.injEq] at hp
    rw [← hp]
  · obtain ⟨r, K, hr⟩ := hrun
    have := C110_turned (by norm_num : (0 : ℝ) < 2) (Or.inl rfl) PreExample.cfg _ o' hto false
    rw [hr] at this
    rcases h2 : preGo (cfgInLength 2 PreExample.cfg) (some o') false with e | ⟨_ | r', K'⟩ <;> rw [h2] at this
    · exact this.elim
    · exact this.elim
    · exact ⟨r', K', rfl⟩

end

end Ngmix.Props
