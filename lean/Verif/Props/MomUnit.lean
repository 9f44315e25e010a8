import Verif.Spec.MomUnit
import Verif.Proof.FlScale
import Verif.Proof.ExceptLemmas
import Verif.Props.PrePSFRun

/-! C95: results in another unit of brightness. -/

namespace Ngmix.Props

open Ngmix Ngmix.Spec Classical

variable {s : ℝ} {sums sums' : List Fl} {cov cov' : CovMat}

theorem ratioError_unit (hs : 0 < s) (a b va vb cab : Fl) :
    getRatioError (.fin s * a) (.fin s * b) (.fin (s ^ 2) * va) (.fin (s ^ 2) * vb) (.fin (s ^ 2) * cab) =
      getRatioError a b va vb cab := by
  have h2 : 0 < s ^ 2 := by positivity
  unfold getRatioError getRatioVar
  simp only [Fl.scale_isZero hs, Fl.scale_div hs, Fl.scale_sq hs, Fl.scale_div h2, Fl.scale_mul hs hs, Fl.two_scale h2,
    ← pow_two]

theorem ratioError_nan (b va vb cab : Fl) :
    getRatioError .nan b va vb cab = if b.isZero then .error .value else .ok .nan := by
  unfold getRatioError getRatioVar
  by_cases h : b.isZero
  · rw [if_pos h, if_pos h]; rfl
  · rw [if_neg h, if_neg h]; rfl

theorem namedEntry_unit (hs : 0 < s) (h : Rescaled s sums sums' cov cov') (name : String) (ind : ℕ) :
    namedEntry sums' cov' name ind = (namedEntry sums cov name ind).map (namedInUnit s) := by
  unfold namedEntry
  simp only [h.sum, h.rows, h.entry 5 5 (by norm_num) (by norm_num), Fl.scale_sqrt hs, Fl.scale_pos hs, Fl.scale_div hs]
  by_cases hn : name = "MF" ∨ name = "M00"
  · rw [if_pos hn, if_pos hn]
    simp only [Except.map, namedInUnit, if_pos hn]
  · rw [if_neg hn, if_neg hn]
    have hu : ∀ x y : Fl, namedInUnit s (name, x, y) = (name, x, y) := fun x y => by simp only [namedInUnit, if_neg hn]
    by_cases hf : (sums.getD 5 Fl.nan).pos
    · rw [if_pos hf, if_pos hf]
      by_cases hi : ind ≥ cov.n
      · rw [if_pos hi, if_pos hi]; rfl
      · rw [if_neg hi, if_neg hi]
        have key : getRatioError (.fin s * sums.getD ind .nan) (.fin s * sums.getD 5 .nan) (cov'.get ind ind)
            (.fin (s ^ 2) * cov.get 5 5) (cov'.get ind 5) =
            getRatioError (sums.getD ind .nan) (sums.getD 5 .nan) (cov.get ind ind) (cov.get 5 5) (cov.get ind 5) := by
          by_cases h2 : 2 ≤ ind
          · rw [h.entry ind ind h2 h2, h.entry ind 5 h2 (by norm_num), ratioError_unit hs]
          · rcases h.centre ind (by omega) with ⟨hnan, -⟩ | hc
            · rw [hnan, Fl.scale_nan, ratioError_nan, ratioError_nan]
              simp only [Fl.scale_isZero hs]
            · rw [hc ind, hc 5, ratioError_unit hs]
        rw [key]
        rcases getRatioError (sums.getD ind .nan) (sums.getD 5 .nan) (cov.get ind ind) (cov.get 5 5) (cov.get ind 5) with e | v
        · rfl
        · simp only [Except.bind, Except.map, hu]
    · rw [if_neg hf, if_neg hf]
      simp only [Except.map, hu]

theorem addMoments_unit (hs : 0 < s) (h : Rescaled s sums sums' cov cov') : ∀ l : List (String × ℕ),
    addMomentsByName sums' cov' l = (addMomentsByName sums cov l).map (List.map (namedInUnit s)) := by
  intro l
  induction l with
  | nil => rfl
  | cons x l ih =>
    obtain ⟨name, ind⟩ := x
    unfold addMomentsByName
    rw [h.length]
    by_cases hi : ind ≥ sums.length
    · rw [if_pos hi, if_pos hi, ih]
    · rw [if_neg hi, if_neg hi, namedEntry_unit hs h, ih]
      rcases namedEntry sums cov name ind with e | v
      · rfl
      · rcases addMomentsByName sums cov l with e | es <;> rfl

theorem momFlux_unit (hs : 0 < s) (h : Rescaled s sums sums' cov cov') :
    momFlux sums' cov' = (.fin s * (momFlux sums cov).1, (momFlux sums cov).2.1, (momFlux sums cov).2.2) := by
  unfold momFlux
  simp only [h.sum, h.entry 5 5 (by norm_num) (by norm_num), Fl.scale_pos (pow_pos hs 2), Fl.scale_sqrt hs, Fl.scale_div hs]
  by_cases hp : (cov.get 5 5).pos
  · simp only [if_pos hp]
  · simp only [if_neg hp]; rfl

theorem momSize_unit (hs : 0 < s) (h : Rescaled s sums sums' cov cov') : momSize sums' cov' = momSize sums cov := by
  unfold momSize
  simp only [h.sum, h.entry 5 5 (by norm_num) (by norm_num), h.entry 4 4 (by norm_num) (by norm_num),
    h.entry 4 5 (by norm_num) (by norm_num), Fl.scale_pos (pow_pos hs 2), Fl.scale_pos hs, Fl.scale_div hs,
    ratioError_unit hs]

/-- The part of a result before its shape. -/
theorem momBase_unit (hs : 0 < s) (h : Rescaled s sums sums' cov cov') (nrm nrm' : Option Fl) (tp : Fl × Fl × ℕ) :
    SameInUnit s (momBase sums cov nrm (momFlux sums cov) tp) (momBase sums' cov' nrm' (momFlux sums' cov') tp) := by
  have hall : (∀ i < cov'.n, (cov'.get i i).pos) ↔ ∀ i < cov.n, (cov.get i i).pos := by
    rw [h.rows]
    refine forall_congr' fun i => forall_congr' fun _ => ?_
    by_cases h2 : 2 ≤ i
    · rw [h.entry i i h2 h2, Fl.scale_pos (pow_pos hs 2)]
    · rcases h.centre i (by omega) with ⟨-, hp⟩ | hc
      · exact hp
      · rw [hc i, Fl.scale_pos (pow_pos hs 2)]
  unfold momBase
  rw [momFlux_unit hs h]
  simp only [hall]
  split_ifs
  · exact ⟨rfl, rfl, rfl, h.sum 5, rfl, rfl, rfl, rfl, rfl, rfl, rfl, rfl, rfl, rfl⟩
  · exact ⟨rfl, rfl, rfl, h.sum 5, rfl, rfl, rfl, rfl, rfl, rfl, rfl, rfl, rfl, rfl⟩

theorem momShape_unit (hs : 0 < s) (h : Rescaled s sums sums' cov cov') {b b' : MomRes} (hb : SameInUnit s b b') :
    OutcomeInUnit s (momShape sums cov b) (momShape sums' cov' b') := by
  obtain ⟨q1, q2, q3, q4, q5, q6, q7, q8, q9, q10, q11, q12, q13, q14⟩ := hb
  unfold momShape
  simp only [q1, q4, q7, h.sum, Fl.scale_pos hs, Fl.scale_div hs, h.entry 2 2 (by norm_num) (by norm_num),
    h.entry 3 3 (by norm_num) (by norm_num), h.entry 4 4 (by norm_num) (by norm_num), h.entry 2 4 (by norm_num) (by norm_num),
    h.entry 3 4 (by norm_num) (by norm_num), ratioError_unit hs]
  by_cases h0 : b.flags = 0
  · rw [if_pos h0, if_pos h0]
    by_cases h1 : b.flux.pos
    · rw [if_pos h1, if_pos h1]
      by_cases h2 : b.T.pos
      · rw [if_pos h2, if_pos h2]
        rcases getRatioError (sums.getD 2 .nan) (sums.getD 4 .nan) (cov.get 2 2) (cov.get 4 4) (cov.get 2 4) with e | e1
        · rfl
        · rcases getRatioError (sums.getD 3 .nan) (sums.getD 4 .nan) (cov.get 3 3) (cov.get 4 4) (cov.get 3 4) with e | e2
          · rfl
          · simp only [Except.bind]
            split_ifs
            · exact ⟨rfl, q2, q3, rfl, q5, q6, rfl, q8, rfl, rfl, rfl, rfl, rfl, q14⟩
            · exact ⟨rfl, q2, q3, rfl, q5, q6, rfl, q8, rfl, rfl, q11, q12, rfl, q14⟩
      · rw [if_neg h2, if_neg h2]
        exact ⟨rfl, q2, q3, rfl, q5, q6, rfl, q8, q9, q10, q11, q12, q13, q14⟩
    · rw [if_neg h1, if_neg h1]
      exact ⟨rfl, q2, q3, rfl, q5, q6, rfl, q8, q9, q10, q11, q12, q13, q14⟩
  · rw [if_neg h0, if_neg h0]
    exact ⟨q1, q2, q3, q4, q5, q6, q7, q8, q9, q10, q11, q12, q13, q14⟩

/-- C95.  Sums and covariances in another unit of brightness give the same flags, signal to noise, size, shape and their
errors, and a flux in that unit; also for sums that are not finite, and the same exceptions are raised. -/
theorem C95_result (hs : 0 < s) (h : Rescaled s sums sums' cov cov') (nrm nrm' : Option Fl) :
    OutcomeInUnit s (makeMomResult sums cov nrm) (makeMomResult sums' cov' nrm') := by
  unfold makeMomResult
  rw [h.length, h.rows, h.cols, momSize_unit hs h]
  by_cases h1 : sums.length ≠ 6 ∧ sums.length ≠ 17
  · rw [if_pos h1, if_pos h1]; rfl
  · rw [if_neg h1, if_neg h1]
    by_cases h2 : (cov.n, cov.m) ≠ (6, 6) ∧ (cov.n, cov.m) ≠ (17, 17)
    · rw [if_pos h2, if_pos h2]; rfl
    · rw [if_neg h2, if_neg h2]
      rcases momSize sums cov with e | tp
      · rfl
      · have hb := momShape_unit hs h (momBase_unit hs h nrm nrm' tp)
        simp only [Except.bind]
        rcases hx : momShape sums cov (momBase sums cov nrm (momFlux sums cov) tp) with e | r <;>
          rcases hy : momShape sums' cov' (momBase sums' cov' nrm' (momFlux sums' cov') tp) with e' | r' <;>
          rw [hx, hy] at hb
        · exact hb
        · exact hb.elim
        · exact hb.elim
        · simp only
          rw [addMoments_unit hs h]
          rcases addMomentsByName sums cov momentsNameMap with e | named
          · rfl
          · obtain ⟨q1, q2, q3, q4, q5, q6, q7, q8, q9, q10, q11, q12, q13, q14⟩ := hb
            exact ⟨q1, q2, q3, q4, q5, q6, q7, q8, q9, q10, q11, q12, q13, rfl⟩

/-! ### Gaussian weighted moments -/

/-- Relation of accumulated sums. -/
def AccInUnit (s : ℝ) (r r' : WRes) : Prop :=
  r'.npix = r.npix ∧ r'.acc = r.acc.map fun a => ⟨a.wsum, fun i => s * a.sums i, fun i j => s ^ 2 * a.cov i j⟩

/-- Relation of outcomes of the loop over the pixels. -/
def LoopInUnit (s : ℝ) : Except PyErr WRes → Except PyErr WRes → Prop
  | .ok r, .ok r' => AccInUnit s r r'
  | .error e, .error e' => e = e'
  | _, _ => False

theorem wsF_unit (s : ℝ) (higher : Bool) (v u : ℝ) (p : Pixel) : wsF higher v u (pixelInUnit s p) = wsF higher v u p := by
  cases higher <;> rfl

theorem wsLoop_unit (hs : 0 < s) (higher : Bool) (g : Gauss) (wt : List Gauss) (m : Option ℝ) :
    ∀ (pixels : List Pixel) (r r' : WRes), AccInUnit s r r' →
    LoopInUnit s (wsLoop higher g wt m pixels r) (wsLoop higher g wt m (pixels.map (pixelInUnit s)) r') := by
  intro pixels
  induction pixels with
  | nil => intro r r' h; exact h
  | cons p ps ih =>
    intro r r' h
    rw [List.map_cons]
    unfold wsLoop
    have hz : (pixelInUnit s p).ierr * (pixelInUnit s p).ierr = 0 ↔ p.ierr * p.ierr = 0 := by
      simp [pixelInUnit, hs.ne']
    have e1 : (pixelInUnit s p).v = p.v := rfl
    have e2 : (pixelInUnit s p).u = p.u := rfl
    have e3 : (pixelInUnit s p).area = p.area := rfl
    simp only [e1, e2, e3, hz, wsF_unit]
    split_ifs with c1 c2
    · rfl
    · apply ih
      obtain ⟨h1, h2⟩ := h
      refine ⟨by simp only [h1], ?_⟩
      simp only [h2]
      rcases gmixEval wt p.v p.u p.area with _ | w
      · rfl
      · rcases r.acc with _ | a
        · rfl
        · have hi : p.ierr ≠ 0 := fun hh => c2 (by rw [hh]; ring)
          simp only [Option.bind_some, Option.map_some, wsStep, pixelInUnit, Option.some.injEq, WAcc.mk.injEq, true_and]
          refine ⟨?_, ?_⟩
          · funext i; ring
          · funext i j
            have : (1.0 : ℝ) / (p.ierr / s * (p.ierr / s)) = s ^ 2 * (1.0 / (p.ierr * p.ierr)) := by
              rw [div_mul_div_comm, div_div_eq_mul_div, pow_two, ← mul_div_assoc, mul_comm]
            rw [this]
            generalize (1.0 : ℝ) / (p.ierr * p.ierr) = q
            ring
    · exact ih r r' h

theorem wsRescaled (higher : Bool) {r r' : WRes} (h : AccInUnit s r r') :
    Rescaled s (wsSums higher r.acc) (wsSums higher r'.acc) (wsCov higher r.acc) (wsCov higher r'.acc) := by
  rw [h.2]
  rcases r.acc with _ | a
  · refine ⟨rfl, rfl, rfl, fun i => ?_, fun i j _ _ => rfl, fun i _ => Or.inr fun j => rfl⟩
    simp only [wsSums, Option.map_none, List.getD_eq_getElem?_getD, List.getElem?_replicate]
    split_ifs <;> rfl
  · refine ⟨by simp [wsSums], rfl, rfl, fun i => ?_, fun i j _ _ => rfl, fun i _ => Or.inr fun j => rfl⟩
    simp only [wsSums, Option.map_some, List.getD_eq_getElem?_getD, List.getElem?_map]
    by_cases hi : i < nMom higher
    · simp [List.getElem?_range hi]
    · rw [List.getElem?_eq_none (by simpa using hi)]; rfl

theorem scale_right (hs : 0 < s) (a b : Fl) : (.fin s * a) * b = .fin s * (a * b) := by
  have := Fl.scale_mul hs one_pos a b
  rwa [Fl.one_scale, mul_one] at this

theorem parsScale_unit (hs : 0 < s) (fac : Fl) (l : List Fl) :
    (parsInUnit s l).modify 5 (fun x => x * fac) = parsInUnit s (l.modify 5 fun x => x * fac) := by
  rcases l with _ | ⟨a, _ | ⟨b, _ | ⟨c, _ | ⟨d, _ | ⟨e, _ | ⟨f, _ | ⟨g, l⟩⟩⟩⟩⟩⟩⟩ <;> try rfl
  change [.fin s * a, .fin s * b, c, d, e, (.fin s * f) * fac] = [.fin s * a, .fin s * b, c, d, e, .fin s * (f * fac)]
  rw [scale_right hs]

/-- C95.  `GaussMom`: with values `s` times and inverse errors `1/s` times as large the same flags, signal to noise, size and
shape are measured, the flux is `s` times as large, and the same exceptions are raised. -/
theorem C95_gauss (hs : 0 < s) (weight : List Gauss) (higher : Bool) (pixels : List Pixel) (area : ℝ) :
    (gaussMomGo weight higher (.obs (pixels.map (pixelInUnit s)) area)).1 = (gaussMomGo weight higher (.obs pixels area)).1 ∧
    MomentsInUnit s (gaussMomGo weight higher (.obs pixels area)).2
      (gaussMomGo weight higher (.obs (pixels.map (pixelInUnit s)) area)).2 := by
  unfold gaussMomGo getWeightedMoments getWeightedSums
  rcases setNormsIfNeeded weight with ⟨d, e | _⟩
  · exact ⟨rfl, rfl⟩
  · rcases d with _ | ⟨g, gs⟩
    · exact ⟨rfl, rfl⟩
    · simp only
      have hl := wsLoop_unit hs higher g (g :: gs) (wsMaxrad2 (g :: gs) none) pixels WRes.zero WRes.zero
        ⟨rfl, by simp [WRes.zero]⟩
      rcases hx : wsLoop higher g (g :: gs) (wsMaxrad2 (g :: gs) none) pixels WRes.zero with e | r <;>
        rcases hy : wsLoop higher g (g :: gs) (wsMaxrad2 (g :: gs) none) (pixels.map (pixelInUnit s)) WRes.zero with e' | r' <;>
        rw [hx, hy] at hl
      · exact ⟨rfl, hl⟩
      · exact hl.elim
      · exact hl.elim
      · have hw : wsWsum r'.acc = wsWsum r.acc := by rw [hl.2]; rcases r.acc with _ | a <;> rfl
        have hm := C95_result hs (wsRescaled higher hl) (some (wsWsum r.acc)) (some (wsWsum r'.acc))
        simp only [weightedStats]
        rcases hu : makeMomResult (wsSums higher r.acc) (wsCov higher r.acc) (some (wsWsum r.acc)) with e | w <;>
          rcases hv : makeMomResult (wsSums higher r'.acc) (wsCov higher r'.acc) (some (wsWsum r'.acc)) with e' | w' <;>
          rw [hu, hv] at hm
        · exact ⟨rfl, hm⟩
        · exact hm.elim
        · exact hm.elim
        · refine ⟨rfl, ?_⟩
          simp only [Except.map, hm.flags]
          obtain ⟨q1, q2, q3, q4, q5, q6, q7, q8, q9, q10, q11, q12, q13, q14⟩ := hm
          split_ifs
          · exact ⟨⟨q1, q2, q3, q4, q5, q6, q7, q8, q9, q10, q11, q12, q13, q14⟩, hw, hl.1⟩
          · refine ⟨⟨q1, q2, q3, ?_, ?_, q6, q7, q8, q9, q10, q11, q12, ?_, q14⟩, ?_, hl.1⟩
            · simp only [gaussMomScale, q4, scale_right hs]
            · simp only [gaussMomScale, q5, scale_right hs]
            · simp only [gaussMomScale, q13, Option.map_map]
              congr 1
              funext l
              exact parsScale_unit hs _ l
            · simp only [gaussMomScale, hw]

/-! ### Pre-psf moments -/

/-- Moments in another unit; the variances of the centroid sums, which are not measured, are constants. -/
noncomputable def kmomInUnit (s : ℝ) (m : KMoments) : KMoments :=
  ⟨s * m.mp, s * m.mc, s * m.mr, s * m.mf, fun i j => if 2 ≤ i ∧ 2 ≤ j then s ^ 2 * m.cov i j else m.cov i j⟩

theorem totVar_unit (hs : 0 < s) (w : Image) :
    totVar { w with get := fun r c => w.get r c / s ^ 2 } = s ^ 2 * totVar w := by
  have h2 : 0 < s ^ 2 := by positivity
  unfold totVar
  rw [Finset.mul_sum]
  refine Finset.sum_congr ?_ fun x _ => ?_
  · ext x
    simp only [Finset.mem_filter, gt_iff_lt, div_pos_iff_of_pos_right h2]
  · simp only
    rw [div_div_eq_mul_div, mul_div_assoc', mul_comm]

theorem checkObs_unit (o : PreObs) (noPsf : Bool) :
    checkObs (some (preObsInUnit s o)) noPsf = (checkObs (some o) noPsf).map fun x => (preObsInUnit s o, x.2) := by
  unfold checkObs
  have hn : (preObsInUnit s o).image.nrow = o.image.nrow := rfl
  have hc : (preObsInUnit s o).image.ncol = o.image.ncol := rfl
  have hp : (preObsInUnit s o).psf = o.psf := rfl
  have hj : (preObsInUnit s o).jac = o.jac := rfl
  simp only [hn, hc, hp, hj]
  by_cases h : o.image.nrow ≠ o.image.ncol
  · rw [if_pos h, if_pos h]; rfl
  · rw [if_neg h, if_neg h]
    rcases noPsf with _ | _
    · rcases o.psf with _ | p
      · rfl
      · simp only
        by_cases hw : ¬ sameWcs p.2 o.jac
        · rw [if_pos hw, if_pos hw]; rfl
        · rw [if_neg hw, if_neg hw]; rfl
    · rfl

theorem checkObs_fst {o : PreObs} {noPsf : Bool} {x : PreObs × Option (Image × Jacobian)}
    (h : checkObs (some o) noPsf = .ok x) : x.1 = o := by
  unfold checkObs at h
  simp only at h
  split_ifs at h
  rcases noPsf with _ | _
  · rcases hp : o.psf with _ | p
    · rw [hp] at h; cases h
    · rw [hp] at h
      simp only at h
      split_ifs at h
      cases h; rfl
  · cases h; rfl

theorem padAndFft_unit (im : Image) (r0 c0 : ℝ) (target : ℤ) (ap : ℝ) :
    padAndFft { im with get := fun r c => s * im.get r c } r0 c0 target ap =
      (padAndFft im r0 c0 target ap).map fun k => { k with k := fun r c => (s : ℂ) * k.k r c } := by
  have ha : apodize ap { im with get := fun r c => s * im.get r c } =
      { apodize ap im with get := fun r c => s * (apodize ap im).get r c } := by
    unfold apodize
    split_ifs
    · simp only [Image.mk.injEq, true_and]
      funext r c; ring
    · rfl
  unfold padAndFft
  rw [ha]
  generalize apodize ap im = im'
  unfold zeroPadImage
  simp only
  split_ifs
  all_goals first | rfl | skip
  all_goals
    simp only [Except.map, Except.ok.injEq, KIm.mk.injEq, true_and, and_true]
    funext kr kc
    unfold dft2
    rw [Finset.mul_sum]
    refine Finset.sum_congr rfl fun x _ => ?_
    rw [← mul_assoc]
    congr 1
    rw [← Complex.ofReal_mul]
    congr 1
    rw [mul_ite, mul_zero]

theorem modeSum_unit (M : Finset (ℕ × ℕ)) (n : ℕ) (kim kpsf : ℕ → ℕ → ℂ) (dr dc : ℝ) (k : ℕ → ℕ → ℝ) (d : ℝ) :
    (∑ x ∈ M, (deconvAt n (fun r c => (s : ℂ) * kim r c) kpsf dr dc x.1 x.2 * (k x.1 x.2 : ℂ)).re) * d =
      s * ((∑ x ∈ M, (deconvAt n kim kpsf dr dc x.1 x.2 * (k x.1 x.2 : ℂ)).re) * d) := by
  rw [← mul_assoc, Finset.mul_sum]
  congr 1
  refine Finset.sum_congr rfl fun x _ => ?_
  rw [← Complex.re_ofReal_mul, ← mul_assoc]
  congr 2
  unfold deconvAt
  rw [mul_ite]
  congr 1
  · ring
  · ring

theorem measure_unit (n : ℕ) (kim kpsf : ℕ → ℕ → ℂ) (tv pad : ℝ) (K : Kernels) (dr dc : ℝ) :
    measureMoments n (fun r c => (s : ℂ) * kim r c) kpsf (s ^ 2 * tv) pad K dr dc =
      (measureMoments n kim kpsf tv pad K dr dc).map (kmomInUnit s) := by
  unfold measureMoments
  dsimp only
  by_cases h0 : ∃ k ∈ modes n K.msk, psfUsed (kpsf k.1 k.2) ‖kpsf 0 0‖ = 0
  · rw [if_pos h0, if_pos h0]; rfl
  · rw [if_neg h0, if_neg h0]
    unfold kmomInUnit
    rw [Option.map_some, Option.some.injEq, KMoments.mk.injEq]
    refine ⟨modeSum_unit _ n kim kpsf dr dc (K.kern 2) _, modeSum_unit _ n kim kpsf dr dc (K.kern 3) _,
      modeSum_unit _ n kim kpsf dr dc (K.kern 4) _, modeSum_unit _ n kim kpsf dr dc (K.kern 5) _, ?_⟩
    funext i j
    dsimp only
    by_cases h1 : 2 ≤ i ∧ i < 6 ∧ 2 ≤ j ∧ j < 6
    · rw [if_pos h1, if_pos h1, if_pos ⟨h1.1, h1.2.2.1⟩]
      generalize (∑ k ∈ modes n K.msk, _ : ℝ) = S
      generalize (1 / (n : ℝ) * (1 / (n : ℝ)) * (1 / (n : ℝ) * (1 / (n : ℝ)))) = D
      ring
    · rw [if_neg h1, if_neg h1]
      by_cases h2 : 2 ≤ i ∧ 2 ≤ j
      · rw [if_pos h2, if_neg (by omega), mul_zero]
      · rw [if_neg h2]

theorem preMoments_unit (hs : 0 < s) (cfg : PreCfg) (o : PreObs) (noPsf : Bool) :
    preMoments cfg (some (preObsInUnit s o)) noPsf =
      (preMoments cfg (some o) noPsf).map fun x => (x.1.map (kmomInUnit s), x.2) := by
  unfold preMoments
  rw [checkObs_unit]
  rcases hc : checkObs (some o) noPsf with e | ⟨o', psf⟩
  · rfl
  · have := checkObs_fst hc
    subst this
    simp only [Except.map, Except.bind]
    have ht : targetDim cfg (preObsInUnit s o') psf = targetDim cfg o' psf := rfl
    have hn : (preObsInUnit s o').image.nrow = o'.image.nrow := rfl
    have hj : (preObsInUnit s o').jac = o'.jac := rfl
    have hi : (preObsInUnit s o').image = { o'.image with get := fun r c => s * o'.image.get r c } := rfl
    have hw : (preObsInUnit s o').weight = { o'.weight with get := fun r c => o'.weight.get r c / s ^ 2 } := rfl
    rw [ht, hn, hj, hi, hw, padAndFft_unit, totVar_unit hs]
    split_ifs
    · rfl
    · rcases padAndFft o'.image o'.jac.row0 o'.jac.col0 (targetDim cfg o' psf) cfg.apRad with e | kim
      · rfl
      · simp only [Except.map]
        rcases psfFft psf (targetDim cfg o' psf) kim.nrow with e | kpsf
        · rfl
        · simp only
          rcases preKernels cfg kim.nrow o'.jac with e | K
          · rfl
          · simp only
            split_ifs
            · rfl
            · simp only [measure_unit]

theorem makeMom_norm {sums : List Fl} {cov : CovMat} {x : Fl} {r : MomRes} (h : makeMomResult sums cov (some x) = .ok r) :
    r.sumsNorm = x := by
  unfold makeMomResult at h
  split_ifs at h
  obtain ⟨tp, h1, h⟩ := exBind_ok h
  obtain ⟨res, h2, h⟩ := exBind_ok h
  obtain ⟨named, h3, h⟩ := exBind_ok h
  cases h
  have hb : ∀ fl, (momBase sums cov (some x) fl tp).sumsNorm = x := by
    intro fl; unfold momBase; simp only; split_ifs <;> rfl
  change res.sumsNorm = x
  unfold momShape at h2
  simp only at h2
  split_ifs at h2
  · obtain ⟨e1, h4, h2⟩ := exBind_ok h2
    obtain ⟨e2, h5, h2⟩ := exBind_ok h2
    split_ifs at h2 <;> cases h2 <;> exact hb _
  all_goals cases h2; exact hb _

/-- C95.  Pre-psf moments: with pixel values `s` times and weights `1/s²` times as large, and the same psf, the same flags, signal
to noise, size and shape are measured with the same kernel, the flux is `s` times as large, and the same exceptions are raised. -/
theorem C95_prepsf (hs : 0 < s) (cfg : PreCfg) (o : PreObs) (noPsf : Bool) :
    PreInUnit s (preGo cfg (some o) noPsf) (preGo cfg (some (preObsInUnit s o)) noPsf) := by
  unfold preGo
  rw [preMoments_unit hs]
  rcases preMoments cfg (some o) noPsf with e | ⟨_ | m, K⟩
  · rfl
  · rfl
  · simp only [Except.map, Except.bind, Option.map_some]
    have hr : Rescaled s (preSums m) (preSums (kmomInUnit s m)) ⟨6, 6, fun i j => .fin (m.cov i j)⟩
        ⟨6, 6, fun i j => .fin ((kmomInUnit s m).cov i j)⟩ := by
      refine ⟨rfl, rfl, rfl, fun i => ?_, fun i j hi hj => ?_, fun i hi => Or.inl ⟨?_, ?_⟩⟩
      · rcases i with _ | _ | _ | _ | _ | _ | i <;> rfl
      · simp only [kmomInUnit]
        rw [if_pos ⟨hi, hj⟩]; rfl
      · rcases i with _ | _ | i
        · rfl
        · rfl
        · omega
      · simp only [kmomInUnit]
        rw [if_neg (by omega)]
    have hm := C95_result hs hr (some (.fin K.fk00)) (some (.fin K.fk00))
    rcases hu : makeMomResult (preSums m) ⟨6, 6, fun i j => .fin (m.cov i j)⟩ (some (.fin K.fk00)) with e | w <;>
      rcases hv : makeMomResult (preSums (kmomInUnit s m)) ⟨6, 6, fun i j => .fin ((kmomInUnit s m).cov i j)⟩
        (some (.fin K.fk00)) with e' | w' <;>
      rw [hu, hv] at hm
    · exact hm
    · exact hm.elim
    · exact hm.elim
    · exact ⟨hm, by rw [makeMom_norm hu, makeMom_norm hv], rfl⟩

/-- C61.  The kernels returned with `return_kernels`: each moment is the inverse transform at the centre, over all modes, of the
deconvolved image times the kernel returned. -/
theorem C61_returned_kernels (n : ℕ) (kim kpsf : ℕ → ℕ → ℂ) (tv pad : ℝ) (K : Kernels) (dr dc : ℝ) (m : KMoments)
    (h : measureMoments n kim kpsf tv pad K dr dc = some m) :
    ∀ p ∈ [(m.mp, K.fkp), (m.mc, K.fkc), (m.mr, K.fkr), (m.mf, K.fkf)],
      p.1 = (∑ k ∈ Finset.range n ×ˢ Finset.range n,
        (deconvAt n kim kpsf dr dc k.1 k.2 * (fullKernel K.msk p.2 k.1 k.2 : ℂ)).re) / (n : ℝ) ^ 2 := by
  have key : ∀ (k : ℕ → ℕ → ℝ), (∑ x ∈ Finset.range n ×ˢ Finset.range n,
      (deconvAt n kim kpsf dr dc x.1 x.2 * (fullKernel K.msk k x.1 x.2 : ℂ)).re) / (n : ℝ) ^ 2 =
      (∑ x ∈ modes n K.msk, (deconvAt n kim kpsf dr dc x.1 x.2 * (k x.1 x.2 : ℂ)).re) * (1 / n * (1 / n)) := by
    intro k
    unfold modes
    rw [Finset.sum_filter, div_eq_mul_one_div, one_div_mul_one_div, pow_two]
    congr 1
    refine Finset.sum_congr rfl fun x _ => ?_
    unfold fullKernel
    by_cases hm : K.msk x.1 x.2
    · rw [if_pos hm, if_pos hm]
    · rw [if_neg hm, if_neg hm]; simp
  unfold measureMoments at h
  dsimp only at h
  by_cases h0 : ∃ k ∈ modes n K.msk, psfUsed (kpsf k.1 k.2) ‖kpsf 0 0‖ = 0
  · rw [if_pos h0] at h; cases h
  rw [if_neg h0] at h
  cases h
  intro p hp
  simp only [List.mem_cons, List.not_mem_nil, or_false] at hp
  rcases hp with rfl | rfl | rfl | rfl
  · exact (key K.fkp).symm
  · exact (key K.fkc).symm
  · exact (key K.fkr).symm
  · exact (key K.fkf).symm

/-! ### Concrete cases -/

/-- A measured object, and the same in a unit half as large. -/
example : OutcomeInUnit 2
    (makeMomResult [.fin 0, .fin 0, .fin 1, .fin 2, .fin 3, .fin 4] ⟨6, 6, fun i j => if i = j then .fin 1 else .fin 0⟩)
    (makeMomResult [.fin 0, .fin 0, .fin 2, .fin 4, .fin 6, .fin 8] ⟨6, 6, fun i j => if i = j then .fin 4 else .fin 0⟩) := by
  apply C95_result two_pos
  refine ⟨rfl, rfl, rfl, fun i => ?_, fun i j _ _ => ?_, fun i _ => Or.inr fun j => ?_⟩
  · rcases i with _ | _ | _ | _ | _ | _ | i <;> simp [Fl.scale_nan] <;> norm_num
  · simp only; split_ifs <;> simp <;> norm_num
  · simp only; split_ifs <;> simp <;> norm_num

/-- Pixels in another unit. -/
example : pixelInUnit 2 ⟨0, 0, 1, 3, 4⟩ = ⟨0, 0, 1, 6, 2⟩ := by
  simp only [pixelInUnit, Pixel.mk.injEq, true_and]; norm_num

end Ngmix.Props
