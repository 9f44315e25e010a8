import Verif.Props.Gaussap
import Verif.Props.Composite

/-!
# Aperture fluxes of catalogs of composite models (C64)

The models `bdf` (parameters `[row, col, g1, g2, T, fracdev, fluxes...]`) and `cm` (parameters
`[row, col, g1, g2, T, fluxes...]` with one `fracdev` and `TdByTe` for each object).
-/

namespace Ngmix.Props

open Ngmix Ngmix.Spec

noncomputable section

/-- Mean size of a composite of unit disk size: disk and bulge sizes weighted with their fluxes, as the tables have them. -/
def compositeSize (fd td : ℝ) : ℝ :=
  (1 - fd) * ((fvalsExp.zip pvalsExp).map fun fp => fp.2 * fp.1).sum +
    fd * td * ((fvalsDev.zip pvalsDev).map fun fp => fp.2 * fp.1).sum

/-- The aperture flux of a disk of flux `F (1 - fd)` plus a bulge of flux `F fd` whose size is `td` times that of the disk, the
size of the disk being such that the composite has the size `T`. -/
def compositeAperture (s2 g1 g2 T F fd td : ℝ) (x : ℝ) : Prop :=
  ∃ Te xe xd, Te * compositeSize fd td = T ∧ x = xe + xd ∧
    simpleAperture fvalsExp pvalsExp s2 g1 g2 Te (F * (1 - fd)) xe ∧
    simpleAperture fvalsDev pvalsDev s2 g1 g2 (Te * td) (F * fd) xd

/-- C64.  The mean size is positive for every fraction in [0,1] and every positive ratio of sizes. -/
theorem C64_composite_size (fd td : ℝ) (h0 : 0 ≤ fd) (h1 : fd ≤ 1) (ht : 0 < td) : 0 < compositeSize fd td := by
  obtain ⟨k, hk, hpos⟩ := (C23_tfactor fd td).1 h0 h1 ht
  have h := (C23_tfactor fd td).2.1 k hk
  rw [cmTsum_eq] at h
  change k * compositeSize fd td = 1 at h
  by_contra hc
  nlinarith

theorem sigma_pos (wf : ℝ) (hwf : wf ≠ 0) : 0 < fwhmToSigma wf ^ 2 := by
  have : fwhmFac ≠ 0 := by unfold fwhmFac; positivity
  have : fwhmToSigma wf ≠ 0 := div_ne_zero hwf this
  positivity

theorem table_aperture (name : String) (fvals pvals : List ℝ) (h : (name, fvals, pvals) ∈ simpleTables)
    (row col g1 g2 T F : ℝ) (hT : 0 < T) (hg : InDisk g1 g2) :
    ∃ o, makeGmixModel [row, col, g1, g2, T, F] (.str name) = .ok o ∧
      (∀ g ∈ o.data, DetCurrent g ∧ (gmixLowDetval < g.det → 0 < g.irr)) ∧
      ∀ s2, simpleAperture fvals pvals s2 g1 g2 T F ((o.data.map (contribution s2)).sum) := by
  obtain ⟨-, -, m3⟩ := make_simple name fvals pvals h row col g1 g2 T F
  obtain ⟨-, f2⟩ := C22_fill_simple fvals pvals row col g1 g2 T F
  obtain ⟨-, -, -, t3, -⟩ := C22_tables name fvals pvals h
  obtain ⟨gm, hgm, hall⟩ := f2 hg
  obtain ⟨o, ho, rfl, -, -⟩ := m3 gm hgm
  refine ⟨o, ho, ?_, fun s2 => ⟨o.data.map fun g => { g with row := 0, col := 0 }, ?_, ?_⟩⟩
  · intro g hgm
    obtain ⟨i, hi, rfl⟩ := List.getElem_of_mem hgm
    have hl := hall.length_eq
    have := (List.forall₂_iff_get.1 hall).2 i (by omega) hi
    simp only [List.get_eq_getElem] at this
    obtain ⟨-, hsh, hdc, -⟩ := this
    refine ⟨hdc, fun _ => hasShape_posdef hsh ?_ hg⟩
    refine mul_pos hT (t3 _ ?_)
    rw [List.getElem_zip]
    exact List.getElem_mem _
  · rw [List.forall₂_map_right_iff]
    refine hall.imp fun fp g hh => ⟨hh.1, ⟨rfl, rfl, hh.2.1.2.2⟩, hh.2.2.1⟩
  · rw [List.map_map]; rfl

/-- The flux of a composite mixture. -/
theorem composite_flux (row col g1 g2 T F fd td k wf : ℝ) (hwf : wf ≠ 0) (hT : 0 < T) (hg : InDisk g1 g2) (ht : 0 < td)
    (hs : 0 < compositeSize fd td) (hk : getCmTfactor fd td = .ok k) :
    ∃ x, gaussapFlux (fillComposite row col (2 * g1 / (1 + (g1 ^ 2 + g2 ^ 2))) (2 * g2 / (1 + (g1 ^ 2 + g2 ^ 2)))
        (T * k) F fd td) (.fwhm wf) = .ok (some x) ∧
      compositeAperture (fwhmToSigma wf ^ 2) g1 g2 T F fd td x := by
  have hks := (C23_tfactor fd td).2.1 k hk
  rw [cmTsum_eq] at hks
  change k * compositeSize fd td = 1 at hks
  have hkp : 0 < k := by by_contra hc; nlinarith
  have hTe : 0 < T * k := mul_pos hT hkp
  obtain ⟨a, ha, da, xa⟩ := table_aperture _ _ _ mem_tables_exp row col g1 g2 (T * k) (F * (1 - fd)) hTe hg
  obtain ⟨b, hb, db, xb⟩ := table_aperture _ _ _ mem_tables_dev row col g1 g2 (T * k * td) (F * fd) (mul_pos hTe ht) hg
  have hgm : fillComposite row col (2 * g1 / (1 + (g1 ^ 2 + g2 ^ 2))) (2 * g2 / (1 + (g1 ^ 2 + g2 ^ 2)))
        (T * k) F fd td = a.data ++ b.data := by
    obtain ⟨-, -, m3⟩ := make_simple _ _ _ mem_tables_exp row col g1 g2 (T * k) (F * (1 - fd))
    obtain ⟨-, -, n3⟩ := make_simple _ _ _ mem_tables_dev row col g1 g2 (T * k * td) (F * fd)
    obtain ⟨a', ha', hda, -, -⟩ := m3 _ (by simp only [fillSimple, g1g2ToE1E2nb_closed hg, Except.map]; rfl)
    obtain ⟨b', hb', hdb, -, -⟩ := n3 _ (by simp only [fillSimple, g1g2ToE1E2nb_closed hg, Except.map]; rfl)
    rw [ha'] at ha; rw [hb'] at hb
    injection ha with ha; injection hb with hb
    rw [← ha, ← hb, hda, hdb, composite_union]
  rw [hgm]
  refine ⟨_, C64_mixture _ (.fwhm wf) _ rfl (sigma_pos wf hwf) ?_, T * k, _, _, ?_, ?_, xa _, xb _⟩
  · intro g hgm
    rcases List.mem_append.1 hgm with h | h
    · exact da g h
    · exact db g h
  · rw [mul_assoc, hks, mul_one]
  · rw [List.map_append, List.sum_append]

theorem tfactor_ok {fd td : ℝ} (hs : 0 < compositeSize fd td) : ∃ k, getCmTfactor fd td = .ok k := by
  have : cmTsum fd td ≠ 0 := by rw [cmTsum_eq]; exact hs.ne'
  exact ⟨1 / cmTsum fd td, by simp [getCmTfactor, this]⟩

/-- C64.  One entry of the catalog for the model cm: a shape outside the unit disk is flagged and has no flux; otherwise the
flux of the disk through the aperture plus that of the bulge, with the size clipped at 1e-4, without flags; an object for which
the sizes cannot be normalised is a ZeroDivisionError. -/
theorem C64_entry_cm (wf fd td : ℝ) (row col g1 g2 T : ℝ) (fluxes : List ℝ) (b : ℕ) (hb : b < fluxes.length) :
    (compositeSize fd td ≠ 0 → ¬ InDisk g1 g2 →
      apDo "cm" wf fd td ([row, col, g1, g2, T] ++ fluxes) b = .ok (none, Flags.GMIX_RANGE_ERROR)) ∧
    (wf ≠ 0 → 0 < td → 0 < compositeSize fd td → InDisk g1 g2 →
      ∃ x, apDo "cm" wf fd td ([row, col, g1, g2, T] ++ fluxes) b = .ok (some x, 0) ∧
        compositeAperture (fwhmToSigma wf ^ 2) g1 g2 (max T 0.0001) fluxes[b] fd td x) ∧
    (compositeSize fd td = 0 → apDo "cm" wf fd td ([row, col, g1, g2, T] ++ fluxes) b = .error .zeroDiv) := by
  have hp := simple_pars "cm" (by decide) row col g1 g2 T fluxes b hb
  have hTp : 0 < max T 0.0001 := lt_of_lt_of_le (by norm_num) (le_max_right _ _)
  refine ⟨fun hs hg => ?_, fun hwf ht hs hg => ?_, fun hs => ?_⟩
  · have hne : cmTsum fd td ≠ 0 := by rw [cmTsum_eq]; exact hs
    obtain ⟨-, c2, -⟩ := C23_cm fd td (1 / cmTsum fd td) row col g1 g2 (max T 0.0001) fluxes[b]
      (by simp [getCmTfactor, hne])
    unfold apDo
    rw [hp]
    simp only [Except.bind, apMixture, if_true, c2 hg]
  · obtain ⟨k, hk⟩ := tfactor_ok hs
    obtain ⟨x, hx, hax⟩ := composite_flux row col g1 g2 (max T 0.0001) fluxes[b] fd td k wf hwf hTp hg ht hs hk
    refine ⟨x, ?_, hax⟩
    have hm : newGMixCM fd td [row, col, g1, g2, max T 0.0001, fluxes[b]] = .ok
        ⟨.cm fd td k, 6, 16, [row, col, g1, g2, max T 0.0001, fluxes[b]], fillComposite row col
          (2 * g1 / (1 + (g1 ^ 2 + g2 ^ 2))) (2 * g2 / (1 + (g1 ^ 2 + g2 ^ 2))) (max T 0.0001 * k) fluxes[b] fd td⟩ := by
      simp only [newGMixCM, hk, Except.bind, built, fillChecked, resetObj, fillObj, fillFunc, fillCm,
        g1g2ToE1E2nb_closed hg, Except.map]
      rfl
    unfold apDo
    rw [hp]
    simp only [Except.bind, apMixture, if_true, hm, hx]
  · have hk : getCmTfactor fd td = .error .zeroDiv := by
      unfold getCmTfactor
      rw [cmTsum_eq]
      exact if_pos hs
    unfold apDo
    rw [hp]
    simp only [Except.bind, apMixture, if_true, newGMixCM, hk]

theorem bdf_pars (row col g1 g2 T fd : ℝ) (fluxes : List ℝ) (b : ℕ) (hb : b < fluxes.length) :
    apBandPars "bdf" ([row, col, g1, g2, T, fd] ++ fluxes) b = .ok [row, col, g1, g2, max T 0.0001, fd, fluxes[b]] := by
  have hnp : apNpars "bdf" = 7 := by simp [apNpars]
  rw [bandPars_ok _ _ _ (by rw [hnp]; simp; omega)]
  simp [hnp, List.getElem_cons]

/-- C64.  One entry of the catalog for the model bdf, where the fraction of the bulge is a parameter and disk and bulge have the
same size. -/
theorem C64_entry_bdf (wf fd' td' : ℝ) (row col g1 g2 T fd : ℝ) (fluxes : List ℝ) (b : ℕ) (hb : b < fluxes.length) :
    (compositeSize fd 1 ≠ 0 → ¬ InDisk g1 g2 →
      apDo "bdf" wf fd' td' ([row, col, g1, g2, T, fd] ++ fluxes) b = .ok (none, Flags.GMIX_RANGE_ERROR)) ∧
    (wf ≠ 0 → 0 < compositeSize fd 1 → InDisk g1 g2 →
      ∃ x, apDo "bdf" wf fd' td' ([row, col, g1, g2, T, fd] ++ fluxes) b = .ok (some x, 0) ∧
        compositeAperture (fwhmToSigma wf ^ 2) g1 g2 (max T 0.0001) fluxes[b] fd 1 x) := by
  have hp := bdf_pars row col g1 g2 T fd fluxes b hb
  have hTp : 0 < max T 0.0001 := lt_of_lt_of_le (by norm_num) (le_max_right _ _)
  have hmix : ∀ pars, apMixture "bdf" fd' td' pars = makeGmixModel pars (.str "bdf") := by
    intro pars
    unfold apMixture makeGmixModel
    rw [if_neg (by decide)]
    simp [newGMixModel, num_facts, Except.bind]
  refine ⟨fun hs hg => ?_, fun hwf hs hg => ?_⟩
  · have hne : cmTsum fd 1 ≠ 0 := by rw [cmTsum_eq]; exact hs
    obtain ⟨-, c2, -⟩ := C23_bdf fd (1 / cmTsum fd 1) row col g1 g2 (max T 0.0001) fluxes[b]
      (by simp [getCmTfactor, hne])
    unfold apDo
    rw [hp]
    simp only [Except.bind, hmix, c2 hg]
  · obtain ⟨k, hk⟩ := tfactor_ok hs
    obtain ⟨x, hx, hax⟩ := composite_flux row col g1 g2 (max T 0.0001) fluxes[b] fd 1 k wf hwf hTp hg one_pos hs hk
    refine ⟨x, ?_, hax⟩
    have hm : makeGmixModel [row, col, g1, g2, max T 0.0001, fd, fluxes[b]] (.str "bdf") = .ok
        ⟨.model "bdf", 7, 16, [row, col, g1, g2, max T 0.0001, fd, fluxes[b]], fillComposite row col
          (2 * g1 / (1 + (g1 ^ 2 + g2 ^ 2))) (2 * g2 / (1 + (g1 ^ 2 + g2 ^ 2))) (max T 0.0001 * k) fluxes[b] fd 1⟩ := by
      simp [makeGmixModel, newGMixModel, num_facts, name_facts, ngauss_facts, npars_facts, Except.bind,
        fillNames, built, fillChecked, resetObj, fillObj, fillFunc, fillBdf, hk, g1g2ToE1E2nb_closed hg,
        Except.map]
    unfold apDo
    rw [hp]
    simp only [Except.bind, hmix, hm, hx]

/-- C64.  Any catalog, whatever the model: the call returns exactly when no entry that is attempted raises, and then has one row
for each object and one entry for each flux; objects that are masked out are marked as not attempted, and every other entry
depends on that object and that band alone. -/
theorem C64_catalog_rows (t : ApTable) (model : String) (wf : ℝ) (nband : ℕ) (fd td : List ℝ) (M : List Bool)
    (hM : M = t.mask.getD (List.replicate t.rows.length true)) (hMl : M.length = t.rows.length)
    (hne : t.rows ≠ []) (hw : t.width + 1 = apNpars model + nband)
    (hfd : fd = if model = "cm" then t.fracdev else List.replicate t.rows.length 0)
    (htd : td = if model = "cm" then t.TdByTe else List.replicate t.rows.length 0)
    (hfl : fd.length = t.rows.length) (htl : td.length = t.rows.length) :
    (∀ out, gaussapTable t model wf = .ok out →
      out.length = t.rows.length ∧ ∀ i (hi : i < t.rows.length) (ho : i < out.length) (hm : i < M.length)
        (hf : i < fd.length) (ht : i < td.length),
        (M[i] = false → out[i] = List.replicate nband (none, Flags.NO_ATTEMPT)) ∧
        (M[i] = true → out[i].length = nband ∧ ∀ b (hb : b < out[i].length),
          apDo model wf fd[i] td[i] t.rows[i] b = .ok out[i][b])) ∧
    ((∀ i (hi : i < t.rows.length) (hm : i < M.length) (hf : i < fd.length) (ht : i < td.length), M[i] = true →
        ∀ b < nband, ∃ e, apDo model wf fd[i] td[i] t.rows[i] b = .ok e) →
      ∃ out, gaussapTable t model wf = .ok out) := by
  have hn0 : t.rows.length ≠ 0 := fun h0 => hne (List.length_eq_zero_iff.1 h0)
  set Z := t.rows.zip (fd.zip (td.zip M)) with hZ
  have htab : gaussapTable t model wf = apRows model wf nband Z := by
    unfold gaussapTable
    simp only
    rw [← hM, if_neg (by rw [hMl]; simp), if_neg, if_neg hn0, if_neg (by omega), ← hfd, ← htd]
    · rw [show t.width + 1 - apNpars model = nband by omega]
    · rintro ⟨hc, hh⟩
      rw [if_pos hc] at hfd htd
      rw [hfd] at hfl; rw [htd] at htl
      exact hh.elim (fun h => h hfl) (fun h => h htl)
  have hZl : Z.length = t.rows.length := by simp [hZ, hMl, hfl, htl]
  have hZi : ∀ i (hi : i < Z.length) (ho : i < t.rows.length) (hm : i < M.length)
        (hf : i < fd.length) (ht : i < td.length), Z[i] = (t.rows[i], fd[i], td[i], M[i]) := by
    intro i hi ho hm hf ht
    simp [hZ]
  have conv : ∀ l : List (List ℝ × ℝ × ℝ × Bool), ∀ out, apRows model wf nband l = .ok out →
      ∀ x ∈ l, x.2.2.2 = true → ∀ b < nband, ∃ e, apDo model wf x.2.1 x.2.2.1 x.1 b = .ok e := by
    have bands : ∀ (f d : ℝ) (row : List ℝ) (bs : List ℕ) (es : List ApEntry), apBands model wf f d row bs = .ok es →
        ∀ b ∈ bs, ∃ e, apDo model wf f d row b = .ok e := by
      intro f d row bs
      induction bs with
      | nil => intro es _ b hb; cases hb
      | cons b bs ih =>
          intro es h b' hb'
          rw [apBands] at h
          cases hd : apDo model wf f d row b with
          | error e => rw [hd] at h; cases h
          | ok e =>
              rw [hd] at h
              simp only [Except.bind] at h
              cases hr : apBands model wf f d row bs with
              | error e => rw [hr] at h; cases h
              | ok es' =>
                  rcases List.mem_cons.1 hb' with rfl | hb'
                  · exact ⟨e, hd⟩
                  · exact ih es' hr b' hb'
    intro l
    induction l with
    | nil => intro _ _ x hx; cases hx
    | cons x l ih =>
        obtain ⟨row, f, d, m⟩ := x
        intro out h y hy hm b hb
        rw [apRows] at h
        cases hr : apRows model wf nband l with
        | error e =>
            exfalso
            rw [hr] at h
            cases m with
            | false => simp only [Bool.false_eq_true, if_false, Except.bind, Except.map] at h; cases h
            | true =>
                simp only [if_true] at h
                cases hb : apBands model wf f d row (List.range nband) with
                | error e => rw [hb] at h; cases h
                | ok es => rw [hb] at h; cases h
        | ok rs =>
            rcases List.mem_cons.1 hy with rfl | hy
            · simp only at hm
              subst hm
              simp only [if_true] at h
              cases hbs : apBands model wf f d row (List.range nband) with
              | error e => rw [hbs] at h; cases h
              | ok es => exact bands f d row _ es hbs b (List.mem_range.2 hb)
            · exact ih rs hr y hy hm b hb
  have fwd : ∀ out, apRows model wf nband Z = .ok out → List.Forall₂ (rowOf model wf nband) Z out := by
    intro out ho
    obtain ⟨out', ho', hall⟩ := apRows_ok model wf nband Z (conv Z out ho)
    rw [ho] at ho'
    injection ho' with ho'
    rw [ho']; exact hall
  refine ⟨fun out hout => ?_, fun h => ?_⟩
  · have hall := fwd out (htab ▸ hout)
    have hol : out.length = t.rows.length := by rw [← hall.length_eq, hZl]
    refine ⟨hol, fun i hi ho hm hf ht => ?_⟩
    have hr := (List.forall₂_iff_get.1 hall).2 i (by omega) ho
    simp only [List.get_eq_getElem] at hr
    rw [hZi i (by omega) hi hm hf ht] at hr
    obtain ⟨r1, r2⟩ := hr
    simp only at r1 r2
    refine ⟨r1, fun hmt => ?_⟩
    have hfa := r2 hmt
    have hl := hfa.length_eq
    simp only [List.length_range] at hl
    refine ⟨hl.symm, fun b hb => ?_⟩
    have hb2 := (List.forall₂_iff_get.1 hfa).2 b (by simp; omega) hb
    simpa only [List.get_eq_getElem, List.getElem_range] using hb2
  · obtain ⟨out, ho, -⟩ := apRows_ok model wf nband Z (by
      intro x hx hm b hb
      obtain ⟨i, hi, rfl⟩ := List.getElem_of_mem hx
      have h1 : i < t.rows.length := by omega
      rw [hZi i hi h1 (by omega) (by omega) (by omega)] at hm ⊢
      exact h i h1 (by omega) (by omega) (by omega) hm b hb)
    exact ⟨out, by rw [htab, ho]⟩

/-- C64.  A catalog for the model cm: two bands, two objects, the second masked out. -/
example (wf F G r c F2 G2 : ℝ) (hwf : wf ≠ 0) : ∃ x y,
    gaussapTable ⟨[[r, c, 0.1, 0.2, 3, F, G], [r, c, 2, 2, 3, F2, G2]], 7, [0.5, 1], [2, 1], some [true, false]⟩ "cm" wf =
      .ok [[(some x, 0), (some y, 0)], [(none, Flags.NO_ATTEMPT), (none, Flags.NO_ATTEMPT)]] ∧
    compositeAperture (fwhmToSigma wf ^ 2) 0.1 0.2 3 F 0.5 2 x ∧
    compositeAperture (fwhmToSigma wf ^ 2) 0.1 0.2 3 G 0.5 2 y := by
  have hs := C64_composite_size 0.5 2 (by norm_num) (by norm_num) (by norm_num)
  have hg : InDisk 0.1 0.2 := by norm_num [InDisk]
  obtain ⟨x, hx, ax⟩ := (C64_entry_cm wf 0.5 2 r c 0.1 0.2 3 [F, G] 0 (by simp)).2.1 hwf (by norm_num) hs hg
  obtain ⟨y, hy, ay⟩ := (C64_entry_cm wf 0.5 2 r c 0.1 0.2 3 [F, G] 1 (by simp)).2.1 hwf (by norm_num) hs hg
  have h3 : max (3 : ℝ) 0.0001 = 3 := max_eq_left (by norm_num)
  rw [h3] at ax ay
  refine ⟨x, y, ?_, ax, ay⟩
  simp only [List.cons_append, List.nil_append] at hx hy
  simp [gaussapTable, apNpars, apRows, apBands, List.range_succ, hx, hy, Except.bind, Except.map]

/-- C64.  An object of the model bdf with shape outside the disk is flagged, one inside is measured. -/
example (wf F r c : ℝ) (hwf : wf ≠ 0) : ∃ x,
    apDo "bdf" wf 0 0 [r, c, 0, 0.3, -5, 0.25, F] 0 = .ok (some x, 0) ∧
    compositeAperture (fwhmToSigma wf ^ 2) 0 0.3 0.0001 F 0.25 1 x ∧
    apDo "bdf" wf 0 0 [r, c, 1, 0.3, -5, 0.25, F] 0 = .ok (none, Flags.GMIX_RANGE_ERROR) := by
  have hs := C64_composite_size 0.25 1 (by norm_num) (by norm_num) (by norm_num)
  obtain ⟨x, hx, ax⟩ := (C64_entry_bdf wf 0 0 r c 0 0.3 (-5) 0.25 [F] 0 (by simp)).2 hwf hs (by norm_num [InDisk])
  have h3 : max (-5 : ℝ) 0.0001 = 0.0001 := max_eq_right (by norm_num)
  rw [h3] at ax
  exact ⟨x, hx, ax, (C64_entry_bdf wf 0 0 r c 1 0.3 (-5) 0.25 [F] 0 (by simp)).1 hs.ne' (by norm_num [InDisk])⟩

end

end Ngmix.Props
