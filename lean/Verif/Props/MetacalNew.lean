import Verif.Spec.MetacalNew
import Verif.Props.Metacal
import Verif.Spec.GMix
import Verif.Props.Models
import Verif.Proof.FitInit

/-!
# C102: metacal shears the galaxy before the psf and replaces the psf
-/

namespace Ngmix.Props

open Ngmix Ngmix.Spec

noncomputable section

variable {O X : Type}

/-- What a constructor that returns has made. -/
theorem newMc_parts (g : GalSimMake O X) (cls : McClass O) (o : MObs O X) (mc : Mc O X)
    (h : newMc g cls (some o) = .ok mc) : ∃ image psf pixel psfInv pixelInv psfNopix, Seen g o image psf pixel ∧
      g.deconvolve psf = .ok psfInv ∧ g.deconvolve pixel = .ok pixelInv ∧
      (g.ops o).convolve image psfInv = .ok mc.imNopsf ∧ (g.ops o).convolve psf pixelInv = .ok psfNopix ∧
      mc.gs = g.ops o ∧ mc.obs = o ∧
      (cls ≠ .dilate → ∀ r c, mc.psfNoise.getD (fun _ _ => 0) r c = psfNoiseOf cls r c) ∧
      (cls = .dilate → mc.kind = .dilating psfNopix pixel) ∧
      (cls ≠ .dilate → mc.kind = .round (roundTarget g o psf cls)) := by
  unfold newMc at h
  obtain ⟨b, hb, h⟩ := exBind_ok h
  unfold newBase at hb
  obtain ⟨pixel, h1, hb⟩ := exBind_ok hb
  obtain ⟨pixelInv, h2, hb⟩ := exBind_ok hb
  obtain ⟨image, h3, hb⟩ := exBind_ok hb
  obtain ⟨psf, h4, hb⟩ := exBind_ok hb
  obtain ⟨psfInv, h5, hb⟩ := exBind_ok hb
  obtain ⟨nopsf, h6, hb⟩ := exBind_ok hb
  obtain ⟨nopix, h7, rfl⟩ := exMap_ok hb
  refine ⟨image, psf, pixel, psfInv, pixelInv, nopix, ⟨h3, h4, h1⟩, h5, h2, ?_⟩
  cases cls with
  | dilate =>
    cases h
    exact ⟨h6, h7, rfl, rfl, fun h => absurd rfl h, fun _ => rfl, fun h => absurd rfl h⟩
  | gauss noise =>
    obtain ⟨m, -, h⟩ := exBind_ok h
    cases h
    exact ⟨h6, h7, rfl, rfl, (fun _ _ _ => rfl), (fun h => by cases h), fun _ => rfl⟩
  | fitGauss noise fit =>
    obtain ⟨m, -, h⟩ := exBind_ok h
    cases noise with
    | none => cases h
    | some n =>
      obtain ⟨t, ht, rfl⟩ := exMap_ok h
      obtain ⟨sigma, hs, ht⟩ := exBind_ok ht
      obtain ⟨t', ht', rfl⟩ := exMap_ok ht
      refine ⟨h6, h7, rfl, rfl, (fun _ _ _ => rfl), (fun h => by cases h), fun _ => ?_⟩
      simp only [roundTarget, hs]
      change McKind.round _ = McKind.round (g.gaussian sigma (imSum o.psf.image))
      rw [ht']
  | analytic p noise =>
    obtain ⟨m, -, h⟩ := exBind_ok h
    cases p with
    | none => cases h
    | some p =>
      cases h
      exact ⟨h6, h7, rfl, rfl, (fun _ _ _ => rfl), (fun h => by cases h), fun _ => rfl⟩

/-- The deconvolved image. -/
theorem nopsf_transform {g : GalSimMake O X} {F : O → Wave → ℂ} (hF : Transforms g F) {o : MObs O X}
    {image psf psfInv nopsf : O} (h1 : g.deconvolve psf = .ok psfInv)
    (h2 : (g.ops o).convolve image psfInv = .ok nopsf) (k : Wave) (hk : F psf k ≠ 0) :
    F nopsf k = F image k / F psf k := by
  rw [hF.convolve _ _ _ _ h2, hF.deconvolve _ _ h1 k hk, div_eq_mul_inv]

/-- The psf made for a shear. -/
theorem isTarget_of_fresh {g : GalSimMake O X} {F : O → Wave → ℂ} (hF : Transforms g F) {o : MObs O X}
    {psf pixel pixelInv psfNopix : O} {cls : McClass O} {mc : Mc O X}
    (h1 : g.deconvolve pixel = .ok pixelInv) (h2 : (g.ops o).convolve psf pixelInv = .ok psfNopix)
    (hgs : mc.gs = g.ops o) (hd : cls = .dilate → mc.kind = .dilating psfNopix pixel)
    (hr : cls ≠ .dilate → mc.kind = .round (roundTarget g o psf cls)) (g1 g2 : ℝ) (sheared : Bool)
    (im : ℕ → ℕ → ℝ) (t : O) (h : freshPsf mc sheared g1 g2 = .ok (im, t)) :
    IsTarget g F o psf pixel cls g1 g2 sheared t ∧ drawn (mc.gs.drawPsf t) = .ok im := by
  unfold freshPsf at h
  obtain ⟨p, hp, h⟩ := exBind_ok h
  obtain ⟨im', him, h⟩ := exMap_ok h
  cases h
  refine ⟨?_, him⟩
  have round : cls ≠ .dilate → sheared = false ∧ ∃ t0, roundTarget g o psf cls = .ok t0 ∧
      ∀ k, F t k = F t0 (longer (growth g1 g2) k) := by
    intro hc
    unfold reconvPsf at hp
    rw [hr hc, hgs] at hp
    cases sheared with
    | true => simp at hp
    | false =>
      simp only [Bool.false_eq_true, if_false] at hp
      obtain ⟨t0, ht0, hp⟩ := exBind_ok hp
      exact ⟨rfl, t0, ht0, fun k => hF.dilate _ _ _ _ hp k⟩
  cases cls with
  | dilate =>
    unfold reconvPsf at hp
    rw [hd rfl, hgs] at hp
    obtain ⟨d, hdil, hp⟩ := exBind_ok hp
    obtain ⟨d', hsh, hp⟩ := exBind_ok hp
    have hnp : ∀ k', F pixel k' ≠ 0 → F psfNopix k' = F psf k' / F pixel k' := fun k' hk =>
      nopsf_transform hF h1 h2 k' hk
    intro k k' hk'
    rw [hF.convolve _ _ _ _ hp]
    congr 1
    rw [← hnp k' hk']
    cases sheared with
    | true =>
      simp only [if_true] at hsh
      rw [hF.shear _ _ _ _ _ hsh, hF.dilate _ _ _ _ hdil]
      rfl
    | false =>
      simp only [Bool.false_eq_true, if_false] at hsh
      cases hsh
      rw [hF.dilate _ _ _ _ hdil]
      rfl
  | gauss n => exact round (by simp)
  | fitGauss n f => exact round (by simp)
  | analytic p n => exact round (by simp)

theorem drawn_ok {α : Type} {x : Except PyErr α} {a : α} (h : drawn x = .ok a) : x = .ok a := by
  unfold drawn at h
  split at h
  · cases h
  · exact h

theorem fresh_of_request (mc : Mc O X) (h : List McOp) (s : ShapeObj) (b : Bool) (r : (ℕ → ℕ → ℝ) × O)
    (hr : (getTargetPsf mc s b (mcAfter mc h)).2 = .ok r) : freshPsf mc b s.g1 s.g2 = .ok r := by
  obtain ⟨h1, h2⟩ := C57_history mc h s b
  rcases hf : freshPsf mc b s.g1 s.g2 with e | r'
  · rcases h2 e hf with h3 | ⟨h3, -⟩ <;> rw [h3] at hr <;> cases hr
  · rw [h1 r' hf] at hr; exact hr

/-- The profiles are determined by the observation. -/
theorem seen_unique {g : GalSimMake O X} {o : MObs O X} {a b c a' b' c' : O} (h : Seen g o a b c)
    (h' : Seen g o a' b' c') : a = a' ∧ b = b' ∧ c = c' := by
  refine ⟨?_, ?_, ?_⟩
  · have := h.image.symm.trans h'.image; cases this; rfl
  · have := h.psf.symm.trans h'.psf; cases this; rfl
  · have := h.pixel.symm.trans h'.pixel; cases this; rfl

section

variable (g : GalSimMake O X) (F : O → Wave → ℂ) (hF : Transforms g F) (cls : McClass O) (o : MObs O X) (mc : Mc O X)
  (hmc : newMc g cls (some o) = .ok mc) (image psf pixel : O) (hs : Seen g o image psf pixel) (G : Wave → ℂ)
  (hG : ∀ k, F image k = G k * F psf k)

include hF hmc hs hG

/-- What a reconvolved profile shows. -/
theorem shows_of_reconvolved (g1 g2 : ℝ) (sheared : Bool) (gal t : O) (im : ℕ → ℕ → ℝ) (p : PObs O X)
    (hgal : (if sheared then mc.gs.shear mc.imNopsf g1 g2 else .ok mc.imNopsf) = .ok gal)
    (h : reconvolved mc gal t = .ok im) : ShowsGalaxy g F o psf G g1 g2 sheared t (Spec.newObs mc im p) := by
  obtain ⟨image', psf', pixel', psfInv, pixelInv, psfNopix, hs', h1, h2, h3, h4, h5, h6, -⟩ :=
    newMc_parts g cls o mc hmc
  obtain ⟨rfl, rfl, rfl⟩ := seen_unique hs hs'
  unfold reconvolved at h
  obtain ⟨prof, hp, h⟩ := exBind_ok h
  rw [h5] at hp h hgal
  refine ⟨prof, drawn_ok h, fun k => ?_⟩
  intro k' hk'
  have hn : ∀ k, F psf k ≠ 0 → F mc.imNopsf k = G k := by
    intro k hk
    rw [nopsf_transform hF h1 h3 k hk, hG k, mul_div_assoc, div_self hk, mul_one]
  rw [hF.convolve _ _ _ _ hp, ← hn k' hk']
  congr 1
  cases sheared with
  | true =>
    simp only [if_true] at hgal
    exact hF.shear _ _ _ _ _ hgal k
  | false =>
    simp only [Bool.false_eq_true, if_false] at hgal
    cases hgal
    rfl

omit hG in
/-- What the new psf observation shows. -/
theorem shows_psf (g1 g2 : ℝ) (sheared : Bool) (pim im : ℕ → ℕ → ℝ) (t : O) (gal : Option O)
    (h : freshPsf mc sheared g1 g2 = .ok (pim, t)) :
    IsTarget g F o psf pixel cls g1 g2 sheared t ∧ ShowsPsf g o cls t (Spec.newObs mc im (newPsf mc pim gal)) ∧
      (Spec.newObs mc im (newPsf mc pim gal)).psf.galsim = gal := by
  obtain ⟨image', psf', pixel', psfInv, pixelInv, psfNopix, hs', h1, h2, h3, h4, h5, h6, h7, h8, h9⟩ :=
    newMc_parts g cls o mc hmc
  obtain ⟨rfl, rfl, rfl⟩ := seen_unique hs hs'
  obtain ⟨ht, hd⟩ := isTarget_of_fresh hF h2 h4 h5 h8 h9 g1 g2 sheared pim t h
  have hd := drawn_ok hd
  rw [h5] at hd
  refine ⟨ht, ⟨pim, hd, ?_⟩, ?_⟩
  · intro r c
    by_cases hc : cls = .dilate
    · subst hc
      simp [Spec.newObs, newPsf, h8 rfl, psfNoiseOf]
    · have hn := h7 hc r c
      rw [← hn]
      simp only [Spec.newObs, newPsf, h9 hc]
      rcases mc.psfNoise with _ | n <;> simp
  · simp only [Spec.newObs, newPsf]
    split <;> rfl

/-- C102: `get_obs_galshear` in any history.  The image shows the galaxy sheared before it was convolved, through the
reconvolution psf made for the shear, whose image and profile the psf observation holds; the second observation shows the
galaxy as it is through the same psf. -/
theorem C102_galshear (hist : List McOp) (s : ShapeObj) (unsheared : Bool) (ob : MObs O X) (u : Option (MObs O X))
    (hr : (getObsGalshear mc s unsheared (mcAfter mc hist)).2 = .ok (ob, u)) :
    ∃ t, IsTarget g F o psf pixel cls s.g1 s.g2 false t ∧ ShowsPsf g o cls t ob ∧ ob.psf.galsim = some t ∧
      ShowsGalaxy g F o psf G s.g1 s.g2 true t ob ∧ u.isSome = unsheared ∧
      ∀ uo, u = some uo → uo.psf = ob.psf ∧ ShowsGalaxy g F o psf G s.g1 s.g2 false t uo := by
  obtain ⟨-, h1, h2, h3, h4⟩ := galshear_spec mc s unsheared _ (cacheOk_after mc hist)
  rcases hsh : shearedObs mc s.g1 s.g2 with e | ob'
  · obtain ⟨e', he'⟩ := h3 e hsh
    rw [he'] at hr; cases hr
  have hob : ob' = ob := by
    cases unsheared with
    | false => rw [h2 ob' hsh rfl] at hr; cases hr; rfl
    | true =>
      rcases hu : unshearedObs mc s.g1 s.g2 with e | v
      · obtain ⟨e', he'⟩ := h4 e hu rfl
        rw [he'] at hr; cases hr
      · rw [h1 ob' v hsh hu] at hr; cases hr; rfl
  subst hob
  have hsh' := hsh
  unfold shearedObs at hsh
  obtain ⟨⟨pim, t⟩, hf, hsh⟩ := exBind_ok hsh
  obtain ⟨gal, hgal, hsh⟩ := exBind_ok hsh
  obtain ⟨im, him, hsh⟩ := exMap_ok hsh
  obtain ⟨a1, a2, a3⟩ := shows_psf g F hF cls o mc hmc image psf pixel hs s.g1 s.g2 false pim im t (some t) hf
  refine ⟨t, a1, ?_, ?_, ?_, ?_, ?_⟩
  · rw [← hsh]; exact a2
  · rw [← hsh]; exact a3
  · rw [← hsh]
    exact shows_of_reconvolved g F hF cls o mc hmc image psf pixel hs G hG s.g1 s.g2 true gal t im _ hgal him
  · cases unsheared with
    | false => rw [h2 ob' hsh' rfl] at hr; cases hr; rfl
    | true =>
      rcases hu : unshearedObs mc s.g1 s.g2 with e | v
      · obtain ⟨e', he'⟩ := h4 e hu rfl
        rw [he'] at hr; cases hr
      · rw [h1 ob' v hsh' hu] at hr; cases hr; rfl
  · intro uo huo
    subst huo
    cases unsheared with
    | false => rw [h2 ob' hsh' rfl] at hr; cases hr
    | true =>
      rcases hu : unshearedObs mc s.g1 s.g2 with e | v
      · obtain ⟨e', he'⟩ := h4 e hu rfl
        rw [he'] at hr; cases hr
      · rw [h1 ob' v hsh' hu] at hr
        cases hr
        unfold unshearedObs at hu
        rw [hf] at hu
        obtain ⟨im2, him2, hu⟩ := exMap_ok hu
        refine ⟨?_, ?_⟩
        · rw [← hu, ← hsh]; rfl
        · rw [← hu]
          exact shows_of_reconvolved g F hF cls o mc hmc image psf pixel hs G hG s.g1 s.g2 false mc.imNopsf t im2 _ rfl
            him2

/-- C102: `get_obs_psfshear` in any history: the galaxy as it is through the sheared reconvolution psf. -/
theorem C102_psfshear (hist : List McOp) (s : ShapeObj) (ob : MObs O X)
    (hr : (getObsPsfshear mc s (mcAfter mc hist)).2 = .ok ob) :
    cls = .dilate ∧ ∃ t, IsTarget g F o psf pixel cls s.g1 s.g2 true t ∧ ShowsPsf g o cls t ob ∧
      ShowsGalaxy g F o psf G s.g1 s.g2 false t ob := by
  obtain ⟨-, h1, h2⟩ := psfshear_spec mc s _ (cacheOk_after mc hist)
  rcases hsh : psfShearedObs mc s.g1 s.g2 with e | ob'
  · obtain ⟨e', he'⟩ := h2 e hsh
    rw [he'] at hr; cases hr
  rw [h1 ob' hsh] at hr
  cases hr
  unfold psfShearedObs at hsh
  obtain ⟨⟨pim, t⟩, hf, hsh⟩ := exBind_ok hsh
  obtain ⟨im, him, hsh⟩ := exMap_ok hsh
  obtain ⟨a1, a2, -⟩ := shows_psf g F hF cls o mc hmc image psf pixel hs s.g1 s.g2 true pim im t none hf
  refine ⟨?_, t, a1, ?_, ?_⟩
  · cases cls with
    | dilate => rfl
    | _ => exact absurd a1.1 (by simp)
  · rw [← hsh]; exact a2
  · rw [← hsh]
    exact shows_of_reconvolved g F hF cls o mc hmc image psf pixel hs G hG s.g1 s.g2 false mc.imNopsf t im _ rfl him

/-- C102: the dictionary of `get_all`.  The types `1p, 1m, 2p, 2m` show the galaxy sheared by the step along one
component, `noshear` the galaxy as it is through the psf of `1p`, and the psf types the galaxy as it is through the sheared
psf. -/
theorem C102_types (hist : List McOp) (step : ℝ) (l : List String) (d : Dict (MObs O X))
    (hr : (getAll mc step (.list l) (mcAfter mc hist)).2.2 = .ok d) (ty : String) (ob : MObs O X)
    (hob : d.get? ty = some ob) :
    ∃ t, ShowsPsf g o cls t ob ∧
      ((ty = "noshear" ∧ IsTarget g F o psf pixel cls step 0 false t ∧ ShowsGalaxy g F o psf G step 0 false t ob) ∨
      ∃ g1 g2, (((ty = "1p" ∨ ty = "1p_psf") ∧ (g1, g2) = (step, 0)) ∨
          ((ty = "1m" ∨ ty = "1m_psf") ∧ (g1, g2) = (-step, 0)) ∨
          ((ty = "2p" ∨ ty = "2p_psf") ∧ (g1, g2) = (0, step)) ∨
          ((ty = "2m" ∨ ty = "2m_psf") ∧ (g1, g2) = (0, -step))) ∧
        ((ty ∈ ["1p", "1m", "2p", "2m"] ∧ IsTarget g F o psf pixel cls g1 g2 false t ∧
            ShowsGalaxy g F o psf G g1 g2 true t ob) ∨
          (ty ∈ ["1p_psf", "1m_psf", "2p_psf", "2m_psf"] ∧ cls = .dilate ∧ IsTarget g F o psf pixel cls g1 g2 true t ∧
            ShowsGalaxy g F o psf G g1 g2 false t ob))) := by
  have hm : metacalObs mc step ty = .ok ob := by
    obtain ⟨h1, h2⟩ := C53_get_all mc hist step l
    by_cases hv : ∀ t ∈ l, ValidFor mc.kind t
    · obtain ⟨h3, h4⟩ := h2 hv
      by_cases hst : |step| < 1
      · obtain ⟨h5, h6⟩ := h4 hst
        have hall : ∀ k, Wanted l k → ∃ o, metacalObs mc step k = .ok o := by
          intro k hk
          rcases hmk : metacalObs mc step k with e | o
          · obtain ⟨e', he'⟩ := h6 ⟨k, e, hk, hmk⟩
            rw [he'] at hr; cases hr
          · exact ⟨o, rfl⟩
        obtain ⟨d', hd', -, -, hget⟩ := h5 hall
        rw [hd'] at hr
        cases hr
        exact hget ty ob hob
      · rw [h3 (not_lt.mp hst)] at hr; cases hr
    · rw [h1 hv] at hr; cases hr
  have hsheared : ∀ g1 g2, shearedObs mc g1 g2 = .ok ob → ∃ t, ShowsPsf g o cls t ob ∧
      IsTarget g F o psf pixel cls g1 g2 false t ∧ ShowsGalaxy g F o psf G g1 g2 true t ob := by
    intro g1 g2 h
    unfold shearedObs at h
    obtain ⟨⟨pim, t⟩, hf, h⟩ := exBind_ok h
    obtain ⟨gal, hgal, h⟩ := exBind_ok h
    obtain ⟨im, him, h⟩ := exMap_ok h
    obtain ⟨a1, a2, -⟩ := shows_psf g F hF cls o mc hmc image psf pixel hs g1 g2 false pim im t (some t) hf
    refine ⟨t, h ▸ a2, a1, ?_⟩
    rw [← h]
    exact shows_of_reconvolved g F hF cls o mc hmc image psf pixel hs G hG g1 g2 true gal t im _ hgal him
  have hunsh : ∀ g1 g2, unshearedObs mc g1 g2 = .ok ob → ∃ t, ShowsPsf g o cls t ob ∧
      IsTarget g F o psf pixel cls g1 g2 false t ∧ ShowsGalaxy g F o psf G g1 g2 false t ob := by
    intro g1 g2 h
    unfold unshearedObs at h
    obtain ⟨⟨pim, t⟩, hf, h⟩ := exBind_ok h
    obtain ⟨im, him, h⟩ := exMap_ok h
    obtain ⟨a1, a2, -⟩ := shows_psf g F hF cls o mc hmc image psf pixel hs g1 g2 false pim im t (some t) hf
    refine ⟨t, h ▸ a2, a1, ?_⟩
    rw [← h]
    exact shows_of_reconvolved g F hF cls o mc hmc image psf pixel hs G hG g1 g2 false mc.imNopsf t im _ rfl him
  have hpsf : ∀ g1 g2, psfShearedObs mc g1 g2 = .ok ob → ∃ t, ShowsPsf g o cls t ob ∧ cls = .dilate ∧
      IsTarget g F o psf pixel cls g1 g2 true t ∧ ShowsGalaxy g F o psf G g1 g2 false t ob := by
    intro g1 g2 h
    unfold psfShearedObs at h
    obtain ⟨⟨pim, t⟩, hf, h⟩ := exBind_ok h
    obtain ⟨im, him, h⟩ := exMap_ok h
    obtain ⟨a1, a2, -⟩ := shows_psf g F hF cls o mc hmc image psf pixel hs g1 g2 true pim im t none hf
    refine ⟨t, h ▸ a2, ?_, a1, ?_⟩
    · cases cls with
      | dilate => rfl
      | _ => exact absurd a1.1 (by simp)
    rw [← h]
    exact shows_of_reconvolved g F hF cls o mc hmc image psf pixel hs G hG g1 g2 false mc.imNopsf t im _ rfl him
  unfold metacalObs at hm
  split_ifs at hm with h1 h2 h3 h4 h5 h6 h7 h8 h9
  · obtain ⟨t, ht, h⟩ := hunsh _ _ hm
    exact ⟨t, ht, .inl ⟨h1, h⟩⟩
  · obtain ⟨t, ht, h⟩ := hsheared _ _ hm
    exact ⟨t, ht, .inr ⟨step, 0, .inl ⟨.inl h2, rfl⟩, .inl ⟨by simp [h2], h⟩⟩⟩
  · obtain ⟨t, ht, h⟩ := hsheared _ _ hm
    exact ⟨t, ht, .inr ⟨-step, 0, .inr (.inl ⟨.inl h3, rfl⟩), .inl ⟨by simp [h3], h⟩⟩⟩
  · obtain ⟨t, ht, h⟩ := hsheared _ _ hm
    exact ⟨t, ht, .inr ⟨0, step, .inr (.inr (.inl ⟨.inl h4, rfl⟩)), .inl ⟨by simp [h4], h⟩⟩⟩
  · obtain ⟨t, ht, h⟩ := hsheared _ _ hm
    exact ⟨t, ht, .inr ⟨0, -step, .inr (.inr (.inr ⟨.inl h5, rfl⟩)), .inl ⟨by simp [h5], h⟩⟩⟩
  · obtain ⟨t, ht, h⟩ := hpsf _ _ hm
    exact ⟨t, ht, .inr ⟨step, 0, .inl ⟨.inr h6, rfl⟩, .inr ⟨by simp [h6], h⟩⟩⟩
  · obtain ⟨t, ht, h⟩ := hpsf _ _ hm
    exact ⟨t, ht, .inr ⟨-step, 0, .inr (.inl ⟨.inr h7, rfl⟩), .inr ⟨by simp [h7], h⟩⟩⟩
  · obtain ⟨t, ht, h⟩ := hpsf _ _ hm
    exact ⟨t, ht, .inr ⟨0, step, .inr (.inr (.inl ⟨.inr h8, rfl⟩)), .inr ⟨by simp [h8], h⟩⟩⟩
  · obtain ⟨t, ht, h⟩ := hpsf _ _ hm
    exact ⟨t, ht, .inr ⟨0, -step, .inr (.inr (.inr ⟨.inr h9, rfl⟩)), .inr ⟨by simp [h9], h⟩⟩⟩

end

theorem growth_zero : growth 0 0 = 1 := by simp [growth, shearSize]

theorem longer_one (k : Wave) : longer 1 k = k := by simp [longer]

theorem shearWave_zero (k : Wave) : shearWave 0 0 k = k := by simp [shearWave]

/-- C102: without a shear MetacalDilatePSF gives back what was observed: where neither the psf nor the pixel vanish the new
psf has the transform of the old one, and the new image that of the old one. -/
theorem C102_no_shear (g : GalSimMake O X) (F : O → Wave → ℂ) (hF : Transforms g F) (o : MObs O X) (mc : Mc O X)
    (hmc : newMc g .dilate (some o) = .ok mc) (image psf pixel : O) (hs : Seen g o image psf pixel)
    (hpsf : ∀ k, F psf k ≠ 0) (hpix : ∀ k, F pixel k ≠ 0) (hist : List McOp) (s : ShapeObj) (h0 : s.g1 = 0 ∧ s.g2 = 0)
    (unsheared : Bool) (ob : MObs O X) (u : Option (MObs O X))
    (hr : (getObsGalshear mc s unsheared (mcAfter mc hist)).2 = .ok (ob, u)) :
    ∃ profile t, (g.ops o).drawIm profile = .ok ob.image.get ∧ (g.ops o).drawPsf t = .ok ob.psf.image.get ∧
      ∀ k, F t k = F psf k ∧ F profile k = F image k := by
  obtain ⟨t, h1, ⟨im, h2, h3⟩, -, ⟨profile, h4, h5⟩, -⟩ := C102_galshear g F hF .dilate o mc hmc image psf pixel hs
    (fun k => F image k / F psf k) (fun k => (div_mul_cancel₀ _ (hpsf k)).symm) hist s unsheared ob u hr
  have him : im = ob.psf.image.get := by
    funext r c
    rw [h3 r c]
    simp [psfNoiseOf]
  refine ⟨profile, t, h4, him ▸ h2, fun k => ?_⟩
  have ht : F t k = F psf k := by
    have := h1 k
    simp only [h0.1, h0.2, growth_zero, longer_one, Bool.false_eq_true, if_false] at this
    rw [this (hpix k), div_mul_cancel₀ _ (hpix k)]
  refine ⟨ht, ?_⟩
  have := h5 k
  simp only [h0.1, h0.2, shearWave_zero, if_true] at this
  rw [this (hpsf k), ht, div_mul_cancel₀ _ (hpsf k)]

/-- C102: the old psf is gone.  Two observations on the same grid that show the same galaxy through different psfs give the
same images with a reconvolution psf sent by the caller, if the psfs have power at all modes and drawing looks at nothing
but the profile. -/
theorem C102_psf_gone (g : GalSimMake O X) (F : O → Wave → ℂ) (hF : Transforms g F) (t0 : O)
    (n n' : Option (ℕ → ℕ → ℝ)) (o o' : MObs O X) (hgrid : g.ops o' = g.ops o) (mc mc' : Mc O X)
    (hmc : newMc g (.analytic (some t0) n) (some o) = .ok mc)
    (hmc' : newMc g (.analytic (some t0) n') (some o') = .ok mc')
    (hdraw : ∀ a b, (∀ k, F a k = F b k) → (g.ops o).drawIm a = (g.ops o).drawIm b)
    (image psf pixel image' psf' pixel' : O) (hs : Seen g o image psf pixel) (hs' : Seen g o' image' psf' pixel')
    (hp : ∀ k, F psf k ≠ 0) (hp' : ∀ k, F psf' k ≠ 0) (G : Wave → ℂ) (hG : ∀ k, F image k = G k * F psf k)
    (hG' : ∀ k, F image' k = G k * F psf' k) (hist hist' : List McOp) (s : ShapeObj) (b : Bool)
    (ob ob' : MObs O X) (u u' : Option (MObs O X))
    (hr : (getObsGalshear mc s b (mcAfter mc hist)).2 = .ok (ob, u))
    (hr' : (getObsGalshear mc' s b (mcAfter mc' hist')).2 = .ok (ob', u')) :
    ob'.image.get = ob.image.get ∧ u'.map (·.image.get) = u.map (·.image.get) := by
  obtain ⟨t, ⟨-, t1, e1, h1⟩, -, -, ⟨profile, h4, h5⟩, h6, h7⟩ := C102_galshear g F hF _ o mc hmc image psf pixel hs G hG
    hist s b ob u hr
  obtain ⟨t', ⟨-, t1', e1', h1'⟩, -, -, ⟨profile', h4', h5'⟩, h6', h7'⟩ := C102_galshear g F hF _ o' mc' hmc' image' psf'
    pixel' hs' G hG' hist' s b ob' u' hr'
  cases e1
  cases e1'
  have ht : ∀ k, F t' k = F t k := fun k => by rw [h1, h1']
  have same : ∀ (x x' : ℕ → ℕ → ℝ) (a a' : O), (g.ops o).drawIm a = .ok x → (g.ops o').drawIm a' = .ok x' →
      (∀ k, F a' k = F a k) → x' = x := by
    intro x x' a a' h h' haa
    rw [hgrid, hdraw a' a haa, h] at h'
    cases h'
    rfl
  refine ⟨same _ _ _ _ h4 h4' fun k => ?_, ?_⟩
  · have e := h5 k
    have e' := h5' k
    simp only [if_true] at e e'
    rw [e (hp _), e' (hp' _), ht]
  · rcases u with _ | uo <;> rcases u' with _ | uo'
    · rfl
    · rw [← h6] at h6'; simp at h6'
    · rw [← h6] at h6'; simp at h6'
    · obtain ⟨-, q, q1, q2⟩ := h7 uo rfl
      obtain ⟨-, q', q1', q2'⟩ := h7' uo' rfl
      simp only [Option.map_some, Option.some.injEq]
      refine same _ _ _ _ q1 q1' fun k => ?_
      have e := q2 k
      have e' := q2' k
      simp only [Bool.false_eq_true, if_false] at e e'
      rw [e (hp _), e' (hp' _), ht]

theorem phase_ne_zero (d : ℝ × ℝ) (k : Wave) : phase d k ≠ 0 := Complex.exp_ne_zero _

theorem phase_mul (d e : ℝ × ℝ) (k : Wave) : phase d k * phase e k = phase (d.1 + e.1, d.2 + e.2) k := by
  unfold phase
  rw [← Complex.exp_add]
  congr 1
  push_cast
  ring

theorem phase_longer (d : ℝ × ℝ) (c : ℝ) (k : Wave) : phase d (longer c k) = phase (c * d.1, c * d.2) k := by
  unfold phase longer
  congr 3
  ring

theorem phase_zero (k : Wave) : phase (0, 0) k = 1 := by simp [phase]

/-- C102 (violation): a psf that is not at the centre of its image.  Let the observed galaxy be `G` through a psf `P`
centred at zero, and let the psf image show `P` at `d` from its centre, as its Jacobian says.  With a round
reconvolution psf (which is centred) the unsheared galaxy appears moved by `-d`, and with MetacalDilatePSF by `2|g| d`;
the psf of MetacalDilatePSF is at `(1 + 2|g|) d`, while its Jacobian still says `d` (C53). -/
theorem C102_off_centre (g : GalSimMake O X) (F : O → Wave → ℂ) (hF : Transforms g F) (cls : McClass O) (o : MObs O X)
    (mc : Mc O X) (hmc : newMc g cls (some o) = .ok mc) (image psf pixel : O) (hs : Seen g o image psf pixel)
    (G P : Wave → ℂ) (d : ℝ × ℝ) (hpsf : ∀ k, F psf k = phase d k * P k) (hG : ∀ k, F image k = G k * P k)
    (hP : ∀ k, P k ≠ 0) (hpix : ∀ k, F pixel k ≠ 0) (hist : List McOp) (s : ShapeObj) (ob uo : MObs O X)
    (hr : (getObsGalshear mc s true (mcAfter mc hist)).2 = .ok (ob, some uo)) :
    ∃ profile t, (g.ops o).drawIm profile = .ok uo.image.get ∧ ShowsPsf g o cls t uo ∧
      (cls ≠ .dilate → ∀ k, F profile k = phase (-d.1, -d.2) k * G k * F t k) ∧
      (cls = .dilate → ∀ k,
        let k' := longer (growth s.g1 s.g2) k
        let T := P k' / F pixel k' * F pixel k
        F t k = phase (growth s.g1 s.g2 * d.1, growth s.g1 s.g2 * d.2) k * T ∧
        F profile k = phase (2 * shearSize s.g1 s.g2 * d.1, 2 * shearSize s.g1 s.g2 * d.2) k * G k * T) := by
  have hp0 : ∀ k, F psf k ≠ 0 := fun k => by rw [hpsf]; exact mul_ne_zero (phase_ne_zero d k) (hP k)
  have hinv : ∀ k, phase (-d.1, -d.2) k * phase d k = 1 := fun k => by rw [phase_mul]; simp [phase_zero]
  have hG' : ∀ k, F image k = phase (-d.1, -d.2) k * G k * F psf k := by
    intro k
    rw [hG, hpsf]
    linear_combination (-(G k * P k)) * hinv k
  obtain ⟨t, h1, ⟨im, h2, h3⟩, -, -, -, h7⟩ := C102_galshear g F hF cls o mc hmc image psf pixel hs
    (fun k => phase (-d.1, -d.2) k * G k) hG' hist s true ob (some uo) hr
  obtain ⟨h8, profile, h9, h10⟩ := h7 uo rfl
  have hprof : ∀ k, F profile k = phase (-d.1, -d.2) k * G k * F t k := fun k => h10 k (hp0 k)
  refine ⟨profile, t, h9, ⟨im, h2, by rw [h8]; exact h3⟩, fun _ => hprof, fun hc k => ?_⟩
  subst hc
  intro k' T
  have ht : F t k = phase (growth s.g1 s.g2 * d.1, growth s.g1 s.g2 * d.2) k * T := by
    have := h1 k
    simp only [Bool.false_eq_true, if_false] at this
    rw [this (hpix _), hpsf, phase_longer]
    simp only [T, k']
    ring
  refine ⟨ht, ?_⟩
  rw [hprof, ht]
  have : phase (2 * shearSize s.g1 s.g2 * d.1, 2 * shearSize s.g1 s.g2 * d.2) k =
      phase (-d.1, -d.2) k * phase (growth s.g1 s.g2 * d.1, growth s.g1 s.g2 * d.2) k := by
    rw [phase_mul]
    unfold growth
    congr 2 <;> ring
  rw [this]
  ring

/-- C102: what is refused.  An observation without psf, whatever the class; otherwise, if GalSim can make the profiles, a
reconvolution psf that is not a GalSim object, and a fitted psf without a generator (before anything is fitted). -/
theorem C102_refused (g : GalSimMake O X) :
    (∀ cls, newMc g cls none = .error .value) ∧
    (∀ o b, newBase g (some o) = .ok b → (∃ m, imMax b.obs.psf.image = .ok m) →
      (∀ n, newMc g (.analytic none n) (some o) = .error .assertion) ∧
      (∀ fit, newMc g (.fitGauss none fit) (some o) = .error .value) ∧
      (∀ n e, newMc g (.fitGauss (some n) (.error e)) (some o) = .error e) ∧
      (∃ mc, newMc g .dilate (some o) = .ok mc) ∧ (∀ n, ∃ mc, newMc g (.gauss n) (some o) = .ok mc) ∧
      (∀ p n, ∃ mc, newMc g (.analytic (some p) n) (some o) = .ok mc)) := by
  refine ⟨fun cls => rfl, ?_⟩
  rintro o b hb ⟨m, hm⟩
  have key : ∀ cls, newMc g cls (some o) = (newBase g (some o)).bind _ := fun _ => rfl
  refine ⟨fun n => ?_, fun fit => ?_, fun n e => ?_, ?_, fun n => ?_, fun p n => ?_⟩
  all_goals
    rw [key, hb]
    simp only [Except.bind, hm, Except.map]
  all_goals exact ⟨_, rfl⟩

/-- C102: the shear is the one of the models.  A round gaussian galaxy of size `T` (`x` are columns and `y` rows) sheared
by `(g1, g2)` has the transform of the gaussian model at zero with that shape and the size `T (1 + g²) / (1 - g²)`. -/
theorem C102_same_shear (T g1 g2 : ℝ) (hg : g1 ^ 2 + g2 ^ 2 < 1) :
    ∃ gm q, makeGmixModel [0, 0, g1, g2, T * (1 + (g1 ^ 2 + g2 ^ 2)) / (1 - (g1 ^ 2 + g2 ^ 2)), 1] (.str "gauss") =
        .ok gm ∧ gm.data = [q] ∧
      ∀ k : Wave, Real.exp (-(T / 4) * ((shearWave g1 g2 k).1 ^ 2 + (shearWave g1 g2 k).2 ^ 2)) =
        Real.exp (-(1 / 2) * (q.icc * k.1 ^ 2 + 2 * q.irc * (k.1 * k.2) + q.irr * k.2 ^ 2)) := by
  set T' := T * (1 + (g1 ^ 2 + g2 ^ 2)) / (1 - (g1 ^ 2 + g2 ^ 2)) with hT'
  have := (fresh_std "gauss" 1 6 1 rfl rfl rfl rfl rfl (by simp [fillNames]) (by simp) (by simp)).1
    [0, 0, g1, g2, T', 1] rfl
  change makeGmixModel [0, 0, g1, g2, T', 1] (.str "gauss") = _ at this
  have he := g1g2ToE1E2nb_closed (g1 := g1) (g2 := g2) hg
  rw [this]
  simp only [fillFunc, fillSimple, he, Except.map, fvalsGauss, pvalsGauss, coGauss]
  refine ⟨_, _, rfl, rfl, fun k => ?_⟩
  congr 1
  have h1 : 0 < 1 - (g1 ^ 2 + g2 ^ 2) := by linarith
  have h2 : 0 < 1 + (g1 ^ 2 + g2 ^ 2) := by positivity
  have hsq : Real.sqrt (1 - g1 ^ 2 - g2 ^ 2) ^ 2 = 1 - (g1 ^ 2 + g2 ^ 2) := by
    rw [Real.sq_sqrt (by linarith)]; ring
  simp only [shearWave, div_pow, hsq, gauss2dSet, hT']
  field_simp
  ring

/-! ## A concrete case

Profiles are their transforms; the attribute of an observation that stands for its wcs holds the transform its image
shows. -/

/-- GalSim as it should be. -/
def waveSim : GalSim (Wave → ℂ) where
  shear a g1 g2 := .ok fun k => a (shearWave g1 g2 k)
  dilate a d := .ok fun k => a (longer d k)
  convolve a b := .ok fun k => a k * b k
  drawPsf a := .ok fun r c => (a (r, c)).re
  drawIm a := .ok fun r c => (a (r, c)).re

def waveMake : GalSimMake (Wave → ℂ) (Wave → ℂ) where
  ops _ := waveSim
  interp _ x := .ok x
  pixel _ := .ok fun _ => 1
  deconvolve a := .ok fun k => (a k)⁻¹
  gaussian _ flux := .ok fun _ => flux
  kImage _ := .ok (1, [])

/-- A round gaussian of size `T`. -/
def roundWave (T : ℝ) (k : Wave) : ℂ := (Real.exp (-(T / 4) * (k.1 ^ 2 + k.2 ^ 2)) : ℝ)

/-- A galaxy of size 4 seen through a psf of size `T`, both at `d` from the centre. -/
def waveObs (T : ℝ) (d : ℝ × ℝ) : MObs (Wave → ℂ) (Wave → ℂ) :=
  ⟨⟨3, 3, fun _ _ => 1⟩, ⟨3, 3, fun _ _ => 1⟩, none,
    ⟨⟨3, 3, fun _ _ => 1⟩, ⟨3, 3, fun _ _ => 1⟩, (1, 1), none, fun k => phase d k * roundWave T k⟩, none,
    fun k => roundWave 4 k * roundWave T k⟩

theorem roundWave_ne_zero (T : ℝ) (k : Wave) : roundWave T k ≠ 0 :=
  Complex.ofReal_ne_zero.mpr (Real.exp_ne_zero _)

/-- The operations mean what they should. -/
theorem waveMake_transforms : Transforms waveMake fun a => a where
  convolve := by intro o a b c h k; cases h; rfl
  deconvolve := by intro a c h k _; cases h; rfl
  dilate := by intro o a d c h k; cases h; rfl
  shear := by intro o a g1 g2 c h k; cases h; rfl

/-- The hypotheses of the theorems above hold: objects of two classes are made from psfs of any size and place, every
request gives observations, the psfs and the pixel have power at all modes, and the image is that of a galaxy seen through
the psf. -/
example (T : ℝ) (d : ℝ × ℝ) (s : ShapeObj) :
    Seen waveMake (waveObs T d) (fun k => roundWave 4 k * roundWave T k) (fun k => phase d k * roundWave T k)
      (fun _ => 1) ∧
    (∀ k, phase d k * roundWave T k ≠ 0) ∧ (∀ k, roundWave T k ≠ 0) ∧
    ∀ cls ∈ [McClass.dilate, .analytic (some (roundWave 2)) none],
      ∃ mc, newMc waveMake cls (some (waveObs T d)) = .ok mc ∧
        ∃ ob uo, (getObsGalshear mc s true (mcAfter mc [])).2 = .ok (ob, some uo) := by
  refine ⟨⟨rfl, rfl, rfl⟩, fun k => mul_ne_zero (phase_ne_zero d k) (roundWave_ne_zero T k), roundWave_ne_zero T, ?_⟩
  intro cls hc
  simp only [List.mem_cons, List.not_mem_nil, or_false] at hc
  rcases hc with rfl | rfl
  · refine ⟨_, rfl, ?_⟩
    obtain ⟨-, h1, -⟩ := galshear_spec _ s true _ (cacheOk_after _ [])
    exact ⟨_, _, h1 _ _ rfl rfl⟩
  · refine ⟨_, rfl, ?_⟩
    obtain ⟨-, h1, -⟩ := galshear_spec _ s true _ (cacheOk_after _ [])
    exact ⟨_, _, h1 _ _ rfl rfl⟩

/-- The violation is there: seen through a psf at `(1, 0)` from the centre of its image, with a shear of 0.1, the galaxy
of `C102_off_centre` appears moved by `-1` with a round psf and by `0.2` with MetacalDilatePSF. -/
example : 2 * shearSize 0.1 0 * 1 = 0.2 := by
  unfold shearSize
  rw [show (0.1 : ℝ) ^ 2 + 0 ^ 2 = 0.1 ^ 2 by ring, Real.sqrt_sq (by norm_num)]
  norm_num

end

end Ngmix.Props
