import Verif.Spec.Superpose
import Verif.Props.PSFFlux
import Verif.Props.GalsimFlux
import Verif.Props.GaussTurn

/-!
# Fluxes and moment sums of added images (C122)
-/

namespace Ngmix.Props

open Ngmix Ngmix.Spec

noncomputable section

theorem zip_same (m w : List ℝ) : ∀ x y : List ℝ, y.length = x.length →
    tPower (m.zip (y.zip w)) = tPower (m.zip (x.zip w)) ∧ nPositive (m.zip (y.zip w)) = nPositive (m.zip (x.zip w)) := by
  induction m generalizing w with
  | nil => intro x y _; simp
  | cons a m ih =>
    intro x y h
    match x, y, w with
    | [], [], _ => simp
    | _ :: _, [], _ => cases h
    | [], _ :: _, _ => cases h
    | _ :: _, _ :: _, [] => simp
    | s :: x, t :: y, v :: w =>
      obtain ⟨h1, h2⟩ := ih w x y (by simpa using h)
      constructor
      · simp only [List.zip_cons_cons, tPower, List.map_cons, List.sum_cons] at h1 ⊢
        rw [h1]
      · unfold nPositive at h2 ⊢
        simp only [List.zip_cons_cons, List.filter_cons]
        split_ifs <;> simp [h2]

theorem zip_corr (a b : ℝ) (m w : List ℝ) : ∀ x y : List ℝ, y.length = x.length →
    tCorr (m.zip ((addImages a b x y).zip w)) = a * tCorr (m.zip (x.zip w)) + b * tCorr (m.zip (y.zip w)) := by
  induction m generalizing w with
  | nil => intro x y _; simp [tCorr]
  | cons c m ih =>
    intro x y h
    match x, y, w with
    | [], [], _ => simp [addImages, tCorr]
    | _ :: _, [], _ => cases h
    | [], _ :: _, _ => cases h
    | _ :: _, _ :: _, [] => simp [tCorr]
    | s :: x, t :: y, v :: w =>
      have h1 := ih w x y (by simpa using h)
      simp only [addImages, List.zipWith_cons_cons, List.zip_cons_cons, tCorr, List.map_cons, List.sum_cons] at h1 ⊢
      rw [h1]
      ring

theorem sums_append (l l' : List (ℝ × ℝ × ℝ)) : tPower (l ++ l') = tPower l + tPower l' ∧ tCorr (l ++ l') = tCorr l + tCorr l' ∧
    nPositive (l ++ l') = nPositive l + nPositive l' := by
  simp [tPower, tCorr, nPositive]

theorem add_length {a b : ℝ} {x y : List ℝ} (h : y.length = x.length) : (addImages a b x y).length = x.length := by
  simp [addImages, h]

/-- The sums over the pixels of three lists of observations. -/
theorem pixels_add {α : Type} (im wt : α → List ℝ) (a b : ℝ) {R : α → α → α → Prop}
    (hR : ∀ o1 o2 o3, R o1 o2 o3 → (im o2).length = (im o1).length ∧ im o3 = addImages a b (im o1) (im o2) ∧ wt o2 = wt o1 ∧ wt o3 = wt o1) :
    ∀ (l1 l2 l3 : List α) (ms : List (List ℝ)), All3 R l1 l2 l3 →
    let px := fun l : List α => (l.zip ms).flatMap fun om => om.2.zip ((im om.1).zip (wt om.1))
    tPower (px l2) = tPower (px l1) ∧ tPower (px l3) = tPower (px l1) ∧ nPositive (px l2) = nPositive (px l1) ∧
      nPositive (px l3) = nPositive (px l1) ∧ tCorr (px l3) = a * tCorr (px l1) + b * tCorr (px l2)
  | [], l2, l3, ms, h => by
    obtain ⟨-, h2, h3⟩ := h
    rw [List.length_nil, List.length_eq_zero_iff] at h2 h3
    subst h2 h3
    simp [tCorr]
  | o1 :: l1, [], _, ms, h => by cases h.2.1
  | o1 :: l1, _ :: _, [], ms, h => by cases h.2.2
  | o1 :: l1, o2 :: l2, o3 :: l3, [], h => by simp [tCorr]
  | o1 :: l1, o2 :: l2, o3 :: l3, m :: ms, h => by
    intro px
    obtain ⟨h1, h2, h3⟩ := h
    rw [List.zip_cons_cons, List.forall₂_cons] at h1
    obtain ⟨i1, i2, i3, i4, i5⟩ := pixels_add im wt a b hR l1 l2 l3 ms ⟨h1.2, by simpa using h2, by simpa using h3⟩
    obtain ⟨r1, r2, r3, r4⟩ := hR _ _ _ h1.1
    have e : ∀ (o : α) (l : List α), px (o :: l) = m.zip ((im o).zip (wt o)) ++
        (l.zip ms).flatMap (fun om => om.2.zip ((im om.1).zip (wt om.1))) := fun o l => rfl
    obtain ⟨z1, z2⟩ := zip_same m (wt o1) _ _ r1
    obtain ⟨z3, z4⟩ := zip_same m (wt o1) (im o1) (addImages a b (im o1) (im o2)) (add_length r1)
    have z5 := zip_corr a b m (wt o1) _ _ r1
    simp only at r2 r3 r4
    rw [e, e, e, r2, r3, r4]
    simp only [sums_append]
    refine ⟨by rw [z1, i1], by rw [z3, i2], by rw [z2, i3], by rw [z4, i4], ?_⟩
    rw [z5, i5]
    ring

theorem fluxes_add {a b : ℝ} {p1 p2 p3 q1 q2 q3 : List (ℝ × ℝ × ℝ)} {n1 n2 n3 : ℕ} {r1 r2 r3 : PFResult}
    (h : tPower p2 = tPower p1 ∧ tPower p3 = tPower p1 ∧ nPositive p2 = nPositive p1 ∧ nPositive p3 = nPositive p1 ∧
      tCorr p3 = a * tCorr p1 + b * tCorr p2)
    (h1 : MixedOutcome p1 q1 n1 r1) (h2 : MixedOutcome p2 q2 n2 r2) (h3 : MixedOutcome p3 q3 n3 r3) : FluxesAdd a b r1 r2 r3 := by
  obtain ⟨e1, e2, e3, e4, e5⟩ := h
  refine ⟨by rw [h2.dof, h1.dof, tDof, tDof, e3], by rw [h3.dof, h1.dof, tDof, tDof, e4], ?_⟩
  by_cases h0 : tPower p1 = 0
  · right
    obtain ⟨a1, a2, a3, -⟩ := h1.noPower h0
    obtain ⟨b1, b2, b3, -⟩ := h2.noPower (e1.trans h0)
    obtain ⟨c1, c2, c3, -⟩ := h3.noPower (e2.trans h0)
    simp only [List.mem_cons, List.not_mem_nil, or_false, forall_eq_or_imp, forall_eq]
    exact ⟨⟨a1, a2, a3⟩, ⟨b1, b2, b3⟩, ⟨c1, c2, c3⟩⟩
  · left
    obtain ⟨f1, a1, a2, -⟩ := h1.fit h0
    obtain ⟨f2, b1, b2, -⟩ := h2.fit (by rw [e1]; exact h0)
    obtain ⟨f3, c1, c2, -⟩ := h3.fit (by rw [e2]; exact h0)
    refine ⟨f1, f2, a1, b1, ?_⟩
    rw [c1]
    congr 1
    rw [e1] at b2
    rw [e2, e5, ← a2, ← b2] at c2
    exact mul_right_cancel₀ h0 (by rw [c2]; ring)

theorem outcome_mixed {px : List (ℝ × ℝ × ℝ)} {n : ℕ} {r : PFResult} (h : Outcome px n r) : MixedOutcome px px n r :=
  ⟨h.dof, h.noPower, h.fit⟩

theorem added_parts (a b : ℝ) (o1 o2 o3 : PFObs) (h : AddedObs a b o1 o2 o3) : o2.image.length = o1.image.length ∧
    o3.image = addImages a b o1.image o2.image ∧ o2.weight = o1.weight ∧ o3.weight = o1.weight := by
  obtain ⟨h2, h3, h4⟩ := h
  refine ⟨h4, by rw [h3], by rw [h2], by rw [h3]⟩

theorem all3_map {α β : Type} {R : α → α → α → Prop} {l1 l2 l3 : List α} (h : All3 R l1 l2 l3) {S : α → β → Prop} {ts : List β}
    (hS : List.Forall₂ S l1 ts) (h2 : ∀ o1 o2 o3 t, R o1 o2 o3 → S o1 t → S o2 t ∧ S o3 t) : List.Forall₂ S l2 ts ∧ List.Forall₂ S l3 ts := by
  induction hS generalizing l2 l3 with
  | nil =>
    obtain ⟨-, e2, e3⟩ := h
    rw [List.length_nil, List.length_eq_zero_iff] at e2 e3
    subst e2 e3
    exact ⟨.nil, .nil⟩
  | @cons o1 t l1 ts hs _ ih =>
    obtain ⟨h1, e2, e3⟩ := h
    match l2, l3 with
    | [], _ => cases e2
    | _ :: _, [] => cases e3
    | o2 :: l2, o3 :: l3 =>
      rw [List.zip_cons_cons, List.forall₂_cons] at h1
      obtain ⟨k1, k2⟩ := h2 _ _ _ _ h1.1 hs
      obtain ⟨i1, i2⟩ := ih ⟨h1.2, by simpa using e2, by simpa using e3⟩
      exact ⟨.cons k1 i1, .cons k2 i2⟩

theorem all3_ne {α : Type} {R : α → α → α → Prop} {l1 l2 l3 : List α} (h : All3 R l1 l2 l3) (hne : l1 ≠ []) : l2 ≠ [] ∧ l3 ≠ [] := by
  obtain ⟨-, e2, e3⟩ := h
  have := List.length_pos_iff.2 hne
  exact ⟨List.length_pos_iff.1 (by omega), List.length_pos_iff.1 (by omega)⟩

theorem source_added (a b : ℝ) (o1 o2 o3 : PFObs) (h : AddedObs a b o1 o2 o3) (doPsf : Bool) :
    pfSource doPsf o2 = pfSource doPsf o1 ∧ pfSource doPsf o3 = pfSource doPsf o1 := by
  obtain ⟨h2, h3, -⟩ := h
  constructor
  · rw [h2]; rfl
  · rw [h3]; rfl

theorem all3_head {R : PFObs → PFObs → PFObs → Prop} {l1 l2 l3 : List PFObs} (h : All3 R l1 l2 l3) (P : PFObs → Prop)
    (hP : ∀ o1 o2 o3, R o1 o2 o3 → P o1 → P o2 ∧ P o3) (h0 : ∀ o ∈ l1.head?, P o) : (∀ o ∈ l2.head?, P o) ∧ ∀ o ∈ l3.head?, P o := by
  obtain ⟨h1, e2, e3⟩ := h
  match l1, l2, l3 with
  | [], [], [] => simp
  | _ :: _, [], _ => cases e2
  | _ :: _, _ :: _, [] => cases e3
  | [], _ :: _, _ => cases e2
  | [], [], _ :: _ => cases e3
  | o1 :: l1, o2 :: l2, o3 :: l3 =>
    rw [List.zip_cons_cons, List.forall₂_cons] at h1
    simp only [List.head?_cons, Option.mem_def, Option.some.injEq, forall_eq'] at h0 ⊢
    exact hP _ _ _ h1.1 h0

/-- C122.  Fluxes of psf fits with template images. -/
theorem C122_templates (a b : ℝ) (obs1 obs2 obs3 : List PFObs) (ts : List (List ℝ)) (doPsf nz : Bool) (hne : obs1 ≠ [])
    (hfirst : ∀ o ∈ obs1.head?, ∀ s, pfSource doPsf o = .ok s → s.gmix = none)
    (h : List.Forall₂ (fun o (t : List ℝ) => (∃ s, pfSource doPsf o = .ok s ∧ s.template = some t) ∧ t.sum ≠ 0 ∧
      t.length = o.image.length ∧ o.weight.length = o.image.length) obs1 ts) (hadd : All3 (AddedObs a b) obs1 obs2 obs3) :
    ∃ r1 r2 r3, psfFlux obs1 doPsf nz = .ok r1 ∧ psfFlux obs2 doPsf nz = .ok r2 ∧ psfFlux obs3 doPsf nz = .ok r3 ∧ FluxesAdd a b r1 r2 r3 := by
  obtain ⟨n2, n3⟩ := all3_ne hadd hne
  obtain ⟨f2, f3⟩ := all3_head hadd (fun o => ∀ s, pfSource doPsf o = .ok s → s.gmix = none) (fun o1 o2 o3 ho hp => by
    obtain ⟨s2, s3⟩ := source_added a b o1 o2 o3 ho doPsf
    rw [s2, s3]
    exact ⟨hp, hp⟩) hfirst
  obtain ⟨g2, g3⟩ := all3_map hadd h (fun o1 o2 o3 t ho hp => by
    obtain ⟨s2, s3⟩ := source_added a b o1 o2 o3 ho doPsf
    obtain ⟨p1, p2, p3, p4⟩ := added_parts a b o1 o2 o3 ho
    rw [s2, s3, p1, p2, p3, p4, add_length p1]
    exact ⟨hp, hp⟩)
  obtain ⟨r1, a1, a2⟩ := C46_templates obs1 ts doPsf nz hne hfirst h
  obtain ⟨r2, b1, b2⟩ := C46_templates obs2 ts doPsf nz n2 f2 g2
  obtain ⟨r3, c1, c2⟩ := C46_templates obs3 ts doPsf nz n3 f3 g3
  exact ⟨r1, r2, r3, a1, b1, c1, fluxes_add (pixels_add PFObs.image PFObs.weight a b (added_parts a b) obs1 obs2 obs3 _ hadd)
    (outcome_mixed a2) (outcome_mixed b2) (outcome_mixed c2)⟩

/-- C122.  Fluxes of psf fits with mixtures. -/
theorem C122_mixtures (a b : ℝ) (obs1 obs2 obs3 : List PFObs) (gs : List GMixObj) (doPsf nz : Bool) (hne : obs1 ≠ [])
    (h : List.Forall₂ (fun o g => (∃ s, pfSource doPsf o = .ok s ∧ s.gmix = some g) ∧ Renderable g ∧
      o.coords.length = o.image.length ∧ o.weight.length = o.image.length) obs1 gs) (hadd : All3 (AddedObs a b) obs1 obs2 obs3) :
    ∃ r1 r2 r3, psfFlux obs1 doPsf nz = .ok r1 ∧ psfFlux obs2 doPsf nz = .ok r2 ∧ psfFlux obs3 doPsf nz = .ok r3 ∧ FluxesAdd a b r1 r2 r3 := by
  obtain ⟨n2, n3⟩ := all3_ne hadd hne
  have hco : ∀ o1 o2 o3, AddedObs a b o1 o2 o3 → o2.coords = o1.coords ∧ o3.coords = o1.coords := by
    rintro o1 o2 o3 ⟨h2, h3, -⟩
    exact ⟨by rw [h2], by rw [h3]⟩
  obtain ⟨g2, g3⟩ := all3_map hadd h (fun o1 o2 o3 t ho hp => by
    obtain ⟨s2, s3⟩ := source_added a b o1 o2 o3 ho doPsf
    obtain ⟨p1, p2, p3, p4⟩ := added_parts a b o1 o2 o3 ho
    obtain ⟨c2, c3⟩ := hco o1 o2 o3 ho
    rw [s2, s3, c2, c3, p1, p2, p3, p4, add_length p1]
    exact ⟨hp, hp⟩)
  obtain ⟨r1, a1, a2⟩ := C46_mixtures obs1 gs doPsf nz hne h
  obtain ⟨r2, b1, b2⟩ := C46_mixtures obs2 gs doPsf nz n2 g2
  obtain ⟨r3, c1, c2⟩ := C46_mixtures obs3 gs doPsf nz n3 g3
  have hm : ∀ (F : GMixObj → List Coord → List ℝ), (obs2.zip gs).map (fun og => F og.2 og.1.coords) = (obs1.zip gs).map (fun og => F og.2 og.1.coords) ∧
      (obs3.zip gs).map (fun og => F og.2 og.1.coords) = (obs1.zip gs).map (fun og => F og.2 og.1.coords) := by
    intro F
    clear hne h n2 n3 g2 g3 a1 a2 b1 b2 c1 c2
    induction obs1 generalizing obs2 obs3 gs with
    | nil =>
      obtain ⟨-, e2, e3⟩ := hadd
      rw [List.length_nil, List.length_eq_zero_iff] at e2 e3
      subst e2 e3
      exact ⟨rfl, rfl⟩
    | cons o1 l1 ih =>
      obtain ⟨h1, e2, e3⟩ := hadd
      match obs2, obs3, gs with
      | [], _, _ => cases e2
      | _ :: _, [], _ => cases e3
      | _ :: _, _ :: _, [] => simp
      | o2 :: l2, o3 :: l3, g :: gs =>
        rw [List.zip_cons_cons, List.forall₂_cons] at h1
        obtain ⟨i1, i2⟩ := ih l2 l3 gs ⟨h1.2, by simpa using e2, by simpa using e3⟩
        obtain ⟨k1, k2⟩ := hco _ _ _ h1.1
        simp only at k1 k2
        simp only [List.zip_cons_cons, List.map_cons, i1, i2, k1, k2, and_self]
  obtain ⟨m2, m3⟩ := hm (unitImage doPsf nz)
  rw [m2] at b2
  rw [m3] at c2
  exact ⟨r1, r2, r3, a1, b1, c1, fluxes_add (pixels_add PFObs.image PFObs.weight a b (added_parts a b) obs1 obs2 obs3 _ hadd)
    (outcome_mixed a2) (outcome_mixed b2) (outcome_mixed c2)⟩

/-- C122.  Template fluxes with galsim. -/
theorem C122_galsim {L : GPLib} {model : Option L.Obj} (a b : ℝ) (obs1 obs2 obs3 : List GPObs) (ts : List (List ℝ))
    (hmodel : ∀ m, model = some m → ∃ m1, L.unitFlux m = .ok m1)
    (h : List.Forall₂ (fun o t => GPTemplate L model o t ∧ t.sum ≠ 0 ∧ t.length = o.img.data.length ∧
      o.weight.length = o.img.data.length) obs1 ts) (hadd : All3 (AddedGP a b) obs1 obs2 obs3) :
    ∃ r1 r2 r3, gpGo L model (.obsList obs1) = .ok r1 ∧ gpGo L model (.obsList obs2) = .ok r2 ∧ gpGo L model (.obsList obs3) = .ok r3 ∧
      FluxesAdd a b r1 r2 r3 := by
  have hp : ∀ o1 o2 o3, AddedGP a b o1 o2 o3 → o2.img.data.length = o1.img.data.length ∧
      o3.img.data = addImages a b o1.img.data o2.img.data ∧ o2.weight = o1.weight ∧ o3.weight = o1.weight := by
    rintro o1 o2 o3 ⟨h2, h3, h4⟩
    exact ⟨h4, by rw [h3], by rw [h2], by rw [h3]⟩
  obtain ⟨g2, g3⟩ := all3_map hadd h (fun o1 o2 o3 t ho hx => by
    obtain ⟨p1, p2, p3, p4⟩ := hp o1 o2 o3 ho
    obtain ⟨q2, q3, -⟩ := ho
    have t2 : GPTemplate L model o2 t := by
      rw [q2]; exact hx.1
    have t3 : GPTemplate L model o3 t := by
      rw [q3]; exact hx.1
    exact ⟨⟨t2, by rw [p1, p3]; exact hx.2⟩, ⟨t3, by rw [p2, p4, add_length p1]; exact hx.2⟩⟩)
  obtain ⟨r1, a1, a2⟩ := C82_flux (L := L) (model := model) (.obsList obs1) obs1 rfl ts hmodel h
  obtain ⟨r2, b1, b2⟩ := C82_flux (L := L) (model := model) (.obsList obs2) obs2 rfl ts hmodel g2
  obtain ⟨r3, c1, c2⟩ := C82_flux (L := L) (model := model) (.obsList obs3) obs3 rfl ts hmodel g3
  exact ⟨r1, r2, r3, a1, b1, c1, fluxes_add (pixels_add (fun o : GPObs => o.img.data) GPObs.weight a b hp obs1 obs2 obs3 ts hadd) a2 b2 c2⟩

theorem sums_add (a b m : ℝ) : ∀ p1 p2 p3 : List Pixel, All3 (AddedPixel a b) p1 p2 p3 →
    (∀ F G : Pixel → ℝ, (∀ px t, F { px with val := t } = G px * t) →
      pixSum (within 0 0 m p3) F = a * pixSum (within 0 0 m p1) F + b * pixSum (within 0 0 m p2) F) ∧
    (∀ F : Pixel → ℝ, (∀ px t, F { px with val := t } = F px) →
      pixSum (within 0 0 m p2) F = pixSum (within 0 0 m p1) F ∧ pixSum (within 0 0 m p3) F = pixSum (within 0 0 m p1) F) ∧
    ((within 0 0 m p2).length = (within 0 0 m p1).length ∧ (within 0 0 m p3).length = (within 0 0 m p1).length) ∧
    (((∃ px ∈ within 0 0 m p2, px.ierr = 0) ↔ ∃ px ∈ within 0 0 m p1, px.ierr = 0) ∧
      ((∃ px ∈ within 0 0 m p3, px.ierr = 0) ↔ ∃ px ∈ within 0 0 m p1, px.ierr = 0)) ∧
    ∀ area, (∀ px ∈ p1, px.area = area) → (∀ px ∈ p2, px.area = area) ∧ ∀ px ∈ p3, px.area = area
  | [], p2, p3, h => by
    obtain ⟨-, h2, h3⟩ := h
    rw [List.length_nil, List.length_eq_zero_iff] at h2 h3
    subst h2 h3
    simp [within, pixSum]
  | _ :: _, [], _, h => by cases h.2.1
  | _ :: _, _ :: _, [], h => by cases h.2.2
  | x1 :: p1, x2 :: p2, x3 :: p3, h => by
    classical
    obtain ⟨h1, h2, h3⟩ := h
    rw [List.zip_cons_cons, List.forall₂_cons] at h1
    obtain ⟨i1, i2, i3, i4, i5⟩ := sums_add a b m p1 p2 p3 ⟨h1.2, by simpa using h2, by simpa using h3⟩
    obtain ⟨e2, e3⟩ := h1.1
    simp only at e2 e3
    have o2 : offset 0 0 x2 = offset 0 0 x1 := by rw [e2]; rfl
    have o3 : offset 0 0 x3 = offset 0 0 x1 := by rw [e3]; rfl
    have r2 : x2.ierr = x1.ierr := by rw [e2]
    have r3 : x3.ierr = x1.ierr := by rw [e3]
    have s2 : x2.area = x1.area := by rw [e2]
    have s3 : x3.area = x1.area := by rw [e3]
    rw [within_cons, within_cons, within_cons, o2, o3]
    refine ⟨fun F G hF => ?_, fun F hF => ?_, ?_, ?_, fun area ha => ?_⟩
    · split_ifs
      · rw [pixSum_cons, pixSum_cons, pixSum_cons, i1 F G hF]
        have f1 : F x1 = G x1 * x1.val := hF x1 x1.val
        have f2 : F x2 = G x1 * x2.val := (congrArg F e2).trans (hF x1 x2.val)
        have f3 : F x3 = G x1 * (a * x1.val + b * x2.val) := (congrArg F e3).trans (hF x1 _)
        rw [f1, f2, f3]
        ring
      · exact i1 F G hF
    · split_ifs
      · have f2 : F x2 = F x1 := (congrArg F e2).trans (hF x1 x2.val)
        have f3 : F x3 = F x1 := (congrArg F e3).trans (hF x1 _)
        rw [pixSum_cons, pixSum_cons, pixSum_cons, (i2 F hF).1, (i2 F hF).2, f2, f3]
        exact ⟨rfl, rfl⟩
      · exact i2 F hF
    · split_ifs
      · simp only [List.length_cons, i3.1, i3.2, and_self]
      · exact i3
    · split_ifs
      · simp only [List.exists_mem_cons_iff, i4.1, i4.2, r2, r3, and_self]
      · exact i4
    · obtain ⟨j2, j3⟩ := i5 area fun px hp => ha px (List.mem_cons_of_mem _ hp)
      have := ha x1 List.mem_cons_self
      constructor
      · intro px hp
        rcases List.mem_cons.1 hp with rfl | hp
        · rw [s2, this]
        · exact j2 px hp
      · intro px hp
        rcases List.mem_cons.1 hp with rfl | hp
        · rw [s3, this]
        · exact j3 px hp

theorem momentOf_val (px : Pixel) (t : ℝ) (i : ℕ) : momentOf 0 0 { px with val := t } i = momentOf 0 0 px i := by
  rfl

/-- C122.  Gaussian weighted moments. -/
theorem C122_moments (a b fwhm : ℝ) (hw : WidthOk (fwhmToSigma fwhm)) (higher : Bool) (p1 p2 p3 : List Pixel) (area : ℝ) (ha : 0 < area)
    (hpa : ∀ px ∈ p1, px.area = area) (hadd : All3 (AddedPixel a b) p1 p2 p3) :
    ∃ w, gaussMomWeight fwhm = .ok w ∧
      ((∀ p ∈ [p1, p2, p3], (gaussMomGo w higher (.obs p area)).2 = .error .zeroDiv) ∨
      ∃ m1 m2 m3 x y, (gaussMomGo w higher (.obs p1 area)).2 = .ok m1 ∧ (gaussMomGo w higher (.obs p2 area)).2 = .ok m2 ∧
        (gaussMomGo w higher (.obs p3 area)).2 = .ok m3 ∧ m2.npix = m1.npix ∧ m3.npix = m1.npix ∧
        SumsOf area (nMom higher) x m1 ∧ SumsOf area (nMom higher) y m2 ∧ SumsOf area (nMom higher) (fun i => a * x i + b * y i) m3 ∧
        SameErrors (nMom higher) m1 m2 ∧ SameErrors (nMom higher) m1 m3 ∧ SameErrors (nMom higher) m2 m3) := by
  obtain ⟨hl, hs, hn, hz, har⟩ := sums_add a b ((100 * fwhmToSigma fwhm) ^ 2) p1 p2 p3 hadd
  by_cases hzero : ∃ px ∈ within 0 0 ((100 * fwhmToSigma fwhm) ^ 2) p1, px.ierr = 0
  · obtain ⟨w, g1, k1⟩ := C75_zero_weight fwhm hw higher p1 area hzero
    obtain ⟨w2, g2, k2⟩ := C75_zero_weight fwhm hw higher p2 area (hz.1.2 hzero)
    obtain ⟨w3, g3, k3⟩ := C75_zero_weight fwhm hw higher p3 area (hz.2.2 hzero)
    obtain rfl : w = w2 := by rw [g1] at g2; exact Except.ok.inj g2
    obtain rfl : w = w3 := by rw [g1] at g3; exact Except.ok.inj g3
    refine ⟨w, g1, .inl ?_⟩
    simp only [List.mem_cons, List.not_mem_nil, or_false, forall_eq_or_imp, forall_eq]
    exact ⟨k1, k2, k3⟩
  · obtain ⟨w, _, m1, g1, k1, R1⟩ := C75_go fwhm hw higher p1 area ha hpa fun px hp h0 => hzero ⟨px, hp, h0⟩
    obtain ⟨w2, _, m2, g2, k2, R2⟩ := C75_go fwhm hw higher p2 area ha (har area hpa).1 fun px hp h0 => hzero (hz.1.1 ⟨px, hp, h0⟩)
    obtain ⟨w3, _, m3, g3, k3, R3⟩ := C75_go fwhm hw higher p3 area ha (har area hpa).2 fun px hp h0 => hzero (hz.2.1 ⟨px, hp, h0⟩)
    obtain rfl : w = w2 := by rw [g1] at g2; exact Except.ok.inj g2
    obtain rfl : w = w3 := by rw [g1] at g3; exact Except.ok.inj g3
    have hM : ∀ i, gMoment (fwhmToSigma fwhm) p3 i = a * gMoment (fwhmToSigma fwhm) p1 i + b * gMoment (fwhmToSigma fwhm) p2 i := by
      intro i
      refine hl _ (fun px => roundWeight (fwhmToSigma fwhm) px * momentOf 0 0 px i) fun px t => ?_
      rw [momentOf_val]
      change roundWeight _ px * t * _ = _
      ring
    have hC : ∀ i j, gMomentCov (fwhmToSigma fwhm) p2 i j = gMomentCov (fwhmToSigma fwhm) p1 i j ∧
        gMomentCov (fwhmToSigma fwhm) p3 i j = gMomentCov (fwhmToSigma fwhm) p1 i j := by
      intro i j
      refine hs _ fun px t => ?_
      rw [momentOf_val, momentOf_val]
      rfl
    have hE : ∀ {p p' : List Pixel} {m m' : WMom}, GaussMomResult higher (fwhmToSigma fwhm) p area m →
        GaussMomResult higher (fwhmToSigma fwhm) p' area m' →
        (∀ i j, gMomentCov (fwhmToSigma fwhm) p' i j = gMomentCov (fwhmToSigma fwhm) p i j) → SameErrors (nMom higher) m m' := by
      intro p p' m m' R R' hc hf hf'
      refine ⟨?_, ?_, fun i hi j hj => ?_⟩
      · rw [(R.flux hf).2.1, (R'.flux hf').2.1, hc]
      · rw [R.errs hf, R'.errs hf']
        simp only [hc]
      · rw [R.cov hf i hi j hj, R'.cov hf' i hi j hj, hc]
    have hS : ∀ {p : List Pixel} {m : WMom}, GaussMomResult higher (fwhmToSigma fwhm) p area m →
        SumsOf area (nMom higher) (gMoment (fwhmToSigma fwhm) p) m :=
      fun R => ⟨fun hf => ⟨(R.flux hf).1, R.sums hf⟩, R.failed⟩
    refine ⟨w, g1, .inr ⟨m1, m2, m3, gMoment (fwhmToSigma fwhm) p1, gMoment (fwhmToSigma fwhm) p2, by rw [k1], by rw [k2], by rw [k3],
      by rw [R2.npix, R1.npix, hn.1], by rw [R3.npix, R1.npix, hn.2], hS R1, hS R2, ?_, hE R1 R2 fun i j => (hC i j).1,
      hE R1 R3 fun i j => (hC i j).2, hE R2 R3 fun i j => (hC i j).2.trans (hC i j).1.symm⟩⟩
    have := hS R3
    rwa [show gMoment (fwhmToSigma fwhm) p3 = fun i => a * gMoment (fwhmToSigma fwhm) p1 i + b * gMoment (fwhmToSigma fwhm) p2 i from
      funext hM] at this

/-! ### Concrete cases -/

/-- Two images of two pixels and twice the first less the second: the fluxes are those of the sum. -/
example : ∃ r1 r2 r3, psfFlux [⟨[2, 4], [1, 1], 2, [], ⟨none, none⟩, some ⟨none, some [1, 3]⟩⟩] true false = .ok r1 ∧
    psfFlux [⟨[1, 0], [1, 1], 2, [], ⟨none, none⟩, some ⟨none, some [1, 3]⟩⟩] true false = .ok r2 ∧
    psfFlux [⟨[3, 8], [1, 1], 2, [], ⟨none, none⟩, some ⟨none, some [1, 3]⟩⟩] true false = .ok r3 ∧
    FluxesAdd 2 (-1) r1 r2 r3 := by
  refine C122_templates 2 (-1) _ _ _ [[1, 3]] true false (by simp) ?_
    (.cons ⟨⟨_, rfl, rfl⟩, by norm_num, rfl, rfl⟩ .nil) ⟨.cons ⟨rfl, ?_, rfl⟩ .nil, rfl, rfl⟩
  · intro o ho s hs
    simp only [List.head?_cons, Option.mem_def, Option.some.injEq] at ho
    subst ho
    simp only [pfSource, if_true, Except.ok.injEq] at hs
    rw [← hs]
  · simp only [addImages, List.zipWith_cons_cons, List.zipWith_nil_left]
    norm_num

/-- The slanted pixels of C99 and three times them less an image of constant value. -/
example : All3 (AddedPixel 3 (-1)) slantPix [⟨-3/5, 4/5, 1, 2, 1⟩, ⟨4/5, 3/5, 1, 2, 1⟩, ⟨1/5, 7/5, 1, 2, 1⟩]
      (slantPix.map fun px => { px with val := 3 * px.val - 2 }) ∧ WidthOk (fwhmToSigma (1.2 * fwhmFac)) := by
  refine ⟨?_, width_one_two.1⟩
  unfold slantPix
  refine ⟨.cons ?_ (.cons ?_ (.cons ?_ .nil)), rfl, rfl⟩ <;> refine ⟨?_, ?_⟩ <;> simp <;> norm_num

end

end Ngmix.Props
