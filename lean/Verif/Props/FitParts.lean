import Verif.Spec.FitParts
import Verif.Props.FluxLinear
import Verif.Props.Parts
import Verif.Props.Composite
import Verif.Props.FitSetup

/-!
# Fits of composite models are sums of fits of their parts (C121)
-/

namespace Ngmix.Props

open Ngmix Ngmix.Spec Ngmix.Proof.GaussOrder

noncomputable section

/-- No norms have been set. -/
def Unset (l : List Gauss) : Prop := ∀ g ∈ l, g.normSet = false

theorem setNorms_parts : ∀ x y : List Gauss, gmixSetNorms (x ++ y) = match gmixSetNorms x with
    | (x', .error e) => (x' ++ y, .error e)
    | (x', .ok _) => (x' ++ (gmixSetNorms y).1, (gmixSetNorms y).2)
  | [], y => by simp [gmixSetNorms]
  | g :: x, y => by
    rw [List.cons_append, gmixSetNorms, gmixSetNorms, setNorms_parts x y]
    rcases gauss2dSetNorm g with ⟨g', _ | _⟩
    · rfl
    · rcases gmixSetNorms x with ⟨x', _ | _⟩ <;> rfl

theorem ready_unset {l : List Gauss} (h : Unset l) : ready l = match gmixSetNorms l with
    | (d', .ok _) => .ok d'
    | (_, .error e) => .error e := by
  unfold ready
  cases l with
  | nil => rfl
  | cons g l =>
    have := h g List.mem_cons_self
    simp only [setNormsIfNeeded, this, Bool.false_eq_true, if_false]
    rcases gmixSetNorms (g :: l) with ⟨d, _ | _⟩ <;> rfl

theorem ready_parts {x y : List Gauss} (hx : Unset x) (hy : Unset y) :
    ready (x ++ y) = (ready x).bind fun x' => (ready y).map fun y' => x' ++ y' := by
  have hxy : Unset (x ++ y) := fun g hg => (List.mem_append.1 hg).elim (hx g) (hy g)
  rw [ready_unset hxy, ready_unset hx, ready_unset hy, setNorms_parts]
  rcases gmixSetNorms x with ⟨x', _ | _⟩
  · rfl
  · rcases gmixSetNorms y with ⟨y', _ | _⟩ <;> rfl

theorem evals_parts (x y : List Gauss) (v u area : ℝ) :
    gmixEvalFast (x ++ y) v u area = gmixEvalFast x v u area + gmixEvalFast y v u area := by
  unfold gmixEvalFast
  rw [List.foldl_append]
  generalize x.foldl (fun acc g => acc + gaussEvalFast g v u area) 0 = s
  have : ∀ a : ℝ, y.foldl (fun acc g => acc + gaussEvalFast g v u area) (s + a) =
      s + y.foldl (fun acc g => acc + gaussEvalFast g v u area) a := by
    induction y with
    | nil => intro a; rfl
    | cons g y ih => intro a; rw [List.foldl_cons, List.foldl_cons, ← ih]; congr 1; ring
  have h0 := this 0
  rwa [add_zero] at h0

/-- What one image is compared with, given the gaussians of the model. -/
def seen (dopsf : Bool) (i : Img) (d : List Gauss) : Except PyErr (List Gauss) :=
  if dopsf then i.psf.bind fun q => (gmixConvolve d q.data).bind ready else ready d

theorem modelFor_seen (kind : FMKind) (hk : CanFit kind) (dopsf : Bool) (bp : List ℝ) (hl : bp.length = bandN kind) (i : Img)
    {d : List Gauss} (hd : fillFunc (kindOf kind) bp = .ok d) : modelFor kind dopsf bp i = seen dopsf i d := by
  obtain ⟨ng, hF, -⟩ := kindOf_fresh kind hk
  unfold modelFor seen
  rw [hF bp hl, hd]
  rfl

theorem convolve_unset {d q x : List Gauss} (h : gmixConvolve d q = .ok x) : Unset x := by
  rw [convolve_eq] at h
  cases hc : gmixGetCen q with
  | error e => rw [hc] at h; cases h
  | ok c =>
    rw [hc] at h
    cases h
    intro g hg
    simp only [List.mem_flatMap, List.mem_map] at hg
    obtain ⟨o, -, q, -, rfl⟩ := hg
    rfl

theorem seen_parts (dopsf : Bool) (i : Img) {x y : List Gauss} (hx : Unset x) (hy : Unset y) :
    seen dopsf i (x ++ y) = (seen dopsf i x).bind fun x' => (seen dopsf i y).map fun y' => x' ++ y' := by
  unfold seen
  cases dopsf with
  | false => exact ready_parts hx hy
  | true =>
    simp only [if_true]
    cases i.psf with
    | error e => rfl
    | ok q =>
      simp only [Except.bind]
      rw [C115_convolve_parts]
      cases h1 : gmixConvolve x q.data with
      | error e => rfl
      | ok x' =>
        cases h2 : gmixConvolve y q.data with
        | error e =>
          rw [convolve_eq] at h1 h2
          cases hc : gmixGetCen q.data with
          | error e => rw [hc] at h1; cases h1
          | ok c => rw [hc] at h2; cases h2
        | ok y' => exact ready_parts (convolve_unset h1) (convolve_unset h2)

theorem seen_lit (dopsf : Bool) (i : Img) (c : ℝ) (d : List Gauss) :
    seen dopsf i (d.map (lit c)) = (seen dopsf i d).map fun l => l.map (lit c) := by
  unfold seen
  cases dopsf with
  | false => exact ready_lit c d
  | true =>
    simp only [if_true]
    cases i.psf with
    | error e => rfl
    | ok q =>
      simp only [Except.bind]
      rw [unit_convolve c one_ne_zero d (q := q.data) (q' := q.data)
        (List.forall₂_same.mpr fun g _ => ⟨(one_mul _).symm, rfl, rfl, rfl, rfl, rfl⟩)]
      cases gmixConvolve d q.data with
      | error e => rfl
      | ok d1 => exact ready_lit c d1

/-- The two parts with their fractions. -/
def mixed (fd : ℝ) (a b : List Gauss) : List Gauss := a.map (lit (1 - fd)) ++ b.map (lit fd)

theorem mixed_evals (fd : ℝ) (a b : List Gauss) (v u area : ℝ) :
    gmixEvalFast (mixed fd a b) v u area = (1 - fd) * gmixEvalFast a v u area + fd * gmixEvalFast b v u area := by
  unfold mixed
  rw [evals_parts, lit_evals, lit_evals]

theorem composite_mixed (row col e1 e2 T F fd Td : ℝ) : fillComposite row col e1 e2 T F fd Td =
    mixed fd ((fvalsExp.zip pvalsExp).map fun fp => coGauss (F * fp.2) row col (0.5 * T * fp.1) e1 e2)
      ((fvalsDev.zip pvalsDev).map fun fp => coGauss (F * fp.2) row col (0.5 * (Td * T) * fp.1) e1 e2) := by
  rw [composite_union]
  unfold mixed
  rw [List.map_map, List.map_map]
  congr 1 <;> refine List.map_congr_left fun fp _ => ?_
  · simp only [Function.comp_apply, coGauss, lit_set]
    congr 1
    ring
  · simp only [Function.comp_apply, coGauss, lit_set, mul_comm Td T]
    congr 1
    ring

theorem coGauss_unset (l : List (ℝ × ℝ)) (f g : ℝ × ℝ → ℝ) (row col e1 e2 : ℝ) :
    Unset (l.map fun fp => coGauss (f fp) row col (g fp) e1 e2) := by
  intro x hx
  obtain ⟨fp, -, rfl⟩ := List.mem_map.1 hx
  rfl

theorem lit_unset {c : ℝ} {l : List Gauss} (h : Unset l) : Unset (l.map (lit c)) := by
  intro x hx
  obtain ⟨g, hg, rfl⟩ := List.mem_map.1 hx
  exact h g hg

theorem tfactor_norm (fd Td : ℝ) (h : sizeNorm fd Td ≠ 0) : getCmTfactor fd Td = .ok (1 / sizeNorm fd Td) := by
  have e : cmTsum fd Td = sizeNorm fd Td := cmTsum_eq fd Td
  unfold getCmTfactor
  rw [if_neg (by rw [e]; exact h), e]

/-- The gaussians of a disk of size `Te` and a bulge of size `Td Te` in one image. -/
theorem parts_model (kind : FMKind) (hk : CanFit kind) (bp : List ℝ) (hl : bp.length = bandN kind) (row col g1 g2 T F fd Td : ℝ)
    (hfill : fillFunc (kindOf kind) bp = (g1g2ToE1E2nb g1 g2).map fun e => fillComposite row col e.1 e.2 T F fd Td)
    (dopsf : Bool) (i : Img) :
    modelFor kind dopsf bp i = (modelFor (.std "exp") dopsf [row, col, g1, g2, T, F] i).bind fun a =>
      (modelFor (.std "dev") dopsf [row, col, g1, g2, Td * T, F] i).map fun b => mixed fd a b := by
  have cE : CanFit (.std "exp") := by simp [CanFit]
  have cD : CanFit (.std "dev") := by simp [CanFit]
  by_cases hg : InDisk g1 g2
  · rw [g1g2ToE1E2nb_closed hg] at hfill
    simp only [Except.map] at hfill
    rw [modelFor_seen kind hk dopsf bp hl i hfill,
      modelFor_seen (.std "exp") cE dopsf _ rfl i (d := (fvalsExp.zip pvalsExp).map fun fp => coGauss (F * fp.2) row col (0.5 * T * fp.1) _ _)
        (by simp only [kindOf, fillFunc, fillSimple, g1g2ToE1E2nb_closed hg, Except.map]; rfl),
      modelFor_seen (.std "dev") cD dopsf _ rfl i
        (d := (fvalsDev.zip pvalsDev).map fun fp => coGauss (F * fp.2) row col (0.5 * (Td * T) * fp.1) _ _)
        (by simp only [kindOf, fillFunc, fillSimple, g1g2ToE1E2nb_closed hg, Except.map]; rfl), composite_mixed]
    unfold mixed
    rw [seen_parts _ _ (lit_unset (coGauss_unset _ _ _ _ _ _ _)) (lit_unset (coGauss_unset _ _ _ _ _ _ _)), seen_lit, seen_lit]
    rcases seen dopsf i _ with e | a
    · rfl
    · rcases seen dopsf i _ with e | b <;> rfl
  · rw [g1g2ToE1E2nb_err hg] at hfill
    obtain ⟨n1, hF, -⟩ := kindOf_fresh kind hk
    obtain ⟨n2, hE, -⟩ := kindOf_fresh (.std "exp") cE
    unfold modelFor
    rw [hF bp hl, hfill, hE _ rfl, show fillFunc (kindOf (.std "exp")) [row, col, g1, g2, T, F] = .error .gmixRange by
      simp only [kindOf, fillFunc, fillSimple, g1g2ToE1E2nb_err hg, Except.map]]
    cases dopsf
    · rfl
    · cases i.psf <;> rfl

/-! ### Whole fits -/

theorem exists_forall2 {α β : Type*} (R : α → β → Prop) (l : List α) : (∃ ds, List.Forall₂ R l ds) ↔ ∀ i ∈ l, ∃ d, R i d := by
  induction l with
  | nil => exact ⟨fun _ => by simp, fun _ => ⟨[], .nil⟩⟩
  | cons a l ih =>
    rw [List.forall_mem_cons, ← ih]
    constructor
    · rintro ⟨_, h⟩
      cases h with
      | cons h1 h2 => exact ⟨⟨_, h1⟩, _, h2⟩
    · rintro ⟨⟨d, h1⟩, ds, h2⟩
      exact ⟨_, .cons h1 h2⟩

/-- The mixtures of all images by band, `m F i` being that of image `i` for the flux `F` of its band. -/
def AllSeen (m : ℝ → Img → Except PyErr (List Gauss)) (L : List (ℝ × List Img)) (D : List (List (List Gauss))) : Prop :=
  List.Forall₂ (fun x ds => List.Forall₂ (fun i d => m x.1 i = .ok d) x.2 ds) L D

theorem isModel_all {fm : FitModel} {pars Fs : List ℝ} {P : ℝ → List ℝ} (hl : Fs.length = fm.obs.length)
    (hP : ∀ (b : ℕ) F, Fs[b]? = some F → fm.kind.bandPars pars b = .ok (P F)) (D : List (List (List Gauss))) :
    IsModel fm pars D ↔ AllSeen (fun F i => modelFor fm.kind fm.dopsf (P F) i) (Fs.zip fm.obs) D := by
  unfold IsModel AllSeen
  rw [List.forall₂_iff_get]
  have hz : (Fs.zip fm.obs).length = fm.obs.length := by rw [List.length_zip, hl, min_self]
  constructor
  · rintro ⟨h1, h2⟩
    refine ⟨hz.trans h1.symm, fun b hb hb' => ?_⟩
    have hbo : b < fm.obs.length := hz ▸ hb
    have hbF : b < Fs.length := hl ▸ hbo
    obtain ⟨bp, hbp, hf⟩ := h2 b _ _ (List.getElem?_eq_getElem hbo) (List.getElem?_eq_getElem hb')
    rw [hP b _ (List.getElem?_eq_getElem hbF)] at hbp
    cases hbp
    simpa using hf
  · rintro ⟨h1, h2⟩
    refine ⟨h1.symm.trans hz, fun b is ds hb hds => ?_⟩
    obtain ⟨hbo, rfl⟩ := List.getElem?_eq_some_iff.1 hb
    obtain ⟨hbD, rfl⟩ := List.getElem?_eq_some_iff.1 hds
    have hbF : b < Fs.length := hl ▸ hbo
    refine ⟨_, hP b _ (List.getElem?_eq_getElem hbF), ?_⟩
    simpa using h2 b (hz.symm ▸ hbo) hbD

theorem allSeen_exists (m : ℝ → Img → Except PyErr (List Gauss)) (L : List (ℝ × List Img)) :
    (∃ D, AllSeen m L D) ↔ ∀ x ∈ L, ∀ i ∈ x.2, ∃ d, m x.1 i = .ok d := by
  unfold AllSeen
  rw [exists_forall2]
  simp only [exists_forall2]

theorem zipWith_forall2 {α β γ δ : Type*} {R : α → β → Prop} {S : α → γ → Prop} {U : α → δ → Prop} (f : β → γ → δ)
    (h : ∀ a b c, R a b → S a c → U a (f b c)) {l : List α} {x : List β} (hx : List.Forall₂ R l x) :
    ∀ {y : List γ}, List.Forall₂ S l y → List.Forall₂ U l (List.zipWith f x y) := by
  induction hx with
  | nil => intro y hy; cases hy; exact .nil
  | cons h1 _ ih =>
    intro y hy
    cases hy with
    | cons h2 h3 => exact .cons (h _ _ _ h1 h2) (ih h3)

theorem allSeen_mixed {m mE mD : ℝ → Img → Except PyErr (List Gauss)} {fd : ℝ}
    (hm : ∀ F i, m F i = (mE F i).bind fun a => (mD F i).map fun b => mixed fd a b) {L : List (ℝ × List Img)} {A B : List (List (List Gauss))}
    (hA : AllSeen mE L A) (hB : AllSeen mD L B) : AllSeen m L (List.zipWith (List.zipWith (mixed fd)) A B) := by
  refine zipWith_forall2 _ (fun x a b ha hb => ?_) hA hB
  refine zipWith_forall2 _ (fun i u w hu hw => ?_) ha hb
  rw [hm, hu, hw]
  rfl

theorem zipWith_flatten {α β γ : Type*} (f : α → β → γ) : ∀ (A : List (List α)) (B : List (List β)),
    List.Forall₂ (fun a b => a.length = b.length) A B →
    (List.zipWith (List.zipWith f) A B).flatten = List.zipWith f A.flatten B.flatten
  | [], [], _ => rfl
  | a :: A, b :: B, h => by
    cases h with
    | cons h1 h2 =>
      rw [List.zipWith_cons_cons, List.flatten_cons, List.flatten_cons, List.flatten_cons, zipWith_flatten f A B h2,
        List.zipWith_append h1]

theorem residual_lists (fd : ℝ) : ∀ (L : List Img) (A B : List (List Gauss)), L.length = A.length → L.length = B.length →
    (L.zip (List.zipWith (mixed fd) A B)).flatMap (fun x => x.1.pixels.map fun px => (gmixEvalFast x.2 px.v px.u px.area - px.val) * px.ierr) =
      mixResiduals fd ((L.zip A).flatMap fun x => x.1.pixels.map fun px => (gmixEvalFast x.2 px.v px.u px.area - px.val) * px.ierr)
        ((L.zip B).flatMap fun x => x.1.pixels.map fun px => (gmixEvalFast x.2 px.v px.u px.area - px.val) * px.ierr)
  | [], _, _, _, _ => by simp [mixResiduals]
  | i :: L, [], _, h, _ => by cases h
  | i :: L, _ :: _, [], _, h => by cases h
  | i :: L, a :: A, b :: B, h, h' => by
    unfold mixResiduals
    simp only [List.zipWith_cons_cons, List.zip_cons_cons, List.flatMap_cons]
    rw [List.zipWith_append (by simp), residual_lists fd L A B (by simpa using h) (by simpa using h')]
    congr 1
    rw [List.zipWith_map, List.zipWith_self]
    refine List.map_congr_left fun px _ => ?_
    rw [mixed_evals]
    ring

theorem same_lengths {α β γ : Type*} {O : List (List α)} {A : List (List β)}
    (hA : List.Forall₂ (fun is ds => List.length is = List.length ds) O A) : ∀ {B : List (List γ)},
    List.Forall₂ (fun is ds => List.length is = List.length ds) O B → List.Forall₂ (fun a b => List.length a = List.length b) A B := by
  induction hA with
  | nil => intro B hB; cases hB; exact .nil
  | cons h1 _ ih =>
    intro B hB
    cases hB with
    | cons h2 h3 => exact .cons (h1.symm.trans h2) (ih h3)

theorem flat_length {α β : Type*} {O : List (List α)} {A : List (List β)}
    (hA : List.Forall₂ (fun is ds => List.length is = List.length ds) O A) : O.flatten.length = A.flatten.length := by
  induction hA with
  | nil => rfl
  | cons h1 _ ih => rw [List.flatten_cons, List.flatten_cons, List.length_append, List.length_append, h1, ih]

theorem residuals_totpix {fm : FitModel} {pars : List ℝ} {D : List (List (List Gauss))} (hD : IsModel fm pars D) :
    (residuals fm D).length = fm.totpix := by
  have hl := flat_length (isModel_lengths hD)
  unfold residuals pairs FitModel.totpix
  rw [List.length_flatMap]
  simp only [List.length_map]
  generalize fm.obs.flatten = L at hl
  generalize D.flatten = X at hl
  induction L generalizing X with
  | nil => rfl
  | cons i L ih =>
    cases X with
    | nil => cases hl
    | cons x X =>
      rw [List.zip_cons_cons, List.map_cons, List.map_cons, List.sum_cons, List.sum_cons, ih X (by simpa using hl)]

/-- One fit is the sum of two fits of the same images, at related parameters. -/
theorem fit_of_parts {kind : FMKind} {obs : List (List Img)} {guess gE gD : List ℝ} {fm fE fD : FitModel} {st sE sD : FMState}
    (h : newFitModel kind none obs guess = .ok (fm, st)) (hE : newFitModel (.std "exp") none obs gE = .ok (fE, sE))
    (hD : newFitModel (.std "dev") none obs gD = .ok (fD, sD)) (c cE cD : List Call) (pars pE pD Fs : List ℝ) (fd : ℝ)
    (P PE PD : ℝ → List ℝ) (hl : Fs.length = obs.length) (hp : pars.length = guess.length) (hpE : pE.length = gE.length)
    (hpD : pD.length = gD.length)
    (bP : ∀ (b : ℕ) F, Fs[b]? = some F → kind.bandPars pars b = .ok (P F))
    (bE : ∀ (b : ℕ) F, Fs[b]? = some F → FMKind.bandPars (.std "exp") pE b = .ok (PE F))
    (bD : ∀ (b : ℕ) F, Fs[b]? = some F → FMKind.bandPars (.std "dev") pD b = .ok (PD F))
    (hm : ∀ F dopsf i, modelFor kind dopsf (P F) i = (modelFor (.std "exp") dopsf (PE F) i).bind fun a =>
      (modelFor (.std "dev") dopsf (PD F) i).map fun b => mixed fd a b) :
    ((∃ D, IsModel fm pars D) ↔ (∃ A, IsModel fE pE A) ∧ ∃ B, IsModel fD pD B) ∧
    ((∃ D, IsModel fm pars D) → ∃ x y : List ℝ, (calcFdiff fE (runCalls fE sE cE) pE).2 = .ok (x.map Fl.fin) ∧
      (calcFdiff fD (runCalls fD sD cD) pD).2 = .ok (y.map Fl.fin) ∧ x.length = fm.totpix ∧ y.length = fm.totpix ∧
      (calcFdiff fm (runCalls fm st c) pars).2 = .ok ((mixResiduals fd x y).map Fl.fin)) := by
  obtain ⟨k1, -, o1, ⟨i, is, r, ho, d1⟩, -⟩ := new_shape h
  obtain ⟨k2, -, o2, ⟨i2, is2, r2, ho2, d2⟩, -⟩ := new_shape hE
  obtain ⟨k3, -, o3, ⟨i3, is3, r3, ho3, d3⟩, -⟩ := new_shape hD
  rw [ho] at ho2 ho3
  cases ho2
  cases ho3
  have M1 := fun D => isModel_all (fm := fm) (pars := pars) (by rw [o1]; exact hl) (by rw [k1]; exact bP) D
  have M2 := fun D => isModel_all (fm := fE) (pars := pE) (by rw [o2]; exact hl) (by rw [k2]; exact bE) D
  have M3 := fun D => isModel_all (fm := fD) (pars := pD) (by rw [o3]; exact hl) (by rw [k3]; exact bD) D
  rw [k1, d1, o1] at M1
  rw [k2, d2, o2] at M2
  rw [k3, d3, o3] at M3
  have hiff : (∃ D, IsModel fm pars D) ↔ (∃ A, IsModel fE pE A) ∧ ∃ B, IsModel fD pD B := by
    simp only [M1, M2, M3, allSeen_exists]
    constructor
    · intro H
      refine ⟨fun x hx j hj => ?_, fun x hx j hj => ?_⟩ <;>
      · obtain ⟨d, hd⟩ := H x hx j hj
        rw [hm] at hd
        cases ha : modelFor (.std "exp") i.hasPsfGmix (PE x.1) j with
        | error e => rw [ha] at hd; cases hd
        | ok a =>
          rw [ha] at hd
          cases hb : modelFor (.std "dev") i.hasPsfGmix (PD x.1) j with
          | error e => simp only [Except.bind, hb] at hd; cases hd
          | ok b => first | exact ⟨a, rfl⟩ | exact ⟨b, rfl⟩
    · rintro ⟨H1, H2⟩ x hx j hj
      obtain ⟨a, ha⟩ := H1 x hx j hj
      obtain ⟨b, hb⟩ := H2 x hx j hj
      exact ⟨_, by rw [hm, ha, Except.bind, hb]; rfl⟩
  refine ⟨hiff, fun H => ?_⟩
  obtain ⟨⟨A, hA⟩, B, hB⟩ := hiff.1 H
  have hX := allSeen_mixed (fun F i => hm F _ i) ((M2 A).1 hA) ((M3 B).1 hB)
  have hX' := (M1 _).2 hX
  refine ⟨residuals fE A, residuals fD B, (C41_no_prior _ obs gE fE sE hE cE pE hpE A hA).2,
    (C41_no_prior _ obs gD fD sD hD cD pD hpD B hB).2, ?_, ?_, ?_⟩
  · rw [residuals_totpix hA, FitModel.totpix, FitModel.totpix, o1, o2]
  · rw [residuals_totpix hB, FitModel.totpix, FitModel.totpix, o1, o3]
  · rw [(C41_no_prior _ obs guess fm st h c pars hp _ hX').2]
    congr 2
    have lA := isModel_lengths hA
    have lB := isModel_lengths hB
    rw [o2] at lA
    rw [o3] at lB
    have lAB := same_lengths lA lB
    unfold residuals pairs
    rw [zipWith_flatten _ _ _ lAB, o1, o2, o3]
    exact residual_lists fd _ _ _ (flat_length lA) (flat_length lB)

theorem takeBand_cons (hd Fs : List ℝ) (b : ℕ) (F : ℝ) (hF : Fs[b]? = some F) : takeBand hd.length (hd ++ Fs) b = .ok (hd ++ [F]) := by
  unfold takeBand
  rw [if_neg (by simp), List.getElem?_append_right (by omega), show hd.length + b - hd.length = b by omega, hF]
  simp

/-- C121.  The fit of a bulge plus disk (`bdf`) against the fits of an exponential and a de Vaucouleurs profile. -/
theorem C121_bdf (obs : List (List Img)) (guess gE gD : List ℝ) (fm fE fD : FitModel) (st sE sD : FMState)
    (h : newFitModel (.std "bdf") none obs guess = .ok (fm, st)) (hE : newFitModel (.std "exp") none obs gE = .ok (fE, sE))
    (hD : newFitModel (.std "dev") none obs gD = .ok (fD, sD)) (c cE cD : List Call) (row col g1 g2 T fd : ℝ) (Fs : List ℝ)
    (hl : Fs.length = obs.length) (hn : sizeNorm fd 1 ≠ 0) :
    let pars := row :: col :: g1 :: g2 :: T :: fd :: Fs
    let pE := row :: col :: g1 :: g2 :: (T / sizeNorm fd 1) :: Fs
    ((∃ D, IsModel fm pars D) ↔ (∃ A, IsModel fE pE A) ∧ ∃ B, IsModel fD pE B) ∧
    ((∃ D, IsModel fm pars D) → ∃ x y : List ℝ, (calcFdiff fE (runCalls fE sE cE) pE).2 = .ok (x.map Fl.fin) ∧
      (calcFdiff fD (runCalls fD sD cD) pE).2 = .ok (y.map Fl.fin) ∧ x.length = fm.totpix ∧ y.length = fm.totpix ∧
      (calcFdiff fm (runCalls fm st c) pars).2 = .ok ((mixResiduals fd x y).map Fl.fin)) := by
  intro pars pE
  obtain ⟨-, -, -, ⟨i, is, r, ho, -⟩, -, n1, -⟩ := new_shape h
  obtain ⟨-, -, -, -, -, n2, -⟩ := new_shape hE
  obtain ⟨-, -, -, -, -, n3, -⟩ := new_shape hD
  have h0 : 0 < obs.length := by rw [ho]; simp
  have cB : CanFit (.std "bdf") := by simp [CanFit]
  have cE' : CanFit (.std "exp") := by simp [CanFit]
  have cD' : CanFit (.std "dev") := by simp [CanFit]
  rw [npars_guessLength _ cB _ h0, Except.ok.injEq] at n1
  rw [npars_guessLength _ cE' _ h0, Except.ok.injEq] at n2
  rw [npars_guessLength _ cD' _ h0, Except.ok.injEq] at n3
  simp only [guessLength] at n1 n2 n3
  refine fit_of_parts h hE hD c cE cD pars pE pE Fs fd (fun F => [row, col, g1, g2, T, fd, F])
    (fun F => [row, col, g1, g2, T / sizeNorm fd 1, F]) (fun F => [row, col, g1, g2, T / sizeNorm fd 1, F]) hl ?_ ?_ ?_ ?_ ?_ ?_ ?_
  · rw [← n1]; simp [pars, hl]; omega
  · rw [← n2]; simp [pE, hl]; omega
  · rw [← n3]; simp [pE, hl]; omega
  · intro b F hF
    exact takeBand_cons [row, col, g1, g2, T, fd] Fs b F hF
  · intro b F hF
    show (takeBand 5 pE b).map _ = _
    rw [show takeBand 5 pE b = _ from takeBand_cons [row, col, g1, g2, T / sizeNorm fd 1] Fs b F hF]
    rfl
  · intro b F hF
    show (takeBand 5 pE b).map _ = _
    rw [show takeBand 5 pE b = _ from takeBand_cons [row, col, g1, g2, T / sizeNorm fd 1] Fs b F hF]
    rfl
  · intro F dopsf i
    have := parts_model (.std "bdf") cB [row, col, g1, g2, T, fd, F] rfl row col g1 g2 (T / sizeNorm fd 1) F fd 1 (by
      show fillBdf row col g1 g2 T fd F = _
      unfold fillBdf
      rw [tfactor_norm fd 1 hn, Except.bind, mul_one_div]) dopsf i
    rwa [one_mul] at this

/-- C121.  The same for `bd`, whose bulge has a size of its own. -/
theorem C121_bd (obs : List (List Img)) (guess gE gD : List ℝ) (fm fE fD : FitModel) (st sE sD : FMState)
    (h : newFitModel (.std "bd") none obs guess = .ok (fm, st)) (hE : newFitModel (.std "exp") none obs gE = .ok (fE, sE))
    (hD : newFitModel (.std "dev") none obs gD = .ok (fD, sD)) (c cE cD : List Call) (row col g1 g2 T lT fd : ℝ) (Fs : List ℝ)
    (hl : Fs.length = obs.length) (hn : sizeNorm fd ((10 : ℝ) ^ lT) ≠ 0) :
    let pars := row :: col :: g1 :: g2 :: T :: lT :: fd :: Fs
    let Te := T / sizeNorm fd ((10 : ℝ) ^ lT)
    let pE := row :: col :: g1 :: g2 :: Te :: Fs
    let pD := row :: col :: g1 :: g2 :: ((10 : ℝ) ^ lT * Te) :: Fs
    ((∃ D, IsModel fm pars D) ↔ (∃ A, IsModel fE pE A) ∧ ∃ B, IsModel fD pD B) ∧
    ((∃ D, IsModel fm pars D) → ∃ x y : List ℝ, (calcFdiff fE (runCalls fE sE cE) pE).2 = .ok (x.map Fl.fin) ∧
      (calcFdiff fD (runCalls fD sD cD) pD).2 = .ok (y.map Fl.fin) ∧ x.length = fm.totpix ∧ y.length = fm.totpix ∧
      (calcFdiff fm (runCalls fm st c) pars).2 = .ok ((mixResiduals fd x y).map Fl.fin)) := by
  intro pars Te pE pD
  obtain ⟨-, -, -, ⟨i, is, r, ho, -⟩, -, n1, -⟩ := new_shape h
  obtain ⟨-, -, -, -, -, n2, -⟩ := new_shape hE
  obtain ⟨-, -, -, -, -, n3, -⟩ := new_shape hD
  have h0 : 0 < obs.length := by rw [ho]; simp
  have cB : CanFit (.std "bd") := by simp [CanFit]
  have cE' : CanFit (.std "exp") := by simp [CanFit]
  have cD' : CanFit (.std "dev") := by simp [CanFit]
  rw [npars_guessLength _ cB _ h0, Except.ok.injEq] at n1
  rw [npars_guessLength _ cE' _ h0, Except.ok.injEq] at n2
  rw [npars_guessLength _ cD' _ h0, Except.ok.injEq] at n3
  simp only [guessLength] at n1 n2 n3
  refine fit_of_parts h hE hD c cE cD pars pE pD Fs fd (fun F => [row, col, g1, g2, T, lT, fd, F])
    (fun F => [row, col, g1, g2, Te, F]) (fun F => [row, col, g1, g2, (10 : ℝ) ^ lT * Te, F]) hl ?_ ?_ ?_ ?_ ?_ ?_ ?_
  · rw [← n1]; simp [pars, hl]; omega
  · rw [← n2]; simp [pE, hl]; omega
  · rw [← n3]; simp [pD, hl]; omega
  · intro b F hF
    exact takeBand_cons [row, col, g1, g2, T, lT, fd] Fs b F hF
  · intro b F hF
    show (takeBand 5 pE b).map _ = _
    rw [show takeBand 5 pE b = _ from takeBand_cons [row, col, g1, g2, Te] Fs b F hF]
    rfl
  · intro b F hF
    show (takeBand 5 pD b).map _ = _
    rw [show takeBand 5 pD b = _ from takeBand_cons [row, col, g1, g2, (10 : ℝ) ^ lT * Te] Fs b F hF]
    rfl
  · intro F dopsf i
    exact parts_model (.std "bd") cB [row, col, g1, g2, T, lT, fd, F] rfl row col g1 g2 Te F fd ((10 : ℝ) ^ lT) (by
      show fillBd row col g1 g2 T lT fd F = _
      unfold fillBd
      dsimp only
      rw [tfactor_norm fd _ hn, Except.bind, mul_one_div]) dopsf i

/-! ### Gaussians of one shape -/

theorem seen_nil (dopsf : Bool) (i : Img) (d : List Gauss) (h : seen dopsf i [] = .ok d) : d = [] := by
  unfold seen at h
  cases dopsf with
  | false => cases h; rfl
  | true =>
    simp only [if_true] at h
    cases hq : i.psf with
    | error e => rw [hq] at h; cases h
    | ok q =>
      rw [hq] at h
      simp only [Except.bind, convolve_eq] at h
      cases hc : gmixGetCen q.data with
      | error e => rw [hc] at h; cases h
      | ok c => rw [hc] at h; cases h; rfl

theorem seen_each {α : Type*} (dopsf : Bool) (i : Img) (f : α → Gauss) (hf : ∀ a, (f a).normSet = false) : ∀ l : List α,
    (∀ d, seen dopsf i (l.map f) = .ok d → ∃ ds, List.Forall₂ (fun a x => seen dopsf i [f a] = .ok x) l ds ∧ d = ds.flatten) ∧
    (l ≠ [] → (∀ a ∈ l, ∃ x, seen dopsf i [f a] = .ok x) → ∃ d, seen dopsf i (l.map f) = .ok d)
  | [] => ⟨fun d h => ⟨[], .nil, seen_nil dopsf i d h⟩, fun h => absurd rfl h⟩
  | [a] => by
    refine ⟨fun d h => ⟨[d], .cons h .nil, by simp⟩, fun _ h => h a List.mem_cons_self⟩
  | a :: b :: l => by
    obtain ⟨i1, i2⟩ := seen_each dopsf i f hf (b :: l)
    have hs : seen dopsf i ((a :: b :: l).map f) = (seen dopsf i [f a]).bind fun x' => (seen dopsf i ((b :: l).map f)).map fun y' => x' ++ y' := by
      rw [List.map_cons, ← List.singleton_append]
      refine seen_parts dopsf i ?_ ?_
      · intro g hg
        rw [List.mem_singleton.1 hg]
        exact hf a
      · intro g hg
        obtain ⟨x, -, rfl⟩ := List.mem_map.1 hg
        exact hf x
    rw [hs]
    constructor
    · intro d h
      cases h1 : seen dopsf i [f a] with
      | error e => rw [h1] at h; cases h
      | ok x =>
        rw [h1] at h
        cases h2 : seen dopsf i ((b :: l).map f) with
        | error e => rw [h2] at h; cases h
        | ok y =>
          rw [h2] at h
          cases h
          obtain ⟨ds, hds, rfl⟩ := i1 y h2
          exact ⟨x :: ds, .cons h1 hds, by simp⟩
    · intro _ H
      obtain ⟨x, hx⟩ := H a List.mem_cons_self
      obtain ⟨y, hy⟩ := i2 (by simp) fun c hc => H c (List.mem_cons_of_mem _ hc)
      exact ⟨x ++ y, by rw [hx, Except.bind, hy]; rfl⟩

theorem evals_flatten (ds : List (List Gauss)) (v u area : ℝ) :
    gmixEvalFast ds.flatten v u area = (ds.map fun x => gmixEvalFast x v u area).sum := by
  induction ds with
  | nil => rfl
  | cons x ds ih => rw [List.flatten_cons, evals_parts, ih, List.map_cons, List.sum_cons]

/-- The gaussians of a coelliptical model in one image are those of its parts. -/
theorem coellip_model (dopsf : Bool) (i : Img) (row col g1 g2 : ℝ) (Ts Fs : List ℝ) (hl : Ts.length = Fs.length) :
    (∀ d, modelFor (.coellip Ts.length) dopsf (row :: col :: g1 :: g2 :: (Ts ++ Fs)) i = .ok d →
      ∃ ds, List.Forall₂ (fun tf x => modelFor (.std "gauss") dopsf [row, col, g1, g2, tf.1, tf.2] i = .ok x) (Ts.zip Fs) ds ∧ d = ds.flatten) ∧
    (Ts ≠ [] → (∀ tf ∈ Ts.zip Fs, ∃ x, modelFor (.std "gauss") dopsf [row, col, g1, g2, tf.1, tf.2] i = .ok x) →
      ∃ d, modelFor (.coellip Ts.length) dopsf (row :: col :: g1 :: g2 :: (Ts ++ Fs)) i = .ok d) := by
  have cG : CanFit (.std "gauss") := by simp [CanFit]
  have hfill : fillFunc .coellip (row :: col :: g1 :: g2 :: (Ts ++ Fs)) = fillCoellip row col g1 g2 (Ts.zip Fs) := by
    have h2 : (Ts ++ Fs).length / 2 = Ts.length := by rw [List.length_append]; omega
    simp only [fillFunc, h2, List.take_left', List.drop_left']
  have hlen : (row :: col :: g1 :: g2 :: (Ts ++ Fs)).length = bandN (.coellip Ts.length) := by
    simp only [List.length_cons, List.length_append, bandN]; omega
  have hne : Ts ≠ [] → Ts.zip Fs ≠ [] := by
    intro h1 h2
    have := congrArg List.length h2
    rw [List.length_zip, ← hl, min_self, List.length_nil, List.length_eq_zero_iff] at this
    exact h1 this
  by_cases hg : InDisk g1 g2
  · have hC : fillFunc (kindOf (.coellip Ts.length)) (row :: col :: g1 :: g2 :: (Ts ++ Fs)) = .ok ((Ts.zip Fs).map fun tf =>
        coGauss tf.2 row col (0.5 * tf.1) (2 * g1 / (1 + (g1 ^ 2 + g2 ^ 2))) (2 * g2 / (1 + (g1 ^ 2 + g2 ^ 2)))) := by
      rw [kindOf, hfill, fillCoellip, g1g2ToE1E2nb_closed hg]
      rfl
    have hG : ∀ tf : ℝ × ℝ, modelFor (.std "gauss") dopsf [row, col, g1, g2, tf.1, tf.2] i = seen dopsf i [coGauss tf.2 row col (0.5 * tf.1)
        (2 * g1 / (1 + (g1 ^ 2 + g2 ^ 2))) (2 * g2 / (1 + (g1 ^ 2 + g2 ^ 2)))] := by
      intro tf
      refine modelFor_seen (.std "gauss") cG dopsf _ rfl i ?_
      simp only [kindOf, fillFunc, fillSimple, g1g2ToE1E2nb_closed hg, Except.map, fvalsGauss, pvalsGauss]
      norm_num
    simp only [hG]
    rw [modelFor_seen (.coellip Ts.length) trivial dopsf _ hlen i hC]
    obtain ⟨s1, s2⟩ := seen_each dopsf i (fun tf : ℝ × ℝ => coGauss tf.2 row col (0.5 * tf.1)
        (2 * g1 / (1 + (g1 ^ 2 + g2 ^ 2))) (2 * g2 / (1 + (g1 ^ 2 + g2 ^ 2)))) (fun _ => rfl) (Ts.zip Fs)
    exact ⟨s1, fun h => s2 (hne h)⟩
  · obtain ⟨n1, hF, -⟩ := kindOf_fresh (.coellip Ts.length) trivial
    obtain ⟨n2, hE, -⟩ := kindOf_fresh (.std "gauss") cG
    have hG : ∀ tf : ℝ × ℝ, ¬ ∃ x, modelFor (.std "gauss") dopsf [row, col, g1, g2, tf.1, tf.2] i = .ok x := by
      rintro tf ⟨x, hx⟩
      unfold modelFor at hx
      rw [hE _ rfl, show fillFunc (kindOf (.std "gauss")) [row, col, g1, g2, tf.1, tf.2] = .error .gmixRange by
        simp only [kindOf, fillFunc, fillSimple, g1g2ToE1E2nb_err hg, Except.map]] at hx
      cases dopsf
      · cases hx
      · cases hq : i.psf <;> rw [hq] at hx <;> cases hx
    refine ⟨fun d hd => ?_, fun h H => ?_⟩
    · unfold modelFor at hd
      rw [hF _ hlen, kindOf, hfill, fillCoellip, g1g2ToE1E2nb_err hg] at hd
      cases dopsf
      · cases hd
      · cases hq : i.psf <;> rw [hq] at hd <;> cases hd
    · obtain ⟨tf, htf⟩ := List.exists_mem_of_ne_nil _ (hne h)
      exact absurd (H tf htf) (hG tf)

/-- All pixels with their images. -/
def pixelsOf (is : List Img) : List (Img × Pixel) := is.flatMap fun i => i.pixels.map fun px => (i, px)

theorem allSeen_one {m : ℝ → Img → Except PyErr (List Gauss)} {F : ℝ} {is : List Img} {f : Img → List Gauss}
    (h : ∀ i ∈ is, m F i = .ok (f i)) : AllSeen m [(F, is)] [is.map f] := by
  refine .cons ?_ .nil
  rw [List.forall₂_map_right_iff, List.forall₂_same]
  exact h

theorem residuals_one {fm : FitModel} {is : List Img} (ho : fm.obs = [is]) (f : Img → List Gauss) :
    residuals fm [is.map f] = (pixelsOf is).map fun x => (gmixEvalFast (f x.1) x.2.v x.2.u x.2.area - x.2.val) * x.2.ierr := by
  unfold residuals pairs pixelsOf
  rw [ho]
  simp only [List.flatten_cons, List.flatten_nil, List.append_nil]
  clear ho
  induction is with
  | nil => rfl
  | cons i is ih =>
    rw [List.map_cons, List.zip_cons_cons, List.flatMap_cons, List.flatMap_cons, List.map_append, ih, List.map_map]
    rfl

theorem data_one (is : List Img) : weightedData [is] = (pixelsOf is).map fun x => x.2.val * x.2.ierr := by
  unfold weightedData pixelsOf
  rw [List.map_flatMap]
  simp only [List.flatten_cons, List.flatten_nil, List.append_nil, List.map_map]
  rfl

theorem totpix_one {fm : FitModel} {is : List Img} (ho : fm.obs = [is]) : fm.totpix = (pixelsOf is).length := by
  unfold FitModel.totpix pixelsOf
  rw [ho, List.length_flatMap]
  simp

/-- C121.  The fit of a coelliptical mixture against fits of single gaussians: the models add. -/
theorem C121_coellip (obs : List (List Img)) (guess gG : List ℝ) (fm fG : FitModel) (st sG : FMState) (row col g1 g2 : ℝ) (Ts Fs : List ℝ)
    (hl : Ts.length = Fs.length) (hn : Ts ≠ []) (h : newFitModel (.coellip Ts.length) none obs guess = .ok (fm, st))
    (hG : newFitModel (.std "gauss") none obs gG = .ok (fG, sG)) (c cG : List Call) :
    let pars := row :: col :: g1 :: g2 :: (Ts ++ Fs)
    let z := weightedData obs
    ((∃ D, IsModel fm pars D) ↔ ∀ tf ∈ Ts.zip Fs, ∃ A, IsModel fG [row, col, g1, g2, tf.1, tf.2] A) ∧
    ((∃ D, IsModel fm pars D) → ∃ (r : List ℝ) (xs : List (List ℝ)),
      (calcFdiff fm (runCalls fm st c) pars).2 = .ok (r.map Fl.fin) ∧ r.length = fm.totpix ∧
      List.Forall₂ (fun tf x => (calcFdiff fG (runCalls fG sG cG) [row, col, g1, g2, tf.1, tf.2]).2 = .ok (x.map Fl.fin) ∧
        x.length = fm.totpix) (Ts.zip Fs) xs ∧
      ∀ k < fm.totpix, r.getD k 0 + z.getD k 0 = (xs.map fun x => x.getD k 0 + z.getD k 0).sum) := by
  intro pars z
  obtain ⟨k1, -, o1, ⟨i, is, r, ho, d1⟩, ⟨npp, hnp⟩, n1, -⟩ := new_shape h
  obtain ⟨k2, -, o2, ⟨i2, is2, r2, ho2, d2⟩, -, n2, -⟩ := new_shape hG
  rw [ho] at ho2
  cases ho2
  have hone : obs.length = 1 := by
    simp only [FMKind.nPriorPars] at hnp
    split_ifs at hnp with h1
    simpa using h1
  have hr : r = [] := by
    rw [ho] at hone
    simpa using hone
  subst hr
  subst ho
  generalize hI : i :: is = I at *
  have cG' : CanFit (.std "gauss") := by simp [CanFit]
  have n1' : pars.length = guess.length := by
    rw [npars_guessLength (.coellip Ts.length) trivial _ (by simp), Except.ok.injEq] at n1
    rw [← n1]
    simp only [pars, guessLength, List.length_cons, List.length_append]; omega
  have n2' : ∀ T F : ℝ, [row, col, g1, g2, T, F].length = gG.length := by
    intro T F
    rw [npars_guessLength _ cG' _ (by simp), Except.ok.injEq] at n2
    rw [← n2]
    simp [guessLength]
  have M1 := fun D => isModel_all (fm := fm) (pars := pars) (Fs := [0]) (P := fun _ => pars) (by rw [o1]; rfl)
    (by rw [k1]; intro b F _; rfl) D
  have M2 := fun T F D => isModel_all (fm := fG) (pars := [row, col, g1, g2, T, F]) (Fs := [F]) (P := fun F => [row, col, g1, g2, T, F])
    (by rw [o2]; rfl) (by
      rw [k2]
      intro b F' hF
      show (takeBand 5 _ b).map _ = _
      rw [show takeBand 5 [row, col, g1, g2, T, F] b = _ from takeBand_cons [row, col, g1, g2, T] [F] b F' hF]
      rfl) D
  rw [k1, d1, o1] at M1
  rw [k2, d2, o2] at M2
  simp only [List.zip_cons_cons, List.zip_nil_left] at M1 M2
  set P := i.hasPsfGmix
  have hiff : (∃ D, IsModel fm pars D) ↔ ∀ tf ∈ Ts.zip Fs, ∃ A, IsModel fG [row, col, g1, g2, tf.1, tf.2] A := by
    simp only [M1, M2, allSeen_exists, List.mem_singleton, forall_eq]
    constructor
    · intro H tf htf j hj
      obtain ⟨d, hd⟩ := H j hj
      obtain ⟨ds, hds, -⟩ := (coellip_model P j row col g1 g2 Ts Fs hl).1 d hd
      exact (exists_forall2 _ _).1 ⟨ds, hds⟩ tf htf
    · intro H j hj
      exact (coellip_model P j row col g1 g2 Ts Fs hl).2 hn fun tf htf => H tf htf j hj
  refine ⟨hiff, fun H => ?_⟩
  obtain ⟨f, hf⟩ : ∃ f : ℝ × ℝ → Img → List Gauss, ∀ tf ∈ Ts.zip Fs, ∀ j ∈ I,
      modelFor (.std "gauss") P [row, col, g1, g2, tf.1, tf.2] j = .ok (f tf j) := by
    have H' := hiff.1 H
    simp only [M2, allSeen_exists, List.mem_singleton, forall_eq] at H'
    choose! f hf using H'
    exact ⟨f, hf⟩
  have hd : ∀ j ∈ I, modelFor (.coellip Ts.length) P pars j = .ok ((Ts.zip Fs).map fun tf => f tf j).flatten := by
    intro j hj
    obtain ⟨d, hd⟩ := (coellip_model P j row col g1 g2 Ts Fs hl).2 hn fun tf htf => ⟨_, hf tf htf j hj⟩
    obtain ⟨ds, hds, rfl⟩ := (coellip_model P j row col g1 g2 Ts Fs hl).1 d hd
    rw [hd]
    congr 2
    clear hd
    have hmem : ∀ tf ∈ Ts.zip Fs, modelFor (.std "gauss") P [row, col, g1, g2, tf.1, tf.2] j = .ok (f tf j) := fun tf htf => hf tf htf j hj
    generalize Ts.zip Fs = L at hds hmem
    induction hds with
    | nil => rfl
    | cons h1 _ ih =>
      rw [List.forall_mem_cons] at hmem
      rw [hmem.1] at h1
      cases h1
      rw [List.map_cons, ih hmem.2]
  have hX := (M1 _).2 (allSeen_one hd)
  refine ⟨residuals fm _, (Ts.zip Fs).map fun tf => residuals fG [I.map (f tf)],
    (C41_no_prior _ _ guess fm st h c pars n1' _ hX).2, residuals_totpix hX, ?_, ?_⟩
  · rw [List.forall₂_map_right_iff, List.forall₂_same]
    intro tf htf
    have hA := (M2 tf.1 tf.2 _).2 (allSeen_one fun j hj => hf tf htf j hj)
    refine ⟨(C41_no_prior _ _ gG fG sG hG cG _ (n2' _ _) _ hA).2, ?_⟩
    rw [residuals_totpix hA, FitModel.totpix, FitModel.totpix, o1, o2]
  · intro k hk
    rw [totpix_one o1] at hk
    simp only [z, hI, data_one, residuals_one o1, residuals_one o2, List.map_map, Function.comp_def]
    have hg : ∀ g : Img × Pixel → ℝ, ((pixelsOf I).map g).getD k 0 = g (pixelsOf I)[k] := by
      intro g
      rw [List.getD_eq_getElem?_getD, List.getElem?_map, List.getElem?_eq_getElem hk]
      rfl
    simp only [hg]
    generalize (pixelsOf I)[k] = x
    rw [evals_flatten, List.map_map]
    simp only [Function.comp_def, sub_mul, sub_add_cancel]
    rw [List.sum_map_mul_right]

/-! ### Cases -/

theorem ex_setup (kind : FMKind) (hk : CanFit kind) (a : List Pixel) (guess : List ℝ) (npp : ℕ) (hp : kind.nPriorPars none 1 = .ok npp)
    (hl : guess.length = guessLength kind 1) (hf : Feasible kind guess) :
    ∃ fm st, newFitModel kind none [[⟨a, .ok exPsf⟩]] guess = .ok (fm, st) ∧
      (∀ pars, pars.length = guess.length → Feasible kind pars → SizesNonneg kind pars → ∃ D, IsModel fm pars D) := by
  have hx : Flux exPsf.data ≠ 0 := by simp [exPsf, Flux, gauss2dSet]
  obtain ⟨st, h⟩ := ((C92_setup kind hk none ⟨a, .ok exPsf⟩ [] [] guess npp hp hl).2.2 hf ⟨_, rfl⟩).1 (by simp [psfRefusal, hx])
  refine ⟨_, st, h, fun pars hpl hfe hs => (C92_in_range kind hk none _ _ _ _ h pars hpl).2 hfe hs ?_⟩
  intro i hi
  simp only [List.flatten_cons, List.flatten_nil, List.append_nil, List.mem_singleton] at hi
  subst hi
  exact ⟨_, rfl, hx, by simp [exPsf, GoodPsf, gauss2dSet]; norm_num⟩

theorem half_norm : 0 < sizeNorm 0.5 1 := by
  obtain ⟨k, hk, h0⟩ := (C23_tfactor 0.5 1).1 (by norm_num) (by norm_num) one_pos
  have := (C23_tfactor 0.5 1).2.1 k hk
  rw [← cmTsum_sizeNorm]
  by_contra h
  nlinarith

/-- A galaxy of which half the light is in the bulge, in any image with a gaussian psf. -/
example (a : List Pixel) : ∃ fm st fE sE fD sD, newFitModel (.std "bdf") none [[⟨a, .ok exPsf⟩]] [0, 0, 0.1, 0.2, 4, 0.5, 1] = .ok (fm, st) ∧
    newFitModel (.std "exp") none [[⟨a, .ok exPsf⟩]] [0, 0, 0.1, 0.2, 4, 1] = .ok (fE, sE) ∧
    newFitModel (.std "dev") none [[⟨a, .ok exPsf⟩]] [0, 0, 0.1, 0.2, 4, 1] = .ok (fD, sD) ∧ sizeNorm 0.5 1 ≠ 0 ∧
    ∃ D, IsModel fm [3, -2, 0.3, 0.2, 5, 0.5, 7] D := by
  have hb : ∀ r c g1 g2 T F : ℝ, g1 ^ 2 + g2 ^ 2 < 1 → Feasible (.std "bdf") [r, c, g1, g2, T, 0.5, F] := fun r c g1 g2 T F h =>
    ⟨_, _, _, _, _, rfl, by simpa [InDisk] using h, by simp, fun _ => ⟨_, _, _, rfl, half_norm.ne'⟩⟩
  obtain ⟨fm, st, h1, h2⟩ := ex_setup (.std "bdf") (by simp [CanFit]) a [0, 0, 0.1, 0.2, 4, 0.5, 1] 0 rfl rfl (hb _ _ _ _ _ _ (by norm_num))
  obtain ⟨fE, sE, h3, -⟩ := ex_setup (.std "exp") (by simp [CanFit]) a [0, 0, 0.1, 0.2, 4, 1] 0 rfl rfl
    ⟨_, _, _, _, _, rfl, by norm_num [InDisk], by simp, by simp⟩
  obtain ⟨fD, sD, h4, -⟩ := ex_setup (.std "dev") (by simp [CanFit]) a [0, 0, 0.1, 0.2, 4, 1] 0 rfl rfl
    ⟨_, _, _, _, _, rfl, by norm_num [InDisk], by simp, by simp⟩
  refine ⟨fm, st, fE, sE, fD, sD, h1, h3, h4, half_norm.ne', h2 _ rfl (hb _ _ _ _ _ _ (by norm_num)) ⟨?_, by simp, ?_⟩⟩
  · simp
  · intro _ fd hfd
    simp only [List.getElem?_cons_succ, List.getElem?_cons_zero, Option.some.injEq] at hfd
    rw [← hfd]
    exact half_norm.le

/-- Two gaussians of one shape. -/
example (a : List Pixel) : ∃ fm st fG sG, newFitModel (.coellip ([4, 9] : List ℝ).length) none [[⟨a, .ok exPsf⟩]] [0, 0, 0.1, 0.2, 1, 2, 1, 1] = .ok (fm, st) ∧
    newFitModel (.std "gauss") none [[⟨a, .ok exPsf⟩]] [0, 0, 0.1, 0.2, 4, 1] = .ok (fG, sG) ∧
    ∃ D, IsModel fm (1 :: 2 :: 0.1 :: -0.3 :: ([4, 9] ++ [70, 30])) D := by
  obtain ⟨fm, st, h1, h2⟩ := ex_setup (.coellip 2) trivial a [0, 0, 0.1, 0.2, 1, 2, 1, 1] 0 rfl rfl
    ⟨_, _, _, _, _, rfl, by norm_num [InDisk], by simp, by simp⟩
  obtain ⟨fG, sG, h3, -⟩ := ex_setup (.std "gauss") (by simp [CanFit]) a [0, 0, 0.1, 0.2, 4, 1] 0 rfl rfl
    ⟨_, _, _, _, _, rfl, by norm_num [InDisk], by simp, by simp⟩
  refine ⟨fm, st, fG, sG, h1, h3, h2 _ rfl ⟨_, _, _, _, _, rfl, by norm_num [InDisk], by simp, by simp⟩ ?_⟩
  simp [SizesNonneg]

end

end Ngmix.Props
