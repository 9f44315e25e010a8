import Verif.Spec.PSFFlux
import Verif.Props.GMixCopy
import Verif.Proof.ExceptLemmas
import Mathlib.Tactic

/-! # Template flux fits: sums and passes -/

namespace Ngmix.Proof.PSFFlux

open Ngmix Ngmix.Spec Ngmix.Props

noncomputable section

theorem foldl_fin (l : List ℝ) : ∀ a : ℝ, (l.map Fl.fin).foldl (fun a b => a + b) (.fin a) = .fin (a + l.sum) := by
  induction l with
  | nil => intro a; simp
  | cons x l ih => intro a; simp only [List.map_cons, List.foldl_cons, Fl.fin_add, ih, List.sum_cons, add_assoc]

theorem flSum_fin (l : List ℝ) : flSum (l.map Fl.fin) = .fin l.sum := by
  rw [flSum, foldl_fin, zero_add]

/-- the template image is linear in the flux -/
def Linear (md : PFModel) (coords : List Coord) (m : List ℝ) : Prop :=
  ∃ md', pfModel1 md coords = .ok (md', m.map Fl.fin) ∧
    ∀ f : ℝ, pfModel2 md' coords (.fin f) = .ok (m.map fun x => .fin (x * f))

theorem prod3 (m im wt : List ℝ) : flProd (flProd (m.map Fl.fin) (im.map Fl.fin)) (wt.map Fl.fin) =
    ((m.zip (im.zip wt)).map fun p => p.2.2 * (p.1 * p.2.1)).map Fl.fin := by
  induction m generalizing im wt with
  | nil => simp [flProd]
  | cons a m ih =>
    cases im with
    | nil => simp [flProd]
    | cons b im =>
      cases wt with
      | nil => simp [flProd]
      | cons c wt =>
        have := ih im wt
        simp only [flProd] at this
        simp only [flProd, List.map_cons, List.zipWith_cons_cons, List.zip_cons_cons, this, Fl.fin_mul]
        congr 2
        ring

theorem prodsq (m im wt : List ℝ) (h : m.length = im.length) :
    flProd (flProd (m.map Fl.fin) (m.map Fl.fin)) (wt.map Fl.fin) =
    ((m.zip (im.zip wt)).map fun p => p.2.2 * p.1 ^ 2).map Fl.fin := by
  induction m generalizing im wt with
  | nil => simp [flProd]
  | cons a m ih =>
    cases im with
    | nil => simp at h
    | cons b im =>
      cases wt with
      | nil => simp [flProd]
      | cons c wt =>
        have := ih im wt (by simpa using h)
        simp only [flProd] at this
        simp only [flProd, List.map_cons, List.zipWith_cons_cons, List.zip_cons_cons, this, Fl.fin_mul]
        congr 2
        ring

theorem prodchi (m im wt : List ℝ) (f : ℝ) :
    flProd ((List.zipWith (fun x y => x - y) (m.map fun x => Fl.fin (x * f)) (im.map Fl.fin)).map Fl.sq)
      (wt.map Fl.fin) =
    ((m.zip (im.zip wt)).map fun p => p.2.2 * (f * p.1 - p.2.1) ^ 2).map Fl.fin := by
  induction m generalizing im wt with
  | nil => simp [flProd]
  | cons a m ih =>
    cases im with
    | nil => simp [flProd]
    | cons b im =>
      cases wt with
      | nil => simp [flProd]
      | cons c wt =>
        have := ih im wt
        simp only [flProd] at this
        simp only [flProd, List.map_cons, List.zipWith_cons_cons, List.zip_cons_cons, this, Fl.fin_mul,
          Fl.fin_sub, Fl.fin_sq]
        congr 2
        ring

/-- what the passes need to know of one observation -/
def Good (om : PFObs × PFModel) (m : List ℝ) : Prop :=
  Linear om.2 om.1.coords m ∧ m.length = om.1.image.length

theorem pixelsOf_cons (o : PFObs) (os : List PFObs) (m : List ℝ) (ms : List (List ℝ)) :
    pixelsOf (o :: os) (m :: ms) = m.zip (o.image.zip o.weight) ++ pixelsOf os ms := by
  simp [pixelsOf]

theorem passes (l : List (PFObs × PFModel)) (ms : List (List ℝ)) (h : List.Forall₂ Good l ms) :
    ∀ x m : ℝ, ∃ l', pfPass1 l (.fin x) (.fin m) =
      .ok (l', .fin (x + tCorr (pixelsOf (l.map Prod.fst) ms)), .fin (m + tPower (pixelsOf (l.map Prod.fst) ms))) ∧
      ∀ f c : ℝ, pfPass2 (.fin f) l' (.fin c) = .ok (.fin (c + tChi2 (pixelsOf (l.map Prod.fst) ms) f)) := by
  induction h with
  | nil =>
    intro x m
    exact ⟨[], by simp [pfPass1, pixelsOf, tCorr, tPower], fun f c => by simp [pfPass2, pixelsOf, tChi2]⟩
  | @cons om m l ms hg _ ih =>
    intro x q
    obtain ⟨o, md⟩ := om
    obtain ⟨⟨md', h1, h2⟩, hl⟩ := hg
    simp only at h1 h2 hl
    obtain ⟨l', e1, e2⟩ := ih (x + ((m.zip (o.image.zip o.weight)).map fun p => p.2.2 * (p.1 * p.2.1)).sum)
      (q + ((m.zip (o.image.zip o.weight)).map fun p => p.2.2 * p.1 ^ 2).sum)
    refine ⟨(o, md') :: l', ?_, ?_⟩
    · simp only [pfPass1, h1, Except.bind, List.length_map]
      rw [if_neg (not_not.mpr hl)]
      rw [prod3, prodsq m o.image o.weight hl, flSum_fin, flSum_fin, Fl.fin_add, Fl.fin_add, e1]
      simp only [Except.map, List.map_cons, pixelsOf_cons, tCorr, tPower, List.map_append, List.sum_append,
        add_assoc]
    · intro f c
      simp only [pfPass2, h2, Except.bind, pfChi2]
      rw [prodchi, flSum_fin, Fl.fin_add, e2]
      simp only [List.map_cons, pixelsOf_cons, tChi2, List.map_append, List.sum_append, add_assoc]

theorem npos_eq (obs : List PFObs) (ms : List (List ℝ))
    (h : List.Forall₂ (fun o (m : List ℝ) => m.length = o.image.length ∧ o.weight.length = o.image.length) obs ms) :
    pfNpix obs = nPositive (pixelsOf obs ms) := by
  classical
  induction h with
  | nil => simp [pfNpix, nPositive, pixelsOf]
  | @cons o m obs ms hl _ ih =>
    have hz : ∀ (w y m : List ℝ), m.length = y.length → w.length = y.length →
        (w.filter fun w => decide (0 < w)).length =
        ((m.zip (y.zip w)).filter fun p => decide (0 < p.2.2)).length := by
      intro w
      induction w with
      | nil => intro y m _ _; simp
      | cons a w ih =>
        intro y m h1 h2
        cases y with
        | nil => simp at h2
        | cons b y =>
          cases m with
          | nil => simp at h1
          | cons c m =>
            simp only [List.length_cons, Nat.add_right_cancel_iff] at h1 h2
            simp only [List.zip_cons_cons, List.filter_cons]
            split_ifs <;> simp [ih y m h1 h2]
    rw [pixelsOf_cons]
    simp only [pfNpix, nPositive, List.map_cons, List.sum_cons, List.filter_append, List.length_append] at ih ⊢
    rw [← ih]
    congr 1
    convert hz o.weight o.image m hl.1 hl.2

theorem pfDof_eq (obs : List PFObs) (ms : List (List ℝ))
    (h : List.Forall₂ (fun o (m : List ℝ) => m.length = o.image.length ∧ o.weight.length = o.image.length) obs ms) :
    pfDof obs = tDof (pixelsOf obs ms) := by
  rw [pfDof, tDof, ← npos_eq obs ms h]
  by_cases hn : pfNpix obs ≤ 1
  · rw [if_pos hn, if_pos (by omega)]
  · rw [if_neg hn, if_neg (by omega)]

theorem tDof_pos (px : List (ℝ × ℝ × ℝ)) : 0 < tDof px := by
  rw [tDof]
  split_ifs with h
  · norm_num
  · have : (1 : ℝ) < nPositive px := by exact_mod_cast not_le.mp h
    linarith

theorem finish (obs : List PFObs) (px : List (ℝ × ℝ × ℝ)) (hd : pfDof obs = tDof px) (totpix : ℕ)
    (x m : ℝ) (hm : m = tPower px) (hx : x = tCorr px) (chi2 : ℝ → ℝ) (hc : chi2 = tChi2 px) :
    (m = 0 → Outcome px totpix (pfFinish obs totpix (.fin pfPDEF) (.fin 0) (.fin m))) ∧
    (m ≠ 0 → Outcome px totpix (pfFinish obs totpix (.fin (x / m)) (.fin (chi2 (x / m))) (.fin m))) := by
  have hp := tDof_pos px
  subst hm hx hc
  constructor
  · intro h0
    refine ⟨?_, fun _ => ?_, fun hne => absurd h0 hne⟩
    · simp [pfFinish, h0, hd]
    · simp only [pfFinish, hd, hp, if_true, h0, Fl.isZero_fin, true_or, Fl.fin_div _ _ hp.ne', zero_div]
      simp
  · intro h0
    refine ⟨?_, fun hc => absurd hc h0, fun _ => ⟨tCorr px / tPower px, ?_, by field_simp, ?_, ?_, ?_, ?_⟩⟩
    · simp only [pfFinish, hd]; split_ifs <;> rfl
    · simp only [pfFinish]; split_ifs <;> rfl
    · simp only [pfFinish, hd, hp, if_true, Fl.fin_div _ _ hp.ne']; split_ifs <;> rfl
    · intro ht
      simp [pfFinish, hd, hp, ht]
    · intro ht harg
      have ht' : (totpix : ℝ) - 1 ≠ 0 := by
        rw [sub_ne_zero]; exact_mod_cast ht
      simp only [pfFinish, hd, hp, if_true, Fl.isZero_fin, h0, ht, or_self, if_false, Fl.fin_div _ _ h0,
        Fl.fin_div _ _ ht', Fl.pos_fin]
      rw [if_pos (by rcases harg.eq_or_lt with h | h; exacts [.inl h.symm, .inr h])]
      exact ⟨rfl, by simp [Fl.sqrt, not_lt.mpr harg]⟩
    · intro ht harg
      have ht' : (totpix : ℝ) - 1 ≠ 0 := by
        rw [sub_ne_zero]; exact_mod_cast ht
      simp only [pfFinish, hd, hp, if_true, Fl.isZero_fin, h0, ht, or_self, if_false, Fl.fin_div _ _ h0,
        Fl.fin_div _ _ ht', Fl.pos_fin]
      rw [if_neg (by rintro (h | h) <;> linarith)]
      exact ⟨by simp, rfl⟩

theorem go_outcome (f : PFFit) (ms : List (List ℝ)) (h : List.Forall₂ Good f.obs ms)
    (hw : ∀ om ∈ f.obs, om.1.weight.length = om.1.image.length) :
    ∃ r, pfGo f = .ok r ∧ Outcome (pixelsOf (f.obs.map Prod.fst) ms) f.totpix r := by
  obtain ⟨l', e1, e2⟩ := passes f.obs ms h 0 0
  have hd : pfDof (f.obs.map Prod.fst) = tDof (pixelsOf (f.obs.map Prod.fst) ms) := by
    apply pfDof_eq
    clear e1 e2
    rw [List.forall₂_map_left_iff]
    refine List.forall₂_iff_get.mpr ⟨h.length_eq, fun i h1 h2 => ⟨?_, hw _ (List.getElem_mem h1)⟩⟩
    exact ((List.forall₂_iff_get.mp h).2 i h1 h2).2
  obtain ⟨f1, f2⟩ := finish (f.obs.map Prod.fst) _ hd f.totpix _ _ rfl rfl _ rfl
  simp only [pfGo, e1, Except.bind, zero_add, Fl.isZero_fin]
  by_cases h0 : tPower (pixelsOf (f.obs.map Prod.fst) ms) = 0
  · rw [if_pos h0]
    exact ⟨_, rfl, f1 h0⟩
  · rw [if_neg h0, Fl.fin_div _ _ h0, e2]
    simp only [Except.map, zero_add]
    exact ⟨_, rfl, f2 h0⟩

/-- Templates with nonzero sum are linear. -/
theorem linear_tmpl (t : List ℝ) (norm : ℝ) (coords : List Coord) (hn : norm = t.sum) (h0 : norm ≠ 0) :
    Linear (.tmpl (t.map Fl.fin) (.fin norm)) coords t := by
  refine ⟨_, rfl, fun f => ?_⟩
  simp only [pfModel2, flSum_fin, ← hn, Fl.fin_mul, Fl.fin_div _ _ h0, List.map_map]
  congr 1
  refine List.map_congr_left fun x _ => ?_
  simp only [Function.comp_apply, Fl.fin_mul]
  congr 2
  field_simp

/-! ## Rendered mixtures -/

theorem render_loop (val : Coord → Option ℝ) (coords : List Coord) : ∀ pre : List (Option ℝ),
    (coords.foldl (fun (st : ℕ × List (Option ℝ)) c =>
        (st.1 + 1, st.2.modify st.1 fun x => x.bind fun a => (val c).map fun b => a + b))
        (pre.length, pre ++ coords.map fun _ => some 0)).2 = pre ++ coords.map val := by
  induction coords with
  | nil => intro pre; simp
  | cons c coords ih =>
    intro pre
    simp only [List.foldl_cons, List.map_cons]
    have e : (pre ++ some 0 :: coords.map fun _ => some (0 : ℝ)).modify pre.length
        (fun x => x.bind fun a => (val c).map fun b => a + b) =
        (pre ++ [val c]) ++ coords.map fun _ => some 0 := by
      have hm : ∀ (p : List (Option ℝ)) (x : Option ℝ) (r : List (Option ℝ)) (F : Option ℝ → Option ℝ),
          (p ++ x :: r).modify p.length F = p ++ F x :: r := by
        intro p x r F
        induction p with
        | nil => simp
        | cons a p ih => simpa using ih
      rw [hm]
      simp
    have := ih (pre ++ [val c])
    rw [List.length_append, List.length_singleton] at this
    rw [e, this, List.append_assoc, List.singleton_append]

theorem render_eq (gm gm' : List Gauss) (h : setNormsIfNeeded gm = (gm', .ok ())) (coords : List Coord) :
    render gm coords (coords.map fun _ => some 0) false =
      (gm', .ok (coords.map fun c => gmixEval gm' c.v c.u c.area)) := by
  simp only [render, h, Bool.false_eq_true, if_false]
  have := render_loop (fun c => gmixEval gm' c.v c.u c.area) coords []
  simp only [List.nil_append, List.length_nil] at this
  rw [this]

theorem gaussEval_kern (g : Gauss) (h : NormsCurrent g) (c : Coord) :
    gaussEval g c.v c.u c.area = some (g.p * kern g c) := by
  obtain ⟨d, hd, hD, h1, h2, h3, h4, h5⟩ := h
  simp only [gaussEval, hd, Option.map_some, gaussChi2, h1, h2, h3, h5, kern]
  congr 1
  have : g.icc / (g.irr * g.icc - g.irc * g.irc) * (c.v - g.row) * (c.v - g.row) +
      g.irr / (g.irr * g.icc - g.irc * g.irc) * (c.u - g.col) * (c.u - g.col) -
      2 * (g.irc / (g.irr * g.icc - g.irc * g.irc)) * (c.v - g.row) * (c.u - g.col) =
      (g.icc * (c.v - g.row) ^ 2 + g.irr * (c.u - g.col) ^ 2 -
      2 * g.irc * (c.v - g.row) * (c.u - g.col)) / (g.irr * g.icc - g.irc * g.irc) := by ring
  rw [this]
  ring

theorem gmixEval_kern (gm : List Gauss) (h : ∀ g ∈ gm, NormsCurrent g) (c : Coord) :
    gmixEval gm c.v c.u c.area = some (gm.map fun g => g.p * kern g c).sum := by
  have key : ∀ (gm : List Gauss), (∀ g ∈ gm, NormsCurrent g) → ∀ a : ℝ,
      gm.foldl (fun acc g => acc.bind fun a => (gaussEval g c.v c.u c.area).map fun b => a + b) (some a) =
      some (a + (gm.map fun g => g.p * kern g c).sum) := by
    intro gm
    induction gm with
    | nil => intro _ a; simp
    | cons g gm ih =>
      intro hg a
      simp only [List.foldl_cons, Option.bind_some, gaussEval_kern g (hg g List.mem_cons_self) c, Option.map_some,
        ih (fun x hx => hg x (List.mem_cons_of_mem _ hx)), List.map_cons, List.sum_cons, add_assoc]
  rw [gmixEval, key gm h, zero_add]

/-- ready to be rendered, see `Settled` -/
def Sound (gm : List Gauss) : Prop := Settled gm

/-- Either rendering is refused, or the gaussians are the same and their norms current. -/
theorem norms_sound (gm : List Gauss) (h : Sound gm) :
    (∃ gm' e, setNormsIfNeeded gm = (gm', .error e) ∧ ¬ (∀ g ∈ gm, Usable g)) ∨
    ∃ gm', setNormsIfNeeded gm = (gm', .ok ()) ∧ List.Forall₂ SameGauss gm gm' ∧ Sound gm' ∧
      (∀ g ∈ gm', NormsCurrent g) ∧ ∀ g ∈ gm, Usable g := by
  have hrefl : ∀ l : List Gauss, List.Forall₂ SameGauss l l := fun l =>
    List.forall₂_same.mpr fun g _ => ⟨rfl, rfl, rfl, rfl, rfl, rfl⟩
  cases gm with
  | nil => exact .inr ⟨[], rfl, .nil, h, by simp, by simp⟩
  | cons g gs =>
    obtain ⟨hd, hn⟩ := h
    by_cases h0 : g.normSet = true
    · right
      rcases hn with hn | hn
      · have := hn g List.mem_cons_self
        rw [h0] at this; simp at this
      · exact ⟨g :: gs, by simp [setNormsIfNeeded, h0], hrefl _, ⟨hd, .inr hn⟩, fun x hx => (hn x hx).2.1,
          fun x hx => (hn x hx).2.2⟩
    · have e : setNormsIfNeeded (g :: gs) = gmixSetNorms (g :: gs) := by
        simp only [setNormsIfNeeded, h0, if_false, Bool.false_eq_true]
      rw [e]
      by_cases hu : ∀ x ∈ g :: gs, Usable x
      · right
        obtain ⟨h1, h2⟩ := (Props.C20_set_norms _ hd).1 hu
        have hmem : ∀ x ∈ (gmixSetNorms (g :: gs)).1, DetCurrent x ∧ NormsCurrent x ∧ x.normSet = true ∧
            Usable x := by
          intro x hx
          obtain ⟨i, hi, rfl⟩ := List.getElem_of_mem hx
          have hl := h2.length_eq
          obtain ⟨k1, k2, k3, k4⟩ := (List.forall₂_iff_get.mp h2).2 i (by omega) hi
          refine ⟨k2, k3, k4, ?_⟩
          have := hu _ (List.getElem_mem (l := g :: gs) (n := i) (by omega))
          obtain ⟨-, -, -, e1, e2, e3⟩ := k1
          simp only [List.get_eq_getElem] at e1 e2 e3
          simpa only [Usable, e1, e2, e3] using this
        refine ⟨(gmixSetNorms (g :: gs)).1, by rw [← h1], h2.imp fun a b h => h.1, ⟨fun x hx => (hmem x hx).1,
          .inr fun x hx => ⟨(hmem x hx).2.2.1, (hmem x hx).2.1, (hmem x hx).2.2.2⟩⟩, fun x hx => (hmem x hx).2.1,
          hu⟩
      · left
        rcases hr : (gmixSetNorms (g :: gs)).2 with e | u
        · exact ⟨_, e, by rw [← hr], hu⟩
        · exact absurd (Props.setNorms_ok_usable _ hd hr) hu

theorem same_kern {a b : Gauss} (h : SameGauss a b) (c : Coord) : kern b c = kern a c := by
  obtain ⟨-, h1, h2, h3, h4, h5⟩ := h
  simp only [kern, h1, h2, h3, h4, h5]

theorem imageOf_same {a b : List Gauss} (h : List.Forall₂ SameGauss a b) (coords : List Coord) :
    imageOf b coords = imageOf a coords := by
  refine List.map_congr_left fun c _ => ?_
  induction h with
  | nil => rfl
  | cons hg _ ih =>
    rw [List.map_cons, List.map_cons, List.sum_cons, List.sum_cons, ih, same_kern hg, hg.1]

theorem pfRender_sound (o : GMixObj) (h : Sound o.data) (coords : List Coord) :
    (¬ (∀ g ∈ o.data, Usable g) ∧ ∃ e, pfRender o coords = .error e) ∨
    (∀ g ∈ o.data, Usable g) ∧ ∃ d, pfRender o coords =
      .ok ({ o with data := d }, (imageOf o.data coords).map Fl.fin) ∧
      List.Forall₂ SameGauss o.data d ∧ Sound d := by
  rcases norms_sound o.data h with ⟨gm', e, hs, hu⟩ | ⟨gm', hs, hsame, hsound, hcur, hu⟩
  · exact .inl ⟨hu, e, by simp [pfRender, render, hs]⟩
  · refine .inr ⟨hu, gm', ?_, hsame, hsound⟩
    simp only [pfRender, render_eq _ _ hs]
    rw [← imageOf_same hsame, imageOf, List.map_map, List.map_map]
    congr 2
    refine List.map_congr_left fun c _ => ?_
    simp only [Function.comp_apply, gmixEval_kern gm' hcur c, flOfOption]

/-- `b` has the gaussians of `a`, fluxes multiplied by `k` -/
def Propor (k : ℝ) (a b : Gauss) : Prop :=
  b.p = k * a.p ∧ b.row = a.row ∧ b.col = a.col ∧ b.irr = a.irr ∧ b.irc = a.irc ∧ b.icc = a.icc

theorem prop_psum {k : ℝ} {a b : List Gauss} (h : List.Forall₂ (Propor k) a b) : psum b = k * psum a := by
  induction h with
  | nil => simp [psum]
  | cons hg _ ih =>
    simp only [psum, List.map_cons, List.sum_cons] at ih ⊢
    rw [ih, hg.1]
    ring

theorem prop_image {k : ℝ} {a b : List Gauss} (h : List.Forall₂ (Propor k) a b) (coords : List Coord) :
    imageOf b coords = (imageOf a coords).map fun x => x * k := by
  rw [imageOf, imageOf, List.map_map]
  refine List.map_congr_left fun c _ => ?_
  simp only [Function.comp_apply]
  induction h with
  | nil => simp
  | @cons x y _ _ hg _ ih =>
    obtain ⟨h1, h2, h3, h4, h5, h6⟩ := hg
    have hk : kern y c = kern x c := by simp only [kern, h2, h3, h4, h5, h6]
    rw [List.map_cons, List.map_cons, List.sum_cons, List.sum_cons, ih, hk, h1]
    ring

theorem forall₂_mem_right {α β : Type} {R : α → β → Prop} {a : List α} {b : List β} (h : List.Forall₂ R a b) :
    ∀ y ∈ b, ∃ x ∈ a, R x y := by
  induction h with
  | nil => simp
  | cons hg _ ih =>
    intro y hy
    rcases List.mem_cons.mp hy with rfl | hy
    · exact ⟨_, List.mem_cons_self, hg⟩
    · obtain ⟨x, hx, hr⟩ := ih y hy
      exact ⟨x, List.mem_cons_of_mem _ hx, hr⟩

/-- Setting the flux of a copy `k` times as bright and rendering gives the image times the flux. -/
theorem render_setFlux (c c2 : GMixObj) (k f norm : ℝ) (hk : k ≠ 0) (hp : List.Forall₂ (Propor k) c.data c2.data)
    (hu : ∀ g ∈ c.data, Usable g) (hd : ∀ g ∈ c2.data, DetCurrent g) (hn : norm = psum c.data) (h0 : norm ≠ 0)
    (coords : List Coord) :
    pfRenderFlux c2 (.fin f * .fin norm) coords = .ok ((imageOf c.data coords).map fun x => Fl.fin (x * f)) := by
  have hs : psum c2.data = k * norm := by rw [prop_psum hp, hn]
  have hs0 : psum c2.data ≠ 0 := by rw [hs]; exact mul_ne_zero hk h0
  set D := c2.data.map fun g => { g with p := g.p * (f * norm / psum c2.data), normSet := false } with hD
  have e : pfSetFlux c2 (.fin f * .fin norm) = some { c2 with data := D } := by
    simp only [pfSetFlux, Fl.fin_mul, setFluxObj, setFlux, if_neg hs0, Option.map_some, hD]
  have hprop : List.Forall₂ (Propor f) c.data D := by
    rw [hD, List.forall₂_map_right_iff]
    refine hp.imp ?_
    rintro a b ⟨h1, h2⟩
    refine ⟨?_, h2⟩
    simp only [h1, hs]
    field_simp
  have hsound : Sound D := by
    refine ⟨?_, .inl ?_⟩
    · intro g hg
      rw [hD, List.mem_map] at hg
      obtain ⟨x, hx, rfl⟩ := hg
      exact hd x hx
    · intro g hg
      rw [hD, List.mem_map] at hg
      obtain ⟨x, hx, rfl⟩ := hg
      rfl
  have huD : ∀ g ∈ D, Usable g := by
    intro g hg
    obtain ⟨x, hx, -, -, -, e1, e2, e3⟩ := forall₂_mem_right hprop g hg
    have := hu x hx
    simpa only [Usable, e1, e2, e3] using this
  unfold pfRenderFlux
  rw [e]
  rcases pfRender_sound { c2 with data := D } hsound coords with ⟨hno, -⟩ | ⟨-, d, hr, -⟩
  · exact absurd huD hno
  · simp only
    rw [hr, prop_image hprop, List.map_map]
    rfl

/-- A mixture whose copies are the mixture. -/
def Copies (c : GMixObj) : Prop := Sound c.data ∧ (c.kind = .full ∨ c.kind ≠ .full ∧ copyGMix c = .ok c)

theorem copy_data (c : GMixObj) (h : c.kind = .full ∨ c.kind ≠ .full ∧ copyGMix c = .ok c) (d : List Gauss) :
    ∃ c2, copyGMix { c with data := d } = .ok c2 ∧
      (c.kind = .full ∧ c2.data = d ∨ c.kind ≠ .full ∧ c2 = c) := by
  rcases h with h | ⟨h, hc⟩
  · exact ⟨{ resetObj .full (6 * c.ngauss) c.ngauss with data := d }, by simp [copyGMix, h], .inl ⟨h, rfl⟩⟩
  · refine ⟨c, ?_, .inr ⟨h, rfl⟩⟩
    rw [← hc]
    unfold copyGMix
    cases hkk : c.kind with
    | full => exact absurd hkk h
    | model n => rfl
    | cm a b k => rfl
    | coellip => rfl

/-- Mixtures are linear in the flux, with and without normalisation. -/
theorem linear_gm (c c1 : GMixObj) (hc : Copies c) (norm : ℝ) (h0 : norm ≠ 0) (coords : List Coord)
    (hcase : c1 = c ∨ setFluxObj c 1 = some c1) (hn : norm = psum c1.data) (hu : ∀ g ∈ c.data, Usable g) :
    Linear (.gm c1 (.fin norm)) coords (imageOf c1.data coords) := by
  obtain ⟨hs, hcopy⟩ := hc
  obtain ⟨k, hk, d1, e1, hp, hs1⟩ : ∃ (k : ℝ) (_ : k ≠ 0) (d1 : List Gauss), c1 = { c with data := d1 } ∧
      List.Forall₂ (Propor k) d1 c.data ∧ Sound d1 := by
    rcases hcase with rfl | hcase
    · exact ⟨1, one_ne_zero, c1.data, rfl, List.forall₂_same.mpr fun g _ => ⟨by ring, rfl, rfl, rfl, rfl, rfl⟩, hs⟩
    · rw [setFluxObj, Option.map_eq_some_iff] at hcase
      obtain ⟨d1, hd1, rfl⟩ := hcase
      have h1 : psum c.data ≠ 0 := by
        intro hz
        simp [setFlux, hz] at hd1
      rw [setFlux, if_neg h1] at hd1
      simp only [Option.some.injEq] at hd1
      refine ⟨psum c.data, h1, d1, rfl, ?_, ?_⟩
      · rw [← hd1, List.forall₂_map_left_iff]
        refine List.forall₂_same.mpr fun g _ => ⟨?_, rfl, rfl, rfl, rfl, rfl⟩
        simp only
        field_simp
      · rw [← hd1]
        refine ⟨?_, .inl ?_⟩
        · intro g hg
          rw [List.mem_map] at hg
          obtain ⟨x, hx, rfl⟩ := hg
          exact hs.1 x hx
        · intro g hg
          rw [List.mem_map] at hg
          obtain ⟨x, hx, rfl⟩ := hg
          rfl
  subst e1
  simp only at hn ⊢
  have hu1 : ∀ g ∈ d1, Usable g := by
    intro g hg
    obtain ⟨i, hi, rfl⟩ := List.getElem_of_mem hg
    have hl := hp.length_eq
    obtain ⟨-, -, -, e1, e2, e3⟩ := (List.forall₂_iff_get.mp hp).2 i hi (by omega)
    have := hu _ (List.getElem_mem (l := c.data) (n := i) (by omega))
    simp only [List.get_eq_getElem] at e1 e2 e3
    simpa only [Usable, e1, e2, e3] using this
  rcases pfRender_sound { c with data := d1 } hs1 coords with ⟨hno, -⟩ | ⟨-, d, hr, hsame, hsd⟩
  · exact absurd hu1 hno
  · simp only at hr hsame
    refine ⟨.gm { c with data := d } (.fin norm), by simp [pfModel1, hr, Except.map], fun f => ?_⟩
    obtain ⟨c2, hc2, hcase2⟩ := copy_data c hcopy d
    simp only [pfModel2, hc2, Except.bind]
    have fin : ∀ k' : ℝ, k' ≠ 0 → List.Forall₂ (Propor k') d1 c2.data → (∀ g ∈ c2.data, DetCurrent g) →
        pfRenderFlux c2 (.fin f * .fin norm) coords = .ok ((imageOf d1 coords).map fun x => Fl.fin (x * f)) := by
      intro k' hk' hp' hd'
      exact render_setFlux { c with data := d1 } c2 k' f norm hk' hp' hu1 hd' hn h0 coords
    rcases hcase2 with ⟨-, h2⟩ | ⟨-, h2⟩
    · refine fin 1 one_ne_zero ?_ (by rw [h2]; exact hsd.1)
      rw [h2]
      refine hsame.imp fun a b h => ?_
      obtain ⟨h1, h2, h3, h4, h5, h6⟩ := h
      exact ⟨by rw [h1]; ring, h2.symm, h3.symm, h4.symm, h5.symm, h6.symm⟩
    · subst h2
      exact fin k hk hp hs.1

/-! ## Built mixtures are in order -/

theorem fillFunc_fresh (k : GKind) (pars : List ℝ) (d : List Gauss) (h : fillFunc k pars = .ok d) :
    ∀ g ∈ d, DetCurrent g ∧ g.normSet = false := by
  have hco : ∀ p row col T e1 e2, DetCurrent (coGauss p row col T e1 e2) ∧
      (coGauss p row col T e1 e2).normSet = false := fun _ _ _ _ _ _ => ⟨rfl, rfl⟩
  have hcomp : ∀ row col e1 e2 T F fd Td, ∀ g ∈ fillComposite row col e1 e2 T F fd Td,
      DetCurrent g ∧ g.normSet = false := by
    intro row col e1 e2 T F fd Td g hg
    simp only [fillComposite, List.mem_map] at hg
    obtain ⟨i, -, rfl⟩ := hg
    exact hco _ _ _ _ _ _
  have hsimple : ∀ fv pv row col g1 g2 T F d, fillSimple fv pv row col g1 g2 T F = .ok d →
      ∀ g ∈ d, DetCurrent g ∧ g.normSet = false := by
    intro fv pv row col g1 g2 T F d h
    obtain ⟨e, -, rfl⟩ := exMap_ok h
    intro g hg
    simp only [List.mem_map] at hg
    obtain ⟨i, -, rfl⟩ := hg
    exact hco _ _ _ _ _ _
  unfold fillFunc at h
  split at h
  · simp only [Except.ok.injEq] at h
    subst h
    exact fillFull_fresh _ _ (le_refl _)
  · obtain ⟨e, -, rfl⟩ := exMap_ok h
    intro g hg
    simp only [List.mem_map] at hg
    obtain ⟨i, -, rfl⟩ := hg
    exact hco _ _ _ _ _ _
  · exact hsimple _ _ _ _ _ _ _ _ _ h
  · exact hsimple _ _ _ _ _ _ _ _ _ h
  · exact hsimple _ _ _ _ _ _ _ _ _ h
  · exact hsimple _ _ _ _ _ _ _ _ _ h
  · obtain ⟨t, -, h⟩ := exBind_ok h
    obtain ⟨e, -, rfl⟩ := exMap_ok h
    exact hcomp _ _ _ _ _ _ _ _
  · obtain ⟨t, -, h⟩ := exBind_ok h
    obtain ⟨e, -, rfl⟩ := exMap_ok h
    exact hcomp _ _ _ _ _ _ _ _
  · obtain ⟨e, -, rfl⟩ := exMap_ok h
    exact hcomp _ _ _ _ _ _ _ _
  · simp at h
  · simp at h

theorem copies_model (o : GMixObj) (h : ModelReach o) : copyGMix o = .ok o ∧ Copies o := by
  obtain ⟨hk, hl, hf⟩ := reach_synced o h
  have hc := C24_copy o h
  have hfr := fillFunc_fresh _ _ _ hf
  refine ⟨hc, ⟨fun g hg => (hfr g hg).1, .inl fun g hg => (hfr g hg).2⟩, .inr ⟨?_, hc⟩⟩
  intro hfull
  unfold KindOK at hk
  rw [hfull] at hk
  exact hk

theorem copies_full (o : GMixObj) (hk : o.kind = .full) (h : Settled o.data) :
    ∃ c, copyGMix o = .ok c ∧ c.data = o.data ∧ Copies c :=
  ⟨{ resetObj .full (6 * o.ngauss) o.ngauss with data := o.data }, by simp [copyGMix, hk], rfl, h, .inl rfl⟩

/-! ## Values that are not finite -/

def NonFin (x : Fl) : Prop := ∀ y, x ≠ .fin y

theorem nonFin_add_left {a : Fl} (b : Fl) (h : NonFin a) : NonFin (a + b) := by
  intro y
  cases a with
  | fin x => exact absurd rfl (h x)
  | nan => cases b <;> simp
  | pinf => cases b <;> (change Fl.add _ _ ≠ _; simp [Fl.add])
  | ninf => cases b <;> (change Fl.add _ _ ≠ _; simp [Fl.add])

theorem nonFin_add_right (a : Fl) {b : Fl} (h : NonFin b) : NonFin (a + b) := by
  intro y
  cases b with
  | fin x => exact absurd rfl (h x)
  | nan => cases a <;> simp
  | pinf => cases a <;> (change Fl.add _ _ ≠ _; simp [Fl.add])
  | ninf => cases a <;> (change Fl.add _ _ ≠ _; simp [Fl.add])

theorem infOf_nonFin (x : ℝ) : NonFin (Fl.infOf x) := by
  intro y
  unfold Fl.infOf
  split_ifs <;> simp

theorem nonFin_mul_left {a : Fl} (b : Fl) (h : NonFin a) : NonFin (a * b) := by
  intro y
  cases a with
  | fin x => exact absurd rfl (h x)
  | nan => cases b <;> simp
  | pinf =>
    cases b with
    | fin z => exact infOf_nonFin z y
    | nan => simp
    | pinf => change Fl.mul _ _ ≠ _; simp [Fl.mul]
    | ninf => change Fl.mul _ _ ≠ _; simp [Fl.mul]
  | ninf =>
    cases b with
    | fin z => exact infOf_nonFin (-z) y
    | nan => simp
    | pinf => change Fl.mul _ _ ≠ _; simp [Fl.mul]
    | ninf => change Fl.mul _ _ ≠ _; simp [Fl.mul]

theorem nonFin_div {a b : Fl} (ha : NonFin a) (hb : NonFin b) : a / b = .nan := by
  cases a with
  | fin x => exact absurd rfl (ha x)
  | nan => cases b <;> rfl
  | pinf =>
    cases b with
    | fin x => exact absurd rfl (hb x)
    | nan => rfl
    | pinf => rfl
    | ninf => rfl
  | ninf =>
    cases b with
    | fin x => exact absurd rfl (hb x)
    | nan => rfl
    | pinf => rfl
    | ninf => rfl

theorem foldl_nonFin (l : List Fl) : ∀ a : Fl, (NonFin a ∨ ∃ x ∈ l, NonFin x) →
    NonFin (l.foldl (fun a b => a + b) a) := by
  induction l with
  | nil => rintro a (h | ⟨x, hx, -⟩); exacts [h, absurd hx (by simp)]
  | cons y l ih =>
    rintro a (h | ⟨x, hx, hn⟩)
    · exact ih _ (.inl (nonFin_add_left y h))
    · rcases List.mem_cons.mp hx with rfl | hx
      · exact ih _ (.inl (nonFin_add_right a hn))
      · exact ih _ (.inr ⟨x, hx, hn⟩)

theorem flSum_nonFin (l : List Fl) (h : ∃ x ∈ l, NonFin x) : NonFin (flSum l) := foldl_nonFin l _ (.inr h)

theorem foldl_nan (l : List Fl) : ∀ a : Fl, (a = .nan ∨ ∃ x ∈ l, x = .nan) →
    l.foldl (fun a b => a + b) a = .nan := by
  induction l with
  | nil => rintro a (h | ⟨x, hx, -⟩); exacts [h, absurd hx (by simp)]
  | cons y l ih =>
    rintro a (h | ⟨x, hx, hn⟩)
    · exact ih _ (.inl (by rw [h]; simp))
    · rcases List.mem_cons.mp hx with rfl | hx
      · exact ih _ (.inl (by rw [hn]; simp))
      · exact ih _ (.inr ⟨x, hx, hn⟩)

theorem prod_nonFin (m b w : List Fl) (hm : ∀ x ∈ m, NonFin x) (h1 : m.length = b.length) (h2 : w.length = b.length)
    (h0 : b ≠ []) : ∃ x ∈ flProd (flProd m b) w, NonFin x := by
  cases b with
  | nil => exact absurd rfl h0
  | cons y b =>
    cases m with
    | nil => simp at h1
    | cons x m =>
      cases w with
      | nil => simp at h2
      | cons z w =>
        exact ⟨x * y * z, by simp [flProd], nonFin_mul_left z (nonFin_mul_left y (hm x List.mem_cons_self))⟩

/-- A model with no finite pixel, whatever the flux. -/
def Bad (om : PFObs × PFModel) : Prop :=
  om.1.image ≠ [] ∧ om.1.weight.length = om.1.image.length ∧
    ((∃ g, om.2 = .gmNan g) ∨ ∃ t norm, om.2 = .tmpl t norm ∧ ∀ x ∈ t, NonFin x)

theorem renderNan_nan (g : GMixObj) (coords : List Coord) (img : List Fl) (h : pfRenderNan g coords = .ok img) :
    img.length = coords.length ∧ ∀ x ∈ img, x = .nan := by
  obtain ⟨_, -, rfl⟩ := exMap_ok h
  refine ⟨by simp, fun x hx => ?_⟩
  simp only [List.mem_map] at hx
  obtain ⟨_, -, rfl⟩ := hx
  rfl

theorem bad_model1 (om : PFObs × PFModel) (h : Bad om) (md : PFModel) (img : List Fl)
    (h1 : pfModel1 om.2 om.1.coords = .ok (md, img)) : md = om.2 ∧ (∀ x ∈ img, NonFin x) ∧
      ∀ img2, pfModel2 om.2 om.1.coords .nan = .ok img2 → img2.length = img.length ∧ ∀ x ∈ img2, x = .nan := by
  obtain ⟨o, md0⟩ := om
  obtain ⟨-, -, ⟨norm, rfl⟩ | ⟨t, norm, rfl, ht⟩⟩ := h
  · simp only [pfModel1] at h1
    obtain ⟨im, him, hx⟩ := exMap_ok h1
    simp only [Prod.mk.injEq] at hx
    obtain ⟨rfl, rfl⟩ := hx
    obtain ⟨hl, hn⟩ := renderNan_nan _ _ _ him
    refine ⟨rfl, fun x hx => by rw [hn x hx]; intro y; simp, fun img2 h2 => ?_⟩
    simp only [pfModel2] at h2
    obtain ⟨c, -, h2⟩ := exBind_ok h2
    obtain ⟨hl2, hn2⟩ := renderNan_nan _ _ _ h2
    exact ⟨by rw [hl2, hl], hn2⟩
  · simp only [pfModel1, Except.ok.injEq, Prod.mk.injEq] at h1
    obtain ⟨rfl, rfl⟩ := h1
    refine ⟨rfl, ht, fun img2 h2 => ?_⟩
    simp only [pfModel2, Except.ok.injEq] at h2
    subst h2
    refine ⟨by simp, ?_⟩
    intro x hx
    simp only [List.mem_map] at hx
    obtain ⟨_, -, rfl⟩ := hx
    have : (norm * Fl.nan) / flSum t = .nan := by
      rw [Fl.mul_nan]
      cases flSum t <;> rfl
    rw [this, Fl.mul_nan]

theorem passes_bad (l : List (PFObs × PFModel)) : ∀ (x m : Fl) (l' : List (PFObs × PFModel)) (x' m' : Fl),
    pfPass1 l x m = .ok (l', x', m') →
    ((NonFin x ∧ NonFin m) ∨ ∃ om ∈ l, Bad om) → NonFin x' ∧ NonFin m' := by
  induction l with
  | nil =>
    intro x m l' x' m' h hb
    simp only [pfPass1, Except.ok.injEq, Prod.mk.injEq] at h
    obtain ⟨-, rfl, rfl⟩ := h
    rcases hb with hb | ⟨_, hx, -⟩
    exacts [hb, absurd hx (by simp)]
  | cons om l ih =>
    intro x m l' x' m' h hb
    obtain ⟨o, md⟩ := om
    simp only [pfPass1] at h
    rcases h1 : pfModel1 md o.coords with e | ⟨md', img⟩
    · simp [h1, Except.bind] at h
    · simp only [h1, Except.bind] at h
      split_ifs at h with hl
      rcases h2 : pfPass1 l (x + flSum (flProd (flProd img (o.image.map Fl.fin)) (o.weight.map Fl.fin)))
        (m + flSum (flProd (flProd img img) (o.weight.map Fl.fin))) with e | ⟨q1, q2, q3⟩
      · simp [h2, Except.map] at h
      · simp only [h2, Except.map, Except.ok.injEq, Prod.mk.injEq] at h
        obtain ⟨-, rfl, rfl⟩ := h
        refine ih _ _ _ _ _ h2 ?_
        rcases hb with ⟨hx, hm⟩ | ⟨om, hom, hbad⟩
        · exact .inl ⟨nonFin_add_left _ hx, nonFin_add_left _ hm⟩
        · rcases List.mem_cons.mp hom with rfl | hom
          · left
            obtain ⟨-, hn, -⟩ := bad_model1 _ hbad md' img h1
            have h0 := hbad.1
            have hw := hbad.2.1
            simp only at h0 hw
            have hl' : img.length = o.image.length := by simpa using hl
            refine ⟨nonFin_add_right _ (flSum_nonFin _ (prod_nonFin _ _ _ hn (by simpa using hl') (by simpa using hw)
              (by simpa using h0))), nonFin_add_right _ (flSum_nonFin _ (prod_nonFin _ _ _ hn rfl (by
                rw [List.length_map]; omega) ?_))⟩
            intro hc
            rw [hc] at hl'
            exact h0 (List.length_eq_zero_iff.mp hl'.symm)
          · exact .inr ⟨om, hom, hbad⟩

theorem pass1_obs (l : List (PFObs × PFModel)) : ∀ (x m : Fl) (l' : List (PFObs × PFModel)) (x' m' : Fl),
    pfPass1 l x m = .ok (l', x', m') → ∀ om ∈ l, Bad om → om ∈ l' ∧
      ∀ img2, pfModel2 om.2 om.1.coords .nan = .ok img2 → img2.length = om.1.image.length ∧ ∀ x ∈ img2, x = .nan := by
  induction l with
  | nil => intro x m l' x' m' _ om hom; simp at hom
  | cons om0 l ih =>
    intro x m l' x' m' h om hom hbad
    obtain ⟨o, md⟩ := om0
    simp only [pfPass1] at h
    rcases h1 : pfModel1 md o.coords with e | ⟨md', img⟩
    · simp [h1, Except.bind] at h
    · simp only [h1, Except.bind] at h
      split_ifs at h with hl
      rcases h2 : pfPass1 l (x + flSum (flProd (flProd img (o.image.map Fl.fin)) (o.weight.map Fl.fin)))
        (m + flSum (flProd (flProd img img) (o.weight.map Fl.fin))) with e | ⟨q1, q2, q3⟩
      · simp [h2, Except.map] at h
      · simp only [h2, Except.map, Except.ok.injEq, Prod.mk.injEq] at h
        obtain ⟨rfl, rfl, rfl⟩ := h
        rcases List.mem_cons.mp hom with rfl | hom
        · obtain ⟨rfl, -, k2⟩ := bad_model1 _ hbad md' img h1
          refine ⟨List.mem_cons_self, fun img2 e2 => ?_⟩
          obtain ⟨e3, e4⟩ := k2 img2 e2
          exact ⟨by rw [e3]; simpa using hl, e4⟩
        · obtain ⟨k1, k2⟩ := ih _ _ _ _ _ h2 om hom hbad
          exact ⟨List.mem_cons_of_mem _ k1, k2⟩

theorem pass2_nan (l : List (PFObs × PFModel)) : ∀ (c c' : Fl), pfPass2 .nan l c = .ok c' →
    (c = .nan ∨ ∃ om ∈ l, om.1.image ≠ [] ∧ om.1.weight.length = om.1.image.length ∧
      ∀ img2, pfModel2 om.2 om.1.coords .nan = .ok img2 → img2.length = om.1.image.length ∧
        ∀ x ∈ img2, x = .nan) → c' = .nan := by
  induction l with
  | nil =>
    intro c c' h hb
    simp only [pfPass2, Except.ok.injEq] at h
    subst h
    rcases hb with hb | ⟨_, hx, -⟩
    exacts [hb, absurd hx (by simp)]
  | cons om l ih =>
    intro c c' h hb
    obtain ⟨o, md⟩ := om
    simp only [pfPass2] at h
    rcases h1 : pfModel2 md o.coords .nan with e | img
    · simp [h1, Except.bind] at h
    · simp only [h1, Except.bind] at h
      refine ih _ _ h ?_
      rcases hb with hb | ⟨om, hom, h0, hw, e1⟩
      · left; rw [hb, Fl.nan_add]
      · rcases List.mem_cons.mp hom with rfl | hom
        · left
          obtain ⟨e2, e3⟩ := e1 img h1
          simp only at h0 hw e2
          have : pfChi2 img (o.image.map Fl.fin) (o.weight.map Fl.fin) = .nan := by
            cases him : o.image with
            | nil => exact absurd him h0
            | cons y ys =>
              cases hwt : o.weight with
              | nil => rw [him, hwt] at hw; simp at hw
              | cons z zs =>
                cases hi : img with
                | nil => rw [him, hi] at e2; simp at e2
                | cons a as =>
                  have ha : a = .nan := e3 a (by simp [hi])
                  subst ha
                  unfold pfChi2 flSum
                  refine foldl_nan _ _ (.inr ⟨.nan, ?_, rfl⟩)
                  simp only [flProd, List.map_cons, List.zipWith_cons_cons, List.mem_cons]
                  left
                  change Fl.nan = Fl.sq (Fl.add .nan _) * _
                  simp [Fl.add, Fl.sq]
          rw [this, Fl.add_nan]
        · exact .inr ⟨om, hom, h0, hw, e1⟩

/-- A fit with a bad model reports NaN and is flagged. -/
theorem go_bad (f : PFFit) (h : ∃ om ∈ f.obs, Bad om) (r : PFResult) (hr : pfGo f = .ok r) :
    r.flux = .nan ∧ r.chi2per = .nan ∧ (r.flags = Flags.BAD_VAR ∨ r.flags = Flags.DIV_ZERO) ∧
      r.fluxErr = .fin pfCDEF := by
  obtain ⟨om, hom, hbad⟩ := h
  unfold pfGo at hr
  rcases h1 : pfPass1 f.obs (.fin 0) (.fin 0) with e | ⟨l', x, m⟩
  · simp [h1, Except.bind] at hr
  · obtain ⟨hx, hm⟩ := passes_bad _ _ _ _ _ _ h1 (.inr ⟨om, hom, hbad⟩)
    have hz : ¬ m.isZero := by
      cases m with
      | fin y => exact absurd rfl (hm y)
      | nan => simp [Fl.isZero]
      | pinf => simp [Fl.isZero]
      | ninf => simp [Fl.isZero]
    simp only [h1, Except.bind, if_neg hz, nonFin_div hx hm] at hr
    rcases h2 : pfPass2 .nan l' (.fin 0) with e | c
    · simp [h2, Except.map] at hr
    · obtain ⟨k1, k2⟩ := pass1_obs _ _ _ _ _ _ h1 om hom hbad
      have hc := pass2_nan _ _ _ h2 (.inr ⟨om, k1, hbad.1, hbad.2.1, k2⟩)
      subst hc
      simp only [h2, Except.map, Except.ok.injEq] at hr
      subst hr
      have hdof : 0 < pfDof (f.obs.map Prod.fst) := by
        unfold pfDof
        split_ifs with h
        · norm_num
        · have : (1 : ℤ) < pfNpix (f.obs.map Prod.fst) := by omega
          have : (1 : ℝ) < pfNpix (f.obs.map Prod.fst) := by exact_mod_cast this
          linarith
      have hnd : ∀ x : Fl, Fl.nan / x = .nan := fun x => by cases x <;> rfl
      simp only [pfFinish, hdof, if_true, hnd, hz, false_or]
      by_cases ht : f.totpix = 1
      · rw [if_pos ht]; exact ⟨rfl, rfl, .inr (by simp), rfl⟩
      · rw [if_neg ht, if_neg (by rintro (h | h) <;> exact h)]
        exact ⟨rfl, rfl, .inl (by simp), rfl⟩

end

end Ngmix.Proof.PSFFlux
