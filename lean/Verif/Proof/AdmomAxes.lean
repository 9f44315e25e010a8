import Verif.Spec.AdmomAxes
import Verif.Proof.EMUnit
import Verif.Proof.FlScale
import Verif.Props.MomUnit

/-! Relation of the states of two measurements of adaptive moments in different axes and units. -/

namespace Ngmix.Proof.AdmomAxes

open Ngmix Ngmix.Spec Ngmix.Props Ngmix.Proof.EMUnit

noncomputable section

variable {k : ℝ} {M : SkyMap}

/-! ### The signs -/

theorem axes_cases (hM : M.Iso) (hA : M.Axes) :
    (M.b = 0 ∧ M.c = 0 ∧ M.a ^ 2 = 1 ∧ M.d ^ 2 = 1) ∨ (M.a = 0 ∧ M.d = 0 ∧ M.b ^ 2 = 1 ∧ M.c ^ 2 = 1) := by
  obtain ⟨h1, h2, -⟩ := hM
  rcases hA with ⟨hb, hc⟩ | ⟨ha, hd⟩
  · left; refine ⟨hb, hc, ?_, ?_⟩
    · rw [hb] at h1; linarith
    · rw [hc] at h2; linarith
  · right; refine ⟨ha, hd, ?_, ?_⟩
    · rw [ha] at h1; linarith
    · rw [hd] at h2; linarith

theorem sq_one {x : ℝ} (h : x ^ 2 = 1) : x = 1 ∨ x = -1 := by
  rcases mul_eq_zero.1 (show (x - 1) * (x + 1) = 0 by linarith [show (x - 1) * (x + 1) = x ^ 2 - 1 by ring]) with h | h
  · left; linarith
  · right; linarith

theorem sign1_sq (hM : M.Iso) (hA : M.Axes) : M.sign1 = 1 ∨ M.sign1 = -1 := by
  unfold SkyMap.sign1
  rcases axes_cases hM hA with ⟨h1, h2, h3, h4⟩ | ⟨h1, h2, h3, h4⟩
  · left; rw [h1, h3]; norm_num
  · right; rw [h1, h3]; norm_num

theorem sign2_sq (hM : M.Iso) (hA : M.Axes) : M.sign2 = 1 ∨ M.sign2 = -1 := by
  have : M.sign2 ^ 2 = 1 := by
    unfold SkyMap.sign2
    rcases axes_cases hM hA with ⟨h1, h2, h3, h4⟩ | ⟨h1, h2, h3, h4⟩
    · rw [h1, h2, zero_mul, add_zero, mul_pow, h3, h4, one_mul]
    · rw [h1, h2, zero_mul, zero_add, mul_pow, h3, h4, one_mul]
  exact sq_one this

/-! ### The sums -/

theorem axesSums_add (x y : Fin 7 → ℝ) (w : ℝ) :
    axesSums M (fun i => x i + w * y i) = fun i => axesSums M x i + w * axesSums M y i := by
  funext i
  fin_cases i <;> simp [axesSums] <;> ring

theorem axesSums_zero : axesSums M (fun _ => 0) = fun _ => 0 := by
  funext i
  fin_cases i <;> simp [axesSums]

/-- The records of the two measurements. -/
structure ResRel (k : ℝ) (M : SkyMap) (r r' : AMRes) : Prop where
  flags : r'.flags = r.flags
  numiter : r'.numiter = r.numiter
  npix : r'.npix = r.npix
  wsum : r'.wsum = r.wsum
  sums : ∀ i, r'.sums i = k * axesSums M r.sums i
  sumsCov : ∀ i j, r'.sumsCov i j = k ^ 2 * axesSums M (fun p => axesSums M (r.sumsCov p) j) i
  pars : AxesPars M r.pars r'.pars
  rho4 : r'.rho4 = r.rho4

theorem zero_res : ResRel k M AMRes.zero AMRes.zero :=
  ⟨rfl, rfl, rfl, rfl, fun i => by simp [AMRes.zero, axesSums_zero], fun i j => by simp [AMRes.zero, axesSums_zero],
    .inl ⟨rfl, .inr rfl⟩, rfl⟩

theorem clear_res {r r' : AMRes} (h : ResRel k M r r') : ResRel k M (amClear r) (amClear r') :=
  ⟨h.flags, h.numiter, rfl, rfl, fun i => by simp [amClear, axesSums_zero], fun i j => by simp [amClear, axesSums_zero],
    .inl ⟨rfl, .inl rfl⟩, rfl⟩

/-! ### The weight -/

/-- The weights, norms set. -/
def ReadyRel (M : SkyMap) (w w' : AMWt) : Prop := ConvRel 1 M w.g w'.g ∧ List.Forall₂ (ConvRel 1 M) w.rest w'.rest

/-- The weights. -/
def WtRel (M : SkyMap) (w w' : AMWt) : Prop := FreshRel 1 M w.g w'.g ∧ List.Forall₂ (FreshRel 1 M) w.rest w'.rest

theorem ready_wt {w w' : AMWt} (h : ReadyRel M w w') : WtRel M w w' :=
  ⟨⟨h.1.1, h.1.2.1.2, h.1.2.2.2⟩, h.2.imp fun _ _ h => ⟨h.1, h.2.1.2, h.2.2.2⟩⟩

theorem wt_eval (hM : M.Iso) {w w' : AMWt} (h : ReadyRel M w w') {px px' : Pixel} (hp : AxesPixel k M px px') :
    gmixEvalFast w'.list px'.v px'.u px'.area = gmixEvalFast w.list px.v px.u px.area := by
  have := evalSum_rel hM (List.Forall₂.cons h.1 h.2) (px := px) (px' := px') hp.1 hp.2.1
  simpa [AMWt.list] using this

theorem ready_norm (hM : M.Iso) {n n' : Gauss} (h : ConvRel 1 M n n') : amNorm n' = amNorm n := by
  obtain ⟨hb, ⟨⟨e, he, hD, b1, b2, b3, b4, b5⟩, -⟩, ⟨e', he', hD', b1', b2', b3', b4', b5'⟩, -⟩ := h
  have hdet := br_det hM hb
  simp only [amNorm, he, he', b4, b4', hdet]

theorem cen_step (hM : M.Iso) {w w' : AMWt} (h : ReadyRel M w w') {px px' : Pixel} (hp : AxesPixel k M px px')
    {r r' : AMRes} (hr : ResRel k M r r') : ResRel k M (cenStep w r px) (cenStep w' r' px') := by
  have key : ∀ (w : AMWt) (r : AMRes) (px : Pixel), (cenStep w r px).sums = fun i =>
      r.sums i + gmixEvalFast w.list px.v px.u px.area * px.val * ![px.v, px.u, 0, 0, 0, 1, 0] i := by
    intro w r px
    funext i
    fin_cases i <;> simp [cenStep]
  have hG : (![px'.v, px'.u, 0, 0, 0, 1, 0] : Fin 7 → ℝ) = axesSums M ![px.v, px.u, 0, 0, 0, 1, 0] := by
    have := hp.1
    simp only [SkyMap.point, Prod.mk.injEq] at this
    funext i
    fin_cases i <;> simp [axesSums, this.1, this.2]
  refine ⟨hr.flags, hr.numiter, by simp only [cenStep, hr.npix], hr.wsum, fun i => ?_, hr.sumsCov, hr.pars, hr.rho4⟩
  rw [key, key, axesSums_add, wt_eval hM h hp, hG, hp.2.2.1]
  simp only [hr.sums i]
  ring

theorem censums_rel (hM : M.Iso) {w w' : AMWt} (h : ReadyRel M w w') {pxs pxs' : List Pixel}
    (hp : List.Forall₂ (AxesPixel k M) pxs pxs') {r r' : AMRes} (hr : ResRel k M r r') :
    ResRel k M (amCensums w pxs r) (amCensums w' pxs' r') := by
  unfold amCensums
  induction hp generalizing r r' with
  | nil => exact hr
  | cons a _ ih => exact ih (cen_step hM h a hr)

theorem F_rel (hM : M.Iso) (hA : M.Axes) {n n' : Gauss} (h : ConvRel 1 M n n') {px px' : Pixel}
    (hp : AxesPixel k M px px') : amF n' px' = axesSums M (amF n px) := by
  have hchi : amChi2 n' (px'.v - n'.row) (px'.u - n'.col) = amChi2 n (px.v - n.row) (px.u - n.col) := by
    have := br_chi2 hM h hp.1
    obtain ⟨-, ⟨⟨e, he, -⟩, -⟩, ⟨e', he', -⟩, -⟩ := h
    simp only [emChi2, he, he', Fl.fin.injEq, gaussChi2] at this
    simp only [amChi2, he, he']
    norm_num at this ⊢
    exact this
  have hx := h.1.2.1
  have hv := hp.1
  simp only [SkyMap.point, Prod.mk.injEq] at hx hv
  have e1 : px'.v - n'.row = M.a * (px.v - n.row) + M.b * (px.u - n.col) := by rw [hv.1, hx.1]; ring
  have e2 : px'.u - n'.col = M.c * (px.v - n.row) + M.d * (px.u - n.col) := by rw [hv.2, hx.2]; ring
  have one : (1.0 : ℝ) = 1 := by norm_num
  unfold amF
  simp only [hchi, one]
  rw [e1, e2, hv.1, hv.2]
  generalize px.v - n.row = x
  generalize px.u - n.col = y
  generalize amChi2 n x y = z
  funext i
  rcases axes_cases hM hA with ⟨h1, h2, h3, h4⟩ | ⟨h1, h2, h3, h4⟩
  · rcases sq_one h3 with h3 | h3 <;> rcases sq_one h4 with h4 | h4 <;>
      fin_cases i <;> simp only [axesSums, SkyMap.sign1, SkyMap.sign2] <;> simp [h1, h2, h3, h4]
    all_goals ring
  · rcases sq_one h3 with h3 | h3 <;> rcases sq_one h4 with h4 | h4 <;>
      fin_cases i <;> simp only [axesSums, SkyMap.sign1, SkyMap.sign2] <;> simp [h1, h2, h3, h4]
    all_goals ring

theorem mom_step (hk : 0 < k) (hM : M.Iso) (hA : M.Axes) {w w' : AMWt} (h : ReadyRel M w w') {px px' : Pixel}
    (hp : AxesPixel k M px px') (hi : px.ierr * px.ierr ≠ 0) {r r' : AMRes} (hr : ResRel k M r r') :
    ResRel k M (momStep w r px) (momStep w' r' px') := by
  have hF := F_rel hM hA h.1 hp
  have hvar : 1.0 / (px'.ierr * px'.ierr) = k ^ 2 * (1.0 / (px.ierr * px.ierr)) := by
    rw [hp.2.2.2, div_mul_div_comm, div_div_eq_mul_div, pow_two, ← mul_div_assoc, mul_comm]
  refine ⟨hr.flags, hr.numiter, by simp only [momStep, hr.npix], by simp only [momStep, hr.wsum, wt_eval hM h hp],
    fun i => ?_, fun i j => ?_, hr.pars, hr.rho4⟩
  · simp only [momStep, axesSums_add, wt_eval hM h hp, hF, hp.2.2.1, hr.sums i]
    ring
  · simp only [momStep, wt_eval hM h hp, hF, hvar, hr.sumsCov i j]
    generalize gmixEvalFast w.list px.v px.u px.area = E
    generalize (1.0 : ℝ) / (px.ierr * px.ierr) = q
    generalize amF w.g px = F
    have e1 : ∀ p, axesSums M (fun j => r.sumsCov p j + E * E * q * F p * F j) =
        fun j => axesSums M (r.sumsCov p) j + E * E * q * F p * axesSums M F j := fun p =>
      axesSums_add (r.sumsCov p) F (E * E * q * F p)
    simp only [e1]
    have e2 : (fun p => axesSums M (r.sumsCov p) j + E * E * q * F p * axesSums M F j) =
        fun p => axesSums M (r.sumsCov p) j + (E * E * q * axesSums M F j) * F p := by funext p; ring
    rw [e2, axesSums_add]
    ring

theorem momsums_rel (hk : 0 < k) (hM : M.Iso) (hA : M.Axes) {w w' : AMWt} (h : ReadyRel M w w') {pxs pxs' : List Pixel}
    (hp : List.Forall₂ (AxesPixel k M) pxs pxs') {r r' : AMRes} (hr : ResRel k M r r') :
    SameOutcome (ResRel k M) (amMomsums w pxs r) (amMomsums w' pxs' r') := by
  induction hp generalizing r r' with
  | nil => exact hr
  | @cons px px' _ _ a _ ih =>
    unfold amMomsums
    have hz : px'.ierr * px'.ierr = 0 ↔ px.ierr * px.ierr = 0 := by
      rw [a.2.2.2]; simp [hk.ne']
    by_cases h0 : px.ierr * px.ierr = 0
    · rw [if_pos h0, if_pos (hz.2 h0)]; rfl
    · rw [if_neg h0, if_neg fun e => h0 (hz.1 e)]
      exact ih (mom_step hk hM hA h a h0 hr)

/-! ### New moments -/

/-- Covariances in the two systems. -/
def Cov3 (M : SkyMap) (x x' : ℝ × ℝ × ℝ) : Prop :=
  (M.b = 0 ∧ x'.1 = x.1 ∧ x'.2.2 = x.2.2 ∨ M.a = 0 ∧ x'.1 = x.2.2 ∧ x'.2.2 = x.1) ∧ x'.2.1 = M.sign2 * x.2.1

theorem cov3_of_moved (hM : M.Iso) (hA : M.Axes) {g g' : Gauss} (h : Brighter 1 M g g') :
    Cov3 M (g.irr, g.irc, g.icc) (g'.irr, g'.irc, g'.icc) := by
  obtain ⟨-, -, e1, e2, e3⟩ := h
  rcases axes_cases hM hA with ⟨h1, h2, h3, h4⟩ | ⟨h1, h2, h3, h4⟩
  · refine ⟨.inl ⟨h1, ?_, ?_⟩, ?_⟩
    · simp only [e1, h1, h3]; ring
    · simp only [e3, h2, h4]; ring
    · simp only [e2, h1, h2, SkyMap.sign2]; ring
  · refine ⟨.inr ⟨h1, ?_, ?_⟩, ?_⟩
    · simp only [e1, h1, h3]; ring
    · simp only [e3, h2, h4]; ring
    · simp only [e2, h1, h2, SkyMap.sign2]; ring

theorem moved_of_cov3 (hM : M.Iso) (hA : M.Axes) {p p' : ℝ} (hp : p' = 1 * p) {r c : ℝ} {r' c' : ℝ}
    (hx : (r', c') = M.point (r, c)) {x x' : ℝ × ℝ × ℝ} (h : Cov3 M x x') {g g' : Gauss}
    (hg : g.p = p ∧ g.row = r ∧ g.col = c ∧ g.irr = x.1 ∧ g.irc = x.2.1 ∧ g.icc = x.2.2)
    (hg' : g'.p = p' ∧ g'.row = r' ∧ g'.col = c' ∧ g'.irr = x'.1 ∧ g'.irc = x'.2.1 ∧ g'.icc = x'.2.2) :
    Brighter 1 M g g' := by
  obtain ⟨a1, a2, a3, a4, a5, a6⟩ := hg
  obtain ⟨b1, b2, b3, b4, b5, b6⟩ := hg'
  obtain ⟨h0, h5⟩ := h
  refine ⟨by rw [b1, hp, a1], by rw [b2, b3, hx, a2, a3], ?_, ?_, ?_⟩
  all_goals simp only [a4, a5, a6, b4, b5, b6, h5, SkyMap.sign2]
  all_goals
    rcases axes_cases hM hA with ⟨h1, h2, h3, h4⟩ | ⟨h1, h2, h3, h4⟩
    · rcases h0 with ⟨q1, q2, q3⟩ | ⟨q1, q2, q3⟩
      · simp only [h1, h2, h3, h4, q2, q3]; ring
      · rw [q1] at h3; norm_num at h3
    · rcases h0 with ⟨q1, q2, q3⟩ | ⟨q1, q2, q3⟩
      · rw [q1] at h3; norm_num at h3
      · simp only [h1, h2, h3, h4, q2, q3]; ring

theorem deweight_rel (hM : M.Iso) (hA : M.Axes) {g g' : Gauss} (h : FreshRel 1 M g g') {x x' : ℝ × ℝ × ℝ}
    (hx : Cov3 M x x') : (deweightMoments g' x'.1 x'.2.1 x'.2.2).2 = (deweightMoments g x.1 x.2.1 x.2.2).2 ∧
      FreshRel 1 M (deweightMoments g x.1 x.2.1 x.2.2).1 (deweightMoments g' x'.1 x'.2.1 x'.2.2).1 ∧
      (deweightMoments g x.1 x.2.1 x.2.2).1.d = g.d ∧ (deweightMoments g' x'.1 x'.2.1 x'.2.2).1.d = g'.d := by
  have hw := cov3_of_moved hM hA h.1
  have hs2 := sign2_sq hM hA
  have hs : M.sign2 * M.sign2 = 1 := by rcases hs2 with e | e <;> rw [e] <;> norm_num
  have hdm : x'.1 * x'.2.2 - x'.2.1 * x'.2.1 = x.1 * x.2.2 - x.2.1 * x.2.1 := by
    obtain ⟨⟨-, q2, q3⟩ | ⟨-, q2, q3⟩, q4⟩ := hx <;> rw [q2, q3, q4] <;> linear_combination (-x.2.1 * x.2.1) * hs
  have hdw : g'.irr * g'.icc - g'.irc * g'.irc = g.irr * g.icc - g.irc * g.irc := br_det hM h.1
  unfold deweightMoments
  simp only [hdm, hdw]
  generalize hDm : x.1 * x.2.2 - x.2.1 * x.2.1 = Dm at *
  generalize hDw : g.irr * g.icc - g.irc * g.irc = Dw at *
  by_cases c1 : Dm ≤ gmixLowDetval
  · simp only [if_pos c1]; exact ⟨trivial, h, trivial, trivial⟩
  simp only [if_neg c1]
  by_cases c2 : Dw ≤ gmixLowDetval
  · simp only [if_pos c2]; exact ⟨trivial, h, trivial, trivial⟩
  simp only [if_neg c2]
  generalize (1.0 : ℝ) / Dm = im
  generalize (1.0 : ℝ) / Dw = iw
  have hN : Cov3 M (x.2.2 * im - g.icc * iw, -(-x.2.1 * im + g.irc * iw), x.1 * im - g.irr * iw)
      (x'.2.2 * im - g'.icc * iw, -(-x'.2.1 * im + g'.irc * iw), x'.1 * im - g'.irr * iw) := by
    obtain ⟨q, q4⟩ := hx
    obtain ⟨p, p4⟩ := hw
    simp only at p p4
    refine ⟨?_, by simp only [q4, p4]; ring⟩
    rcases axes_cases hM hA with ⟨h1, h2, h3, h4⟩ | ⟨h1, h2, h3, h4⟩
    · rcases q with ⟨q1, q2, q3⟩ | ⟨q1, q2, q3⟩
      · rcases p with ⟨p1, p2, p3⟩ | ⟨p1, p2, p3⟩
        · exact .inl ⟨h1, by simp only [q3, p3], by simp only [q2, p2]⟩
        · rw [p1] at h3; norm_num at h3
      · rw [q1] at h3; norm_num at h3
    · rcases q with ⟨q1, q2, q3⟩ | ⟨q1, q2, q3⟩
      · rw [q1] at h3; norm_num at h3
      · rcases p with ⟨p1, p2, p3⟩ | ⟨p1, p2, p3⟩
        · rw [p1] at h3; norm_num at h3
        · exact .inr ⟨h1, by simp only [q3, p3], by simp only [q2, p2]⟩
  generalize hA1 : x.2.2 * im - g.icc * iw = A at *
  generalize hA2 : x.1 * im - g.irr * iw = C at *
  generalize hA3 : -x.2.1 * im + g.irc * iw = B at *
  generalize hB1 : x'.2.2 * im - g'.icc * iw = A' at *
  generalize hB2 : x'.1 * im - g'.irr * iw = C' at *
  generalize hB3 : -x'.2.1 * im + g'.irc * iw = B' at *
  have hdn : A' * C' - B' * B' = A * C - B * B := by
    obtain ⟨⟨-, q2, q3⟩ | ⟨-, q2, q3⟩, q4⟩ := hN <;> simp only at q2 q3 q4
    all_goals
      have q5 : B' = M.sign2 * B := by linarith
      rw [q2, q3, q5]
      linear_combination (-B * B) * hs
  rw [hdn]
  generalize A * C - B * B = Dn
  by_cases c3 : Dn ≤ gmixLowDetval
  · simp only [if_pos c3]; exact ⟨trivial, h, trivial, trivial⟩
  simp only [if_neg c3]
  refine ⟨trivial, ⟨?_, rfl, rfl⟩, trivial, trivial⟩
  refine moved_of_cov3 hM hA (p := g.p) (p' := g'.p) h.1.1 h.1.2.1 (x := (C * (1 / Dn), -B * (1 / Dn), A * (1 / Dn)))
    (x' := (C' * (1 / Dn), -B' * (1 / Dn), A' * (1 / Dn))) ?_ ⟨rfl, rfl, rfl, rfl, rfl, rfl⟩ ⟨rfl, rfl, rfl, rfl, rfl, rfl⟩
  obtain ⟨q, q4⟩ := hN
  simp only at q q4
  refine ⟨?_, by simp only [q4]; ring⟩
  rcases q with ⟨q1, q2, q3⟩ | ⟨q1, q2, q3⟩
  · exact .inl ⟨q1, by simp only [q3], by simp only [q2]⟩
  · exact .inr ⟨q1, by simp only [q3], by simp only [q2]⟩

/-! ### One pass -/

/-- What a pass says about the next one. -/
def NextRel (M : SkyMap) : AMNext → AMNext → Prop
  | .brk, .brk => True
  | .next e1 e2 T, .next e1' e2' T' => e1' = M.sign1 * e1 ∧ e2' = M.sign2 * e2 ∧ T' = T
  | _, _ => False

/-- The shape and size of the pass before. -/
def OldRel (M : SkyMap) : Option (ℝ × ℝ × ℝ) → Option (ℝ × ℝ × ℝ) → Prop
  | none, none => True
  | some (e1, e2, T), some (e1', e2', T') => e1' = M.sign1 * e1 ∧ e2' = M.sign2 * e2 ∧ T' = T
  | _, _ => False

theorem abs_sign {s : ℝ} (h : s = 1 ∨ s = -1) (x y : ℝ) : |s * x - s * y| = |x - y| := by
  rw [← mul_sub, abs_mul]
  rcases h with h | h <;> rw [h] <;> norm_num

theorem close_iff (hM : M.Iso) (hA : M.Axes) (conf : AMConf) {old old' : Option (ℝ × ℝ × ℝ)} (ho : OldRel M old old')
    (e1 e2 T : ℝ) : amClose conf old' (M.sign1 * e1) (M.sign2 * e2) T ↔ amClose conf old e1 e2 T := by
  rcases old with _ | ⟨a, b, c⟩ <;> rcases old' with _ | ⟨a', b', c'⟩
  · exact Iff.rfl
  · exact ho.elim
  · exact ho.elim
  · obtain ⟨h1, h2, h3⟩ := ho
    simp only [amClose, h1, h2, h3, abs_sign (sign1_sq hM hA), abs_sign (sign2_sq hM hA)]

/-- Weight, record and continuation after a pass. -/
structure PassRel (k : ℝ) (M : SkyMap) (x x' : AMWt × AMRes × AMNext) : Prop where
  wt : WtRel M x.1 x'.1
  res : ResRel k M x.2.1 x'.2.1
  next : NextRel M x.2.2 x'.2.2
  norm : x.2.2 = .brk → x.2.1.flags = 0 → amNorm x'.1.g = amNorm x.1.g ∧ AxesSix (fun f => f) M x.2.1.pars x'.2.1.pars

theorem res_flags {r r' : AMRes} (h : ResRel k M r r') (fl : ℕ) : ResRel k M { r with flags := fl } { r' with flags := fl } :=
  ⟨rfl, h.numiter, h.npix, h.wsum, h.sums, h.sumsCov, h.pars, h.rho4⟩

/-- The signs of the seven sums; the first two are not used. -/
def sgn (M : SkyMap) (i : Fin 7) : ℝ := if i = 2 then M.sign1 else if i = 3 then M.sign2 else 1

theorem axesSums_sgn (x : Fin 7 → ℝ) {i : Fin 7} (h : 2 ≤ i.val) : axesSums M x i = sgn M i * x i := by
  fin_cases i
  · simp at h
  · simp at h
  all_goals simp [axesSums, sgn]

theorem sum_at {r r' : AMRes} (h : ResRel k M r r') {i : Fin 7} (hi : 2 ≤ i.val) : r'.sums i = k * (sgn M i * r.sums i) := by
  rw [h.sums, axesSums_sgn _ hi]

theorem cov3_moments (hM : M.Iso) (hA : M.Axes) (M1 M2 T : ℝ) :
    Cov3 M (0.5 * (T - M1), 0.5 * M2, 0.5 * (T + M1))
      (0.5 * (T - M.sign1 * M1), 0.5 * (M.sign2 * M2), 0.5 * (T + M.sign1 * M1)) := by
  generalize (0.5 : ℝ) = h
  refine ⟨?_, by simp only; ring⟩
  rcases axes_cases hM hA with ⟨h1, h2, h3, h4⟩ | ⟨h1, h2, h3, h4⟩
  · have : M.sign1 = 1 := by rw [SkyMap.sign1, h1, h3]; norm_num
    exact .inl ⟨h1, by simp only [this, one_mul], by simp only [this, one_mul]⟩
  · have : M.sign1 = -1 := by rw [SkyMap.sign1, h1, h3]; norm_num
    exact .inr ⟨h1, by simp only [this]; ring, by simp only [this]; ring⟩

theorem pars_close (hM : M.Iso) (hA : M.Axes) {g g' : Gauss} (h : Brighter 1 M g g') :
    AxesSix (fun f => f) M
      [.fin g.row, .fin g.col, .fin (g.icc - g.irr), .fin (2.0 * g.irc), .fin (g.icc + g.irr), .fin 1.0]
      [.fin g'.row, .fin g'.col, .fin (g'.icc - g'.irr), .fin (2.0 * g'.irc), .fin (g'.icc + g'.irr), .fin 1.0] := by
  refine ⟨g.row, g.col, g.icc - g.irr, 2.0 * g.irc, g.icc + g.irr, .fin 1.0, rfl, ?_⟩
  have hx := h.2.1
  obtain ⟨hc, hc2⟩ := cov3_of_moved hM hA h
  simp only at hc hc2 hx
  have e1 : g'.icc - g'.irr = M.sign1 * (g.icc - g.irr) := by
    rcases axes_cases hM hA with ⟨h1, h2, h3, h4⟩ | ⟨h1, h2, h3, h4⟩
    · have : M.sign1 = 1 := by rw [SkyMap.sign1, h1, h3]; norm_num
      rcases hc with ⟨-, q1, q2⟩ | ⟨q0, q1, q2⟩
      · rw [q1, q2, this]; ring
      · rw [q0] at h3; norm_num at h3
    · have : M.sign1 = -1 := by rw [SkyMap.sign1, h1, h3]; norm_num
      rcases hc with ⟨q0, q1, q2⟩ | ⟨-, q1, q2⟩
      · rw [q0] at h3; norm_num at h3
      · rw [q1, q2, this]; ring
  have e2 : g'.icc + g'.irr = g.icc + g.irr := by rw [add_comm, br_T hM h, add_comm]
  have e3 : 2.0 * g'.irc = M.sign2 * (2.0 * g.irc) := by rw [hc2, mul_left_comm]
  rw [← hx, e1, e2, e3]

theorem decide_rel (hk : 0 < k) (hM : M.Iso) (hA : M.Axes) (conf : AMConf) {w w' : AMWt} (h : ReadyRel M w w')
    {r r' : AMRes} (hr : ResRel k M r r') {old old' : Option (ℝ × ℝ × ℝ)} (ho : OldRel M old old') :
    PassRel k M (amDecide conf w r old) (amDecide conf w' r' old') := by
  have hw := ready_wt h
  have hn := ready_norm hM h.1
  have s5 : r'.sums 5 = k * r.sums 5 := by rw [sum_at hr (by simp)]; simp [sgn]
  have s2 : r'.sums 2 = k * (M.sign1 * r.sums 2) := by rw [sum_at hr (by simp)]; simp [sgn]
  have s3 : r'.sums 3 = k * (M.sign2 * r.sums 3) := by rw [sum_at hr (by simp)]; simp [sgn]
  have s4 : r'.sums 4 = k * r.sums 4 := by rw [sum_at hr (by simp)]; simp [sgn]
  have s6 : r'.sums 6 = k * r.sums 6 := by rw [sum_at hr (by simp)]; simp [sgn]
  have hp : r'.sums 5 ≤ 0 ↔ r.sums 5 ≤ 0 := by
    rw [s5]; exact ⟨fun h => by by_contra h'; nlinarith, fun h => mul_nonpos_of_nonneg_of_nonpos hk.le h⟩
  have hd : ∀ x, k * x * (1.0 / r'.sums 5) = x * (1.0 / r.sums 5) := by
    intro x; rw [s5, show (1.0:ℝ) = 1 by norm_num, mul_one_div, mul_one_div, mul_div_mul_left _ _ hk.ne']
  have q2 : r'.sums 2 * (1.0 / r'.sums 5) = M.sign1 * (r.sums 2 * (1.0 / r.sums 5)) := by rw [s2, hd, mul_assoc]
  have q3 : r'.sums 3 * (1.0 / r'.sums 5) = M.sign2 * (r.sums 3 * (1.0 / r.sums 5)) := by rw [s3, hd, mul_assoc]
  have q4 : r'.sums 4 * (1.0 / r'.sums 5) = r.sums 4 * (1.0 / r.sums 5) := by rw [s4, hd]
  have q6 : r'.sums 6 / r'.sums 5 = r.sums 6 / r.sums 5 := by rw [s5, s6, mul_div_mul_left _ _ hk.ne']
  unfold amDecide
  by_cases c1 : r.sums 5 ≤ 0
  · rw [if_pos c1, if_pos (hp.2 c1)]
    exact ⟨hw, res_flags hr _, trivial, fun _ h => absurd h (by change ¬ Flags.NONPOS_FLUX = 0; decide)⟩
  rw [if_neg c1, if_neg fun e => c1 (hp.1 e)]
  dsimp only
  rw [q2, q3, q4, q6]
  generalize r.sums 2 * (1.0 / r.sums 5) = M1
  generalize r.sums 3 * (1.0 / r.sums 5) = M2
  generalize r.sums 4 * (1.0 / r.sums 5) = T
  by_cases c2 : T ≤ 0
  · rw [if_pos c2, if_pos c2]
    exact ⟨hw, res_flags hr _, trivial, fun _ h => absurd h (by change ¬ Flags.NONPOS_SIZE = 0; decide)⟩
  rw [if_neg c2, if_neg c2]
  have E1 : (0.5 * (T + M.sign1 * M1) - 0.5 * (T - M.sign1 * M1)) / T = M.sign1 * ((0.5 * (T + M1) - 0.5 * (T - M1)) / T) := by
    rw [← mul_div_assoc]; congr 1; norm_num; ring
  have E2 : 2 * (0.5 * (M.sign2 * M2)) / T = M.sign2 * (2 * (0.5 * M2) / T) := by
    rw [← mul_div_assoc]; congr 1; ring
  rw [E1, E2]
  have hdw := deweight_rel hM hA hw.1 (cov3_moments hM hA M1 M2 T)
  simp only at hdw
  generalize (0.5 * (T + M1) - 0.5 * (T - M1)) / T = e1
  generalize 2 * (0.5 * M2) / T = e2
  have hc := close_iff hM hA conf ho e1 e2 T
  by_cases c3 : amClose conf old e1 e2 T
  · rw [if_pos c3, if_pos (hc.2 c3)]
    refine ⟨hw, ⟨hr.flags, hr.numiter, hr.npix, hr.wsum, hr.sums, hr.sumsCov, .inr ?_, rfl⟩, trivial, fun _ _ => ⟨hn, ?_⟩⟩ <;>
      exact pars_close hM hA hw.1.1
  rw [if_neg c3, if_neg fun e => c3 (hc.1 e)]
  by_cases c4 : conf.cenonly
  · rw [if_pos c4, if_pos c4]
    exact ⟨hw, hr, ⟨rfl, rfl, rfl⟩, fun h => by cases h⟩
  rw [if_neg c4, if_neg c4]
  obtain ⟨d1, d2, -⟩ := hdw
  rcases hx : deweightMoments w.g (0.5 * (T - M1)) (0.5 * M2) (0.5 * (T + M1)) with ⟨g1, fl⟩
  rcases hx' : deweightMoments w'.g (0.5 * (T - M.sign1 * M1)) (0.5 * (M.sign2 * M2)) (0.5 * (T + M.sign1 * M1)) with ⟨g1', fl'⟩
  rw [hx, hx'] at d1 d2
  simp only at d1 d2
  subst d1
  rcases fl' with _ | n
  · exact ⟨⟨d2, hw.2⟩, hr, ⟨rfl, rfl, rfl⟩, fun h => by cases h⟩
  · exact ⟨⟨d2, hw.2⟩, res_flags hr _, trivial, fun _ h => by cases h⟩

/-- Distances along the axes from the first position. -/
theorem shift_iff (hM : M.Iso) (hA : M.Axes) {x o x' o' : ℝ × ℝ} (hx : x' = M.point x) (ho : o' = M.point o) (t : ℝ) :
    (|x'.1 - o'.1| > t ∨ |x'.2 - o'.2| > t) ↔ (|x.1 - o.1| > t ∨ |x.2 - o.2| > t) := by
  have e1 : x'.1 - o'.1 = M.a * (x.1 - o.1) + M.b * (x.2 - o.2) := by rw [hx, ho]; simp only [SkyMap.point]; ring
  have e2 : x'.2 - o'.2 = M.c * (x.1 - o.1) + M.d * (x.2 - o.2) := by rw [hx, ho]; simp only [SkyMap.point]; ring
  have key : ∀ {s : ℝ}, s ^ 2 = 1 → ∀ y : ℝ, |s * y| = |y| := by
    intro s hs y
    rcases sq_one hs with h | h <;> rw [h] <;> simp
  rw [e1, e2]
  rcases axes_cases hM hA with ⟨h1, h2, h3, h4⟩ | ⟨h1, h2, h3, h4⟩
  · rw [h1, h2]; simp only [zero_mul, add_zero, zero_add, key h3, key h4]
  · rw [h1, h2]; simp only [zero_mul, add_zero, zero_add, key h3, key h4]; exact or_comm

/-- An outcome of a pass that may raise. -/
def StepRel (k : ℝ) (M : SkyMap) (x x' : AMWt × AMRes × Except PyErr AMNext) : Prop :=
  (∃ e, x.2.2 = .error e ∧ x'.2.2 = .error e ∧ WtRel M x.1 x'.1 ∧ ResRel k M x.2.1 x'.2.1) ∨
  ∃ n n', x.2.2 = .ok n ∧ x'.2.2 = .ok n' ∧ PassRel k M (x.1, x.2.1, n) (x'.1, x'.2.1, n')

theorem pass_rel (hk : 0 < k) (hM : M.Iso) (hA : M.Axes) (conf : AMConf) {o o' : ℝ × ℝ} (hoo : o' = M.point o)
    {pxs pxs' : List Pixel} (hp : List.Forall₂ (AxesPixel k M) pxs pxs') {w w' : AMWt} (h : ReadyRel M w w')
    {r r' : AMRes} (hr : ResRel k M r r') {old old' : Option (ℝ × ℝ × ℝ)} (ho : OldRel M old old') :
    StepRel k M (amPass conf o pxs w r old) (amPass conf o' pxs' w' r' old') := by
  have hc := censums_rel hM h hp (clear_res hr)
  have hw := ready_wt h
  unfold amPass
  dsimp only
  generalize amCensums w pxs (amClear r) = c at hc ⊢
  generalize amCensums w' pxs' (amClear r') = c' at hc ⊢
  have s5 : c'.sums 5 = k * c.sums 5 := by rw [sum_at hc (by simp)]; simp [sgn]
  have hp5 : c'.sums 5 ≤ 0 ↔ c.sums 5 ≤ 0 := by
    rw [s5]; exact ⟨fun h => by by_contra h'; nlinarith, fun h => mul_nonpos_of_nonneg_of_nonpos hk.le h⟩
  by_cases c1 : c.sums 5 ≤ 0
  · rw [if_pos c1, if_pos (hp5.2 c1)]
    exact .inr ⟨_, _, rfl, rfl, ⟨hw, res_flags hc _, trivial,
      fun _ h => absurd h (by change ¬ Flags.NONPOS_FLUX = 0; decide)⟩⟩
  rw [if_neg c1, if_neg fun e => c1 (hp5.1 e)]
  have hpos : c.sums 5 ≠ 0 := fun e => c1 e.le
  have hx : (c'.sums 0 / c'.sums 5, c'.sums 1 / c'.sums 5) = M.point (c.sums 0 / c.sums 5, c.sums 1 / c.sums 5) := by
    rw [hc.sums 0, hc.sums 1, s5, mul_div_mul_left _ _ hk.ne', mul_div_mul_left _ _ hk.ne']
    simp only [axesSums, SkyMap.point, Matrix.cons_val_zero, Matrix.cons_val_one]
    generalize c.sums 5 = f at hpos
    refine Prod.ext ?_ ?_ <;> simp only <;> field_simp
  have hR : ReadyRel M { w with g := { w.g with row := c.sums 0 / c.sums 5, col := c.sums 1 / c.sums 5 } }
      { w' with g := { w'.g with row := c'.sums 0 / c'.sums 5, col := c'.sums 1 / c'.sums 5 } } := by
    obtain ⟨⟨⟨b1, b2, b3, b4, b5⟩, n, n'⟩, hrest⟩ := h
    exact ⟨⟨⟨b1, hx, b3, b4, b5⟩, n, n'⟩, hrest⟩
  have hsh := shift_iff hM hA hx hoo conf.shiftmax
  simp only at hsh
  dsimp only at hR
  by_cases c2 : |c.sums 0 / c.sums 5 - o.1| > conf.shiftmax ∨ |c.sums 1 / c.sums 5 - o.2| > conf.shiftmax
  · rw [if_pos c2, if_pos (hsh.2 c2)]
    exact .inr ⟨_, _, rfl, rfl, ⟨ready_wt hR, res_flags hc _, trivial,
      fun _ h => absurd h (by change ¬ Flags.CEN_SHIFT = 0; decide)⟩⟩
  rw [if_neg c2, if_neg fun e => c2 (hsh.1 e)]
  generalize AMWt.mk _ w.rest = W at hR ⊢
  generalize AMWt.mk _ w'.rest = W' at hR ⊢
  have hm := momsums_rel hk hM hA hR hp (clear_res hc)
  rcases hx1 : amMomsums W pxs (amClear c) with e | r1 <;> rcases hx2 : amMomsums W' pxs' (amClear c') with e' | r1' <;>
    rw [hx1, hx2] at hm
  · cases hm
    exact .inl ⟨e, rfl, rfl, ready_wt hR, hc⟩
  · exact hm.elim
  · exact hm.elim
  · have hd := decide_rel hk hM hA conf hR hm ho
    exact .inr ⟨_, _, rfl, rfl, hd⟩

theorem fresh_det {g g' : Gauss} (hM : M.Iso) (h : FreshRel 1 M g g') : g'.det = g.det := by
  rw [h.2.1, h.2.2, br_det hM h.1]

theorem setNorm_left (g : Gauss) : SameGauss g (gauss2dSetNorm g).1 ∧ (DetCurrent g → DetCurrent (gauss2dSetNorm g).1) := by
  unfold gauss2dSetNorm
  split_ifs
  · exact ⟨⟨rfl, rfl, rfl, rfl, rfl, rfl⟩, id⟩
  · dsimp only
    split_ifs
    · exact ⟨⟨rfl, rfl, rfl, rfl, rfl, rfl⟩, id⟩
    · exact ⟨⟨rfl, rfl, rfl, rfl, rfl, rfl⟩, id⟩

theorem norms_left : ∀ (l : List Gauss), List.Forall₂ (fun g n => SameGauss g n ∧ (DetCurrent g → DetCurrent n)) l (gmixSetNorms l).1
  | [] => .nil
  | g :: gs => by
    have h := setNorm_left g
    unfold gmixSetNorms
    rcases hq : gauss2dSetNorm g with ⟨n, _ | _⟩
    · rw [hq] at h
      exact .cons h (List.forall₂_same.2 fun x _ => ⟨⟨rfl, rfl, rfl, rfl, rfl, rfl⟩, id⟩)
    · rw [hq] at h
      exact .cons h (norms_left gs)

theorem setNorms_left {w w' : AMWt} (h : WtRel M w w') : WtRel M (amSetNorms w).1 (amSetNorms w').1 := by
  have h1 := norms_left w.list
  have h2 := norms_left w'.list
  have key : ∀ {g g' n n' : Gauss}, FreshRel 1 M g g' → (SameGauss g n ∧ (DetCurrent g → DetCurrent n)) →
      (SameGauss g' n' ∧ (DetCurrent g' → DetCurrent n')) → FreshRel 1 M n n' := fun a b c =>
    ⟨br_same a.1 b.1 c.1, b.2 a.2.1, c.2 a.2.2⟩
  have tails : ∀ {a a' : List Gauss}, List.Forall₂ (FreshRel 1 M) a a' → ∀ {b b' : List Gauss},
      List.Forall₂ (fun g n => SameGauss g n ∧ (DetCurrent g → DetCurrent n)) a b →
      List.Forall₂ (fun g n => SameGauss g n ∧ (DetCurrent g → DetCurrent n)) a' b' → List.Forall₂ (FreshRel 1 M) b b' := by
    intro a a' ha
    induction ha with
    | nil => intro b b' hb hb'; cases hb; cases hb'; exact .nil
    | cons x _ ih =>
      intro b b' hb hb'
      rcases hb with _ | ⟨y, hb⟩
      rcases hb' with _ | ⟨z, hb'⟩
      exact .cons (key x y z) (ih hb hb')
  unfold amSetNorms
  rcases hq : gmixSetNorms w.list with ⟨l, q⟩
  rcases hq' : gmixSetNorms w'.list with ⟨l', q'⟩
  rw [hq] at h1
  rw [hq'] at h2
  rcases h1 with _ | ⟨y, hb⟩
  rcases h2 with _ | ⟨z, hb'⟩
  exact ⟨key h.1 y z, tails h.2 hb hb'⟩

theorem iter_rel (hk : 0 < k) (hM : M.Iso) (hA : M.Axes) (conf : AMConf) {o o' : ℝ × ℝ} (hoo : o' = M.point o)
    {pxs pxs' : List Pixel} (hp : List.Forall₂ (AxesPixel k M) pxs pxs') {w w' : AMWt} (h : WtRel M w w')
    {r r' : AMRes} (hr : ResRel k M r r') {old old' : Option (ℝ × ℝ × ℝ)} (ho : OldRel M old old') :
    StepRel k M (amIter conf o pxs w r old) (amIter conf o' pxs' w' r' old') := by
  unfold amIter
  by_cases c1 : w.g.det < gmixLowDetval
  · rw [if_pos c1, if_pos (by rw [fresh_det hM h.1]; exact c1)]
    exact .inr ⟨_, _, rfl, rfl, ⟨h, res_flags hr _, trivial,
      fun _ h => absurd h (by change ¬ Flags.LOW_DET = 0; decide)⟩⟩
  rw [if_neg c1, if_neg (by rw [fresh_det hM h.1]; exact c1)]
  have hn := norms_rel hM (List.Forall₂.cons h.1 h.2)
  have hleft := setNorms_left h
  unfold amSetNorms at hleft ⊢
  change (((gmixSetNorms w.list).2 = _ ∧ (gmixSetNorms w'.list).2 = _) ∨ ((gmixSetNorms w.list).2 = _ ∧
    (gmixSetNorms w'.list).2 = _ ∧ List.Forall₂ _ (gmixSetNorms w.list).1 (gmixSetNorms w'.list).1)) at hn
  rcases hq : gmixSetNorms w.list with ⟨l, q⟩
  rcases hq' : gmixSetNorms w'.list with ⟨l', q'⟩
  rw [hq, hq'] at hn
  rw [hq, hq'] at hleft
  simp only at hn
  rcases hn with ⟨e1, e2⟩ | ⟨e1, e2, hf⟩
  · subst e1 e2
    rcases l with _ | ⟨a, l⟩ <;> rcases l' with _ | ⟨a', l'⟩ <;>
      exact .inl ⟨.gmixRange, rfl, rfl, hleft, hr⟩
  · subst e1 e2
    rcases hf with _ | ⟨ha, hl⟩
    · exfalso
      have := congrArg (fun x => x.1.length) hq
      simp [AMWt.list, gmixSetNorms] at this
      split at this <;> simp at this
    · exact pass_rel hk hM hA conf hoo hp ⟨ha, hl⟩ hr ho

/-! ### The loop -/

/-- Weight, record and number of passes; `last` is the number at which the loop stops by itself. -/
def RunRel (k : ℝ) (M : SkyMap) (last : ℕ) (x x' : AMWt × AMRes × Except PyErr ℕ) : Prop :=
  WtRel M x.1 x'.1 ∧ ResRel k M x.2.1 x'.2.1 ∧
  ((∃ e, x.2.2 = .error e ∧ x'.2.2 = .error e) ∨
    ∃ n, x.2.2 = .ok n ∧ x'.2.2 = .ok n ∧ (n = last ∨ (x.2.1.flags = 0 → amNorm x'.1.g = amNorm x.1.g ∧
      AxesSix (fun f => f) M x.2.1.pars x'.2.1.pars)))

theorem loop_rel (hk : 0 < k) (hM : M.Iso) (hA : M.Axes) (conf : AMConf) {o o' : ℝ × ℝ} (hoo : o' = M.point o)
    {pxs pxs' : List Pixel} (hp : List.Forall₂ (AxesPixel k M) pxs pxs') : ∀ (n i : ℕ) {w w' : AMWt}, WtRel M w w' →
    ∀ {r r' : AMRes}, ResRel k M r r' → ∀ {old old' : Option (ℝ × ℝ × ℝ)}, OldRel M old old' →
    RunRel k M (i + n) (amLoop conf o pxs n i w r old) (amLoop conf o' pxs' n i w' r' old') := by
  intro n
  induction n with
  | zero => intro i w w' h r r' hr old old' _; exact ⟨h, hr, .inr ⟨i, rfl, rfl, .inl rfl⟩⟩
  | succ n ih =>
    intro i w w' h r r' hr old old' ho
    have hs := iter_rel hk hM hA conf hoo hp h hr ho
    unfold amLoop
    rcases hx : amIter conf o pxs w r old with ⟨v, s, q⟩
    rcases hx' : amIter conf o' pxs' w' r' old' with ⟨v', s', q'⟩
    rw [hx, hx'] at hs
    rcases hs with ⟨e, e1, e2, hw, hr1⟩ | ⟨m, m', e1, e2, hpr⟩
    · simp only at e1 e2
      subst e1 e2
      exact ⟨hw, hr1, .inl ⟨e, rfl, rfl⟩⟩
    · simp only at e1 e2
      subst e1 e2
      obtain ⟨p1, p2, p3, p4⟩ := hpr
      simp only at p1 p2 p3 p4
      rcases m with _ | ⟨a, b, c⟩ <;> rcases m' with _ | ⟨a', b', c'⟩
      · exact ⟨p1, p2, .inr ⟨i + 1, rfl, rfl, .inr (p4 rfl)⟩⟩
      · exact p3.elim
      · exact p3.elim
      · have := ih (i + 1) p1 p2 (old := some (a, b, c)) (old' := some (a', b', c')) p3
        rw [show i + 1 + n = i + (n + 1) by omega] at this
        exact this

/-- The run: weight, record and outcome. -/
def NbRel (k : ℝ) (M : SkyMap) (x x' : AMWt × AMRes × Except PyErr Unit) : Prop :=
  WtRel M x.1 x'.1 ∧ ResRel k M x.2.1 x'.2.1 ∧ x'.2.2 = x.2.2 ∧
    (x.2.2 = .ok () → x.2.1.flags = 0 → amNorm x'.1.g = amNorm x.1.g ∧ AxesSix (fun f => f) M x.2.1.pars x'.2.1.pars)

theorem finish_rel (conf : AMConf) (n : ℕ) {r r' : AMRes} (hr : ResRel k M r r') :
    ResRel k M (amFinish conf r n) (amFinish conf r' n) := by
  unfold amFinish
  dsimp only
  by_cases h : (n : ℤ) = conf.maxiter
  · rw [if_pos h, if_pos h]
    exact ⟨rfl, rfl, hr.npix, hr.wsum, hr.sums, hr.sumsCov, hr.pars, hr.rho4⟩
  · rw [if_neg h, if_neg h]
    exact ⟨hr.flags, rfl, hr.npix, hr.wsum, hr.sums, hr.sumsCov, hr.pars, hr.rho4⟩

theorem nb_rel (hk : 0 < k) (hM : M.Iso) (hA : M.Axes) (conf : AMConf) {pxs pxs' : List Pixel}
    (hp : List.Forall₂ (AxesPixel k M) pxs pxs') {w w' : AMWt} (h : WtRel M w w') {r r' : AMRes} (hr : ResRel k M r r') :
    NbRel k M (admomNb conf w pxs r) (admomNb conf w' pxs' r') := by
  unfold admomNb
  by_cases h0 : conf.maxiter ≤ 0
  · rw [if_pos h0, if_pos h0]
    exact ⟨h, hr, rfl, fun h => by cases h⟩
  rw [if_neg h0, if_neg h0]
  have hl := loop_rel hk hM hA conf (o := (w.g.row, w.g.col)) (o' := (w'.g.row, w'.g.col)) h.1.1.2.1 hp conf.maxiter.toNat 0 h hr
    (old := none) (old' := none) trivial
  rcases hx : amLoop conf (w.g.row, w.g.col) pxs conf.maxiter.toNat 0 w r none with ⟨v, s, q⟩
  rcases hx' : amLoop conf (w'.g.row, w'.g.col) pxs' conf.maxiter.toNat 0 w' r' none with ⟨v', s', q'⟩
  rw [hx, hx'] at hl
  obtain ⟨l1, l2, l3⟩ := hl
  simp only at l1 l2 l3
  rcases l3 with ⟨e, e1, e2⟩ | ⟨n, e1, e2, l4⟩
  · subst e1 e2
    exact ⟨l1, l2, rfl, fun h => by cases h⟩
  · subst e1 e2
    refine ⟨l1, finish_rel conf n l2, rfl, fun _ hf => ?_⟩
    unfold amFinish at hf
    dsimp only at hf
    by_cases hn : (n : ℤ) = conf.maxiter
    · rw [if_pos hn] at hf
      exact absurd hf (by change ¬ Flags.MAXITER = 0; decide)
    · rw [if_neg hn] at hf
      rcases l4 with l4 | l4
      · exact absurd (by rw [l4]; omega) hn
      · unfold amFinish
        dsimp only
        rw [if_neg hn, if_neg hn]
        exact l4 hf

/-! ### The result -/

theorem scale_div_left (hk : 0 < k) (a b : Fl) : (.fin k * a) / b = .fin k * (a / b) := by
  rcases a with _ | _ | _ | x <;> rcases b with _ | _ | _ | y <;>
    simp only [Fl.scale_nan, Fl.scale_pinf hk, Fl.scale_ninf hk, Fl.fin_mul] <;> try rfl
  · change (if y < 0 then Fl.ninf else .pinf) = .fin k * (if y < 0 then Fl.ninf else .pinf)
    split_ifs
    · exact (Fl.scale_ninf hk).symm
    · exact (Fl.scale_pinf hk).symm
  · change (if y < 0 then Fl.pinf else .ninf) = .fin k * (if y < 0 then Fl.pinf else .ninf)
    split_ifs
    · exact (Fl.scale_pinf hk).symm
    · exact (Fl.scale_ninf hk).symm
  · change Fl.fin 0 = .fin k * .fin 0
    rw [Fl.fin_mul, mul_zero]
  · change Fl.fin 0 = .fin k * .fin 0
    rw [Fl.fin_mul, mul_zero]
  · change (if y = 0 then Fl.infOf (k * x) else .fin (k * x / y)) = .fin k * (if y = 0 then Fl.infOf x else .fin (x / y))
    split_ifs
    · rw [Fl.infOf_mul_pos hk, Fl.infOf_scale hk]
    · rw [Fl.fin_mul, mul_div_assoc]

theorem zero_mul_infOf (x y u : ℝ) :
    Fl.fin 0 * (Fl.infOf x + .fin y - Fl.infOf u) = Fl.nan := by
  unfold Fl.infOf
  split_ifs <;> first | rfl | (change Fl.infOf 0 = _; unfold Fl.infOf; simp) | (change Fl.infOf (-0) = _; unfold Fl.infOf; simp)

theorem ratioError_neg (a b va vb c : ℝ) : getRatioError (.fin (-a)) (.fin b) (.fin va) (.fin vb) (.fin (-c)) =
    getRatioError (.fin a) (.fin b) (.fin va) (.fin vb) (.fin c) := by
  unfold getRatioError getRatioVar
  by_cases hb : b = 0
  · rw [if_pos (show (Fl.fin b).isZero from hb), if_pos (show (Fl.fin b).isZero from hb)]
  rw [if_neg (show ¬ (Fl.fin b).isZero from hb), if_neg (show ¬ (Fl.fin b).isZero from hb)]
  have hbb : b * b ≠ 0 := mul_ne_zero hb hb
  by_cases ha : a = 0
  · subst ha
    simp only [neg_zero, Fl.fin_sq, Fl.fin_mul, zero_mul, mul_zero, Fl.fin_div_zero, Fl.fin_div _ _ hb, Fl.fin_div _ _ hbb, zero_div,
      zero_mul_infOf]
  · have h1 : -a ≠ 0 := neg_ne_zero.2 ha
    have h2 : -a * b ≠ 0 := mul_ne_zero h1 hb
    have h3 : a * b ≠ 0 := mul_ne_zero ha hb
    have h4 : -a * -a ≠ 0 := mul_ne_zero h1 h1
    have h5 : a * a ≠ 0 := mul_ne_zero ha ha
    simp only [Fl.fin_sq, Fl.fin_mul, Fl.fin_div _ _ hb, Fl.fin_div _ _ hbb, Fl.fin_div _ _ h2, Fl.fin_div _ _ h3,
      Fl.fin_div _ _ h4, Fl.fin_div _ _ h5, Fl.fin_add, Fl.fin_sub]
    rw [neg_mul_neg, neg_mul, mul_neg, neg_div_neg_eq, neg_div, neg_mul_neg]

theorem ratioError_sign {s : ℝ} (hs : s = 1 ∨ s = -1) (a b va vb c : ℝ) :
    getRatioError (.fin (s * a)) (.fin b) (.fin va) (.fin vb) (.fin (s * c)) =
      getRatioError (.fin a) (.fin b) (.fin va) (.fin vb) (.fin c) := by
  rcases hs with h | h <;> subst h
  · rw [one_mul, one_mul]
  · rw [neg_one_mul, neg_one_mul, ratioError_neg]

theorem sgn_sq (hM : M.Iso) (hA : M.Axes) (i : Fin 7) : sgn M i = 1 ∨ sgn M i = -1 := by
  unfold sgn
  split_ifs
  · exact sign1_sq hM hA
  · exact sign2_sq hM hA
  · exact .inl rfl

theorem cov_at {o o' : AMOut} (h : SameMoments k M o o') {i j : Fin 7} (hi : 2 ≤ i.val) (hj : 2 ≤ j.val) :
    o'.sumsCov i j = k ^ 2 * (sgn M i * (sgn M j * o.sumsCov i j)) := by
  rw [h.sumsCov, axesSums_sgn _ hi, axesSums_sgn _ hj]

theorem osum_at {o o' : AMOut} (h : SameMoments k M o o') {i : Fin 7} (hi : 2 ≤ i.val) :
    o'.sums i = k * (sgn M i * o.sums i) := by
  rw [h.sums, axesSums_sgn _ hi]

theorem var_at (hM : M.Iso) (hA : M.Axes) {o o' : AMOut} (h : SameMoments k M o o') {i : Fin 7} (hi : 2 ≤ i.val) :
    o'.sumsCov i i = k ^ 2 * o.sumsCov i i := by
  rw [cov_at h hi hi]
  rcases sgn_sq hM hA i with e | e <;> rw [e] <;> ring

theorem var_pos (hk : 0 < k) (hM : M.Iso) (hA : M.Axes) {o o' : AMOut} (h : SameMoments k M o o') {i : Fin 7}
    (hi : 2 ≤ i.val) : o'.sumsCov i i > 0 ↔ o.sumsCov i i > 0 := by
  rw [var_at hM hA h hi]
  exact ⟨fun h => (pos_iff_pos_of_mul_pos h).1 (pow_pos hk 2), fun h => mul_pos (pow_pos hk 2) h⟩

theorem sum5 {o o' : AMOut} (h : SameMoments k M o o') : o'.sums 5 = k * o.sums 5 := by
  rw [osum_at h (by simp)]; simp [sgn]

theorem sum5_pos (hk : 0 < k) {o o' : AMOut} (h : SameMoments k M o o') : o'.sums 5 > 0 ↔ o.sums 5 > 0 := by
  rw [sum5 h]
  exact ⟨fun h => (pos_iff_pos_of_mul_pos h).1 hk, fun h => mul_pos hk h⟩

theorem sumsRatio_rel (hk : 0 < k) (hM : M.Iso) (hA : M.Axes) {o o' : AMOut} (h : SameMoments k M o o') {i j : Fin 7}
    (hi : 2 ≤ i.val) (hj : 4 ≤ j.val) : sumsRatioError o' i j = sumsRatioError o i j := by
  have hj2 : 2 ≤ j.val := by omega
  have hsj : sgn M j = 1 := by
    unfold sgn
    rw [if_neg (by rintro rfl; simp at hj), if_neg (by rintro rfl; simp at hj)]
  unfold sumsRatioError
  rw [osum_at h hi, osum_at h hj2, var_at hM hA h hi, var_at hM hA h hj2, cov_at h hi hj2, hsj, one_mul, one_mul]
  simp only [← Fl.fin_mul]
  rw [ratioError_unit hk]
  simp only [Fl.fin_mul]
  exact ratioError_sign (sgn_sq hM hA i) _ _ _ _ _

/-- The results are related, and their flags are zero only if those of the records are. -/
theorem base_rel (hk : 0 < k) {a a' : AMRes} (h : ResRel k M a a')
    (h6 : a.flags = 0 → AxesSix (fun f => f) M a.pars a'.pars) : SameMoments k M (amBase a) (amBase a') := by
  have hfm : Fl.fin (a'.sums 5) / .fin a'.wsum = .fin k * (.fin (a.sums 5) / .fin a.wsum) := by
    rw [sum_at h (by simp), h.wsum, ← Fl.fin_mul, scale_div_left hk]; simp [sgn]
  have hset : a.flags = 0 → AxesSix (fun f => .fin k * f) M (a.pars.set 5 (.fin (a.sums 5) / .fin a.wsum))
      (a'.pars.set 5 (.fin (a'.sums 5) / .fin a'.wsum)) := by
    intro h0
    obtain ⟨r, c, m1, m2, T, f, e1, e2⟩ := h6 h0
    exact ⟨r, c, m1, m2, T, _, by rw [e1]; rfl, by rw [e2, hfm]; rfl⟩
  unfold amBase
  by_cases h0 : a.flags = 0
  · have h0' : a'.flags = 0 := by rw [h.flags, h0]
    have hT : a'.pars.getD 4 .nan = a.pars.getD 4 .nan := by
      obtain ⟨r, c, m1, m2, T, f, e1, e2⟩ := h6 h0
      rw [e1, e2]; rfl
    dsimp only
    simp only [if_pos h0, if_pos h0']
    exact ⟨h.flags, h.numiter, h.npix, rfl, rfl, rfl, h.wsum, h.sums, h.sumsCov, .inr (hset h0), fun _ => hset h0, rfl, hfm, rfl,
      rfl, hT, rfl, h.rho4, rfl, rfl, rfl, rfl, rfl⟩
  · have h0' : ¬ a'.flags = 0 := by rw [h.flags]; exact h0
    dsimp only
    simp only [if_neg h0, if_neg h0']
    exact ⟨h.flags, h.numiter, h.npix, rfl, rfl, rfl, h.wsum, h.sums, h.sumsCov, .inl h.pars, fun e => absurd e h0, rfl, rfl, rfl,
      rfl, rfl, rfl, rfl, rfl, rfl, rfl, rfl, rfl⟩

theorem flux_rel (hk : 0 < k) (hM : M.Iso) (hA : M.Axes) (area : ℝ) {n n' : Fl} {o o' : AMOut} (h : SameMoments k M o o')
    (hn : o.flags = 0 → n' = n) : SameMoments k M (amFlux area n o) (amFlux area n' o') := by
  unfold amFlux
  by_cases h0 : o.flags = 0
  · have hn := hn h0
    subst hn
    have h0' : o'.flags = 0 := by rw [h.flags, h0]
    rw [if_pos h0, if_pos h0']
    by_cases hT : Fl.lt (.fin gmixLowDetval) o.T
    · rw [if_pos hT, if_pos (h.T ▸ hT : Fl.lt _ o'.T)]
      dsimp only
      have hf : Fl.fin (o'.sums 5) / (.fin area * n' * .fin o'.wsum) =
          .fin k * (.fin (o.sums 5) / (.fin area * n' * .fin o.wsum)) := by
        rw [sum5 h, h.wsum, ← Fl.fin_mul, scale_div_left hk]
      have he : (Fl.fin (o'.sumsCov 5 5)).sqrt / (.fin area * n' * .fin o'.wsum) =
          .fin k * ((Fl.fin (o.sumsCov 5 5)).sqrt / (.fin area * n' * .fin o.wsum)) := by
        rw [var_at hM hA h (by simp), h.wsum, ← Fl.fin_mul, Fl.scale_sqrt hk, scale_div_left hk]
      have hv := var_pos hk hM hA h (i := 5) (by simp)
      by_cases hc : o.sumsCov 5 5 > 0
      · rw [if_pos hc, if_pos (hv.2 hc)]
        exact ⟨h.flags, h.numiter, h.npix, h.fluxFlags, h.TFlags, h.rho4Flags, h.wsum, h.sums, h.sumsCov, h.pars, h.pars0, hf,
          h.fluxMean, he, by dsimp only; rw [hf, he, Fl.scale_div hk], h.T, h.Terr, h.rho4, h.rho4Err, h.e1, h.e2, h.e1err, h.e2err⟩
      · rw [if_neg hc, if_neg fun e => hc (hv.1 e)]
        exact ⟨h.flags, h.numiter, h.npix, rfl, h.TFlags, h.rho4Flags, h.wsum, h.sums, h.sumsCov, h.pars, h.pars0, hf,
          h.fluxMean, h.fluxErr, h.s2n, h.T, h.Terr, h.rho4, h.rho4Err, h.e1, h.e2, h.e1err, h.e2err⟩
    · rw [if_neg hT, if_neg (h.T ▸ hT : ¬ Fl.lt _ o'.T)]
      exact ⟨h.flags, h.numiter, h.npix, rfl, h.TFlags, h.rho4Flags, h.wsum, h.sums, h.sumsCov, h.pars, h.pars0, h.flux,
          h.fluxMean, h.fluxErr, h.s2n, h.T, h.Terr, h.rho4, h.rho4Err, h.e1, h.e2, h.e1err, h.e2err⟩
  · have h0' : ¬ o'.flags = 0 := by rw [h.flags]; exact h0
    rw [if_neg h0, if_neg h0']
    exact ⟨h.flags, h.numiter, h.npix, h.flags, h.TFlags, h.rho4Flags, h.wsum, h.sums, h.sumsCov, h.pars, h.pars0, h.flux,
          h.fluxMean, h.fluxErr, h.s2n, h.T, h.Terr, h.rho4, h.rho4Err, h.e1, h.e2, h.e1err, h.e2err⟩

theorem so_self_map {R : AMOut → AMOut → Prop} (x : Except PyErr Fl) {f g : Fl → AMOut} (h : ∀ e, R (f e) (g e)) :
    SameOutcome R (x.map f) (x.map g) := by
  rcases x with e | a
  · rfl
  · exact h a

theorem T_rel (hk : 0 < k) (hM : M.Iso) (hA : M.Axes) {o o' : AMOut} (h : SameMoments k M o o') :
    SameOutcome (SameMoments k M) (amT o) (amT o') := by
  unfold amT
  have fl : ∀ x y, y = x → SameMoments k M { o with TFlags := x } { o' with TFlags := y } := fun x y e =>
    ⟨h.flags, h.numiter, h.npix, h.fluxFlags, e, h.rho4Flags, h.wsum, h.sums, h.sumsCov, h.pars, h.pars0, h.flux,
      h.fluxMean, h.fluxErr, h.s2n, h.T, h.Terr, h.rho4, h.rho4Err, h.e1, h.e2, h.e1err, h.e2err⟩
  by_cases h0 : o.flags = 0
  · rw [if_pos h0, if_pos (h.flags.trans h0)]
    have hv : (o'.sumsCov 4 4 > 0 ∧ o'.sumsCov 5 5 > 0) ↔ (o.sumsCov 4 4 > 0 ∧ o.sumsCov 5 5 > 0) :=
      and_congr (var_pos hk hM hA h (by simp)) (var_pos hk hM hA h (by simp))
    by_cases hc : o.sumsCov 4 4 > 0 ∧ o.sumsCov 5 5 > 0
    · rw [if_pos hc, if_pos (hv.2 hc)]
      by_cases hs : o.sums 5 > 0
      · rw [if_pos hs, if_pos ((sum5_pos hk h).2 hs), sumsRatio_rel hk hM hA h (by simp) (by simp)]
        exact so_self_map _ fun e => ⟨h.flags, h.numiter, h.npix, h.fluxFlags, h.TFlags, h.rho4Flags, h.wsum, h.sums, h.sumsCov,
          h.pars, h.pars0, h.flux, h.fluxMean, h.fluxErr, h.s2n, h.T, rfl, h.rho4, h.rho4Err, h.e1, h.e2, h.e1err, h.e2err⟩
      · rw [if_neg hs, if_neg fun e => hs ((sum5_pos hk h).1 e)]
        exact fl _ _ rfl
    · rw [if_neg hc, if_neg fun e => hc (hv.1 e)]
      exact fl _ _ rfl
  · rw [if_neg h0, if_neg fun e => h0 (h.flags.symm.trans e)]
    exact fl _ _ h.flags

theorem rho4_rel (hk : 0 < k) (hM : M.Iso) (hA : M.Axes) {o o' : AMOut} (h : SameMoments k M o o') :
    SameOutcome (SameMoments k M) (amRho4 o) (amRho4 o') := by
  unfold amRho4
  have fl : ∀ x y, y = x → SameMoments k M { o with rho4Flags := x } { o' with rho4Flags := y } := fun x y e =>
    ⟨h.flags, h.numiter, h.npix, h.fluxFlags, h.TFlags, e, h.wsum, h.sums, h.sumsCov, h.pars, h.pars0, h.flux,
      h.fluxMean, h.fluxErr, h.s2n, h.T, h.Terr, h.rho4, h.rho4Err, h.e1, h.e2, h.e1err, h.e2err⟩
  by_cases h0 : o.flags = 0
  · rw [if_pos h0, if_pos (h.flags.trans h0)]
    have hv : (o'.sumsCov 6 6 > 0 ∧ o'.sumsCov 5 5 > 0) ↔ (o.sumsCov 6 6 > 0 ∧ o.sumsCov 5 5 > 0) :=
      and_congr (var_pos hk hM hA h (by simp)) (var_pos hk hM hA h (by simp))
    by_cases hc : o.sumsCov 6 6 > 0 ∧ o.sumsCov 5 5 > 0
    · rw [if_pos hc, if_pos (hv.2 hc)]
      by_cases hs : o.sums 5 > 0
      · rw [if_pos hs, if_pos ((sum5_pos hk h).2 hs), sumsRatio_rel hk hM hA h (by simp) (by simp)]
        have hr : Fl.fin (o'.sums 6) / .fin (o'.sums 5) = .fin (o.sums 6) / .fin (o.sums 5) := by
          rw [sum5 h, osum_at h (by simp), show sgn M 6 = 1 by simp [sgn], one_mul, ← Fl.fin_mul, ← Fl.fin_mul, Fl.scale_div hk]
        exact so_self_map _ fun e => ⟨h.flags, h.numiter, h.npix, h.fluxFlags, h.TFlags, h.rho4Flags, h.wsum, h.sums, h.sumsCov,
          h.pars, h.pars0, h.flux, h.fluxMean, h.fluxErr, h.s2n, h.T, h.Terr, hr, rfl, h.e1, h.e2, h.e1err, h.e2err⟩
      · rw [if_neg hs, if_neg fun e => hs ((sum5_pos hk h).1 e)]
        exact fl _ _ rfl
    · rw [if_neg hc, if_neg fun e => hc (hv.1 e)]
      exact fl _ _ rfl
  · rw [if_neg h0, if_neg fun e => h0 (h.flags.symm.trans e)]
    exact fl _ _ h.flags

theorem or_ne_zero (f g : ℕ) (hg : g ≠ 0) : f ||| g ≠ 0 := by
  intro h
  rw [Nat.or_eq_zero_iff] at h
  exact hg h.2

theorem flag_rel {o o' : AMOut} (h : SameMoments k M o o') (x : ℕ) (hx : x ≠ 0) :
    SameMoments k M { o with flags := o.flags ||| x } { o' with flags := o'.flags ||| x } :=
  ⟨by dsimp only; rw [h.flags], h.numiter, h.npix, h.fluxFlags, h.TFlags, h.rho4Flags, h.wsum, h.sums, h.sumsCov, h.pars,
    fun e => absurd e (or_ne_zero _ _ hx), h.flux,
    h.fluxMean, h.fluxErr, h.s2n, h.T, h.Terr, h.rho4, h.rho4Err, h.e1, h.e2, h.e1err, h.e2err⟩

theorem varFlag_rel (hk : 0 < k) (hM : M.Iso) (hA : M.Axes) {o o' : AMOut} (h : SameMoments k M o o') :
    SameMoments k M (amVarFlag o) (amVarFlag o') := by
  have hv : (∀ i : Fin 7, 2 ≤ i.val → o'.sumsCov i i > 0) ↔ (∀ i : Fin 7, 2 ≤ i.val → o.sumsCov i i > 0) :=
    forall_congr' fun i => forall_congr' fun hi => var_pos hk hM hA h hi
  unfold amVarFlag
  by_cases hc : ∀ i : Fin 7, 2 ≤ i.val → o.sumsCov i i > 0
  · rw [if_pos hc, if_pos (hv.2 hc)]; exact h
  · rw [if_neg hc, if_neg fun e => hc (hv.1 e)]
    exact flag_rel h _ (by decide)

theorem shapeErr_rel {o o' : AMOut} (h : SameMoments k M o o') {e1 e2 e1' e2' : Fl} (h1 : e1' = .fin M.sign1 * e1)
    (h2 : e2' = .fin M.sign2 * e2) (a b : Fl) : SameMoments k M (amShapeErr o e1 e2 a b) (amShapeErr o' e1' e2' a b) := by
  unfold amShapeErr
  by_cases hc : ¬ a.isFinite ∨ ¬ b.isFinite
  · rw [if_pos hc, if_pos hc]
    exact ⟨by dsimp only; rw [h.flags], h.numiter, h.npix, h.fluxFlags, h.TFlags, h.rho4Flags, h.wsum, h.sums, h.sumsCov, h.pars,
      fun e => absurd e (or_ne_zero _ _ (by decide)), h.flux,
      h.fluxMean, h.fluxErr, h.s2n, h.T, h.Terr, h.rho4, h.rho4Err, h1, h2, rfl, rfl⟩
  · rw [if_neg hc, if_neg hc]
    exact ⟨h.flags, h.numiter, h.npix, h.fluxFlags, h.TFlags, h.rho4Flags, h.wsum, h.sums, h.sumsCov, h.pars,
      h.pars0, h.flux, h.fluxMean, h.fluxErr, h.s2n, h.T, h.Terr, h.rho4, h.rho4Err, h1, h2, rfl, rfl⟩

theorem shape_rel (hk : 0 < k) (hM : M.Iso) (hA : M.Axes) {o o' : AMOut} (h : SameMoments k M o o') :
    SameOutcome (SameMoments k M) (amShape o) (amShape o') := by
  unfold amShape
  by_cases h0 : o.flags = 0
  · rw [if_pos h0, if_pos (h.flags.trans h0)]
    by_cases hs : o.sums 5 > 0
    · rw [if_pos hs, if_pos ((sum5_pos hk h).2 hs)]
      by_cases hT : Fl.lt (.fin 0) o.T
      · rw [if_pos hT, if_pos (h.T ▸ hT : Fl.lt _ o'.T)]
        obtain ⟨r, c, m1, m2, T, f, p1, p2⟩ := h.pars0 h0
        dsimp only
        rw [sumsRatio_rel hk hM hA h (by simp) (by simp), sumsRatio_rel hk hM hA h (by simp) (by simp), h.T, p1, p2]
        have div : ∀ s m : ℝ, (s = 1 ∨ s = -1) → Fl.fin (s * m) / o.T = .fin s * (.fin m / o.T) := by
          intro s m hs
          rcases hot : o.T with _ | _ | _ | t
          · rfl
          · change Fl.fin 0 = .fin s * .fin 0
            rw [Fl.fin_mul, mul_zero]
          · change Fl.fin 0 = .fin s * .fin 0
            rw [Fl.fin_mul, mul_zero]
          · rw [hot] at hT
            have ht : t ≠ 0 := ne_of_gt hT
            rw [Fl.fin_div _ _ ht, Fl.fin_div _ _ ht, Fl.fin_mul, mul_div_assoc]
        rcases sumsRatioError o 2 4 with e | r1
        · rfl
        rcases sumsRatioError o 3 4 with e | r2
        · rfl
        exact shapeErr_rel h (div _ _ (sign1_sq hM hA)) (div _ _ (sign2_sq hM hA)) _ _
      · rw [if_neg hT, if_neg (h.T ▸ hT : ¬ Fl.lt _ o'.T)]
        exact flag_rel h _ (by decide)
    · rw [if_neg hs, if_neg fun e => hs ((sum5_pos hk h).1 e)]
      exact flag_rel h _ (by decide)
  · rw [if_neg h0, if_neg fun e => h0 (h.flags.symm.trans e)]
    exact h

theorem result_rel (hk : 0 < k) (hM : M.Iso) (hA : M.Axes) {a a' : AMRes} (h : ResRel k M a a') (area : ℝ) {n n' : Fl}
    (h6 : a.flags = 0 → n' = n ∧ AxesSix (fun f => f) M a.pars a'.pars) :
    SameOutcome (SameMoments k M) (amGetResult a area n) (amGetResult a' area n') := by
  unfold amGetResult
  refine so_bind (T_rel hk hM hA (flux_rel hk hM hA area (base_rel hk h fun e => (h6 e).2) fun e => (h6 e).1)) fun x x' _ hx => ?_
  refine so_bind (rho4_rel hk hM hA hx) fun y y' _ hy => ?_
  exact shape_rel hk hM hA (varFlag_rel hk hM hA hy)

theorem go_rel (hk : 0 < k) (hM : M.Iso) (hA : M.Axes) (conf : AMConf) (area : ℝ) {pxs pxs' : List Pixel}
    (hp : List.Forall₂ (AxesPixel k M) pxs pxs') {w w' : AMWt} (h : WtRel M w w') :
    WtRel M (admomGo conf pxs area w).1 (admomGo conf pxs' area w').1 ∧
    SameOutcome (SameMoments k M) (admomGo conf pxs area w).2 (admomGo conf pxs' area w').2 := by
  have hn := nb_rel hk hM hA conf hp h (zero_res (k := k) (M := M))
  unfold admomGo
  rcases hx : admomNb conf w pxs AMRes.zero with ⟨v, s, q⟩
  rcases hx' : admomNb conf w' pxs' AMRes.zero with ⟨v', s', q'⟩
  rw [hx, hx'] at hn
  obtain ⟨n1, n2, n3, n4⟩ := hn
  simp only at n1 n2 n3 n4
  subst n3
  rcases q' with e | u
  · cases e
    case gmixRange =>
      exact ⟨n1, result_rel hk hM hA (res_flags n2 _) area
        fun e => absurd e (by change ¬ Flags.GMIX_RANGE_ERROR = 0; decide)⟩
    all_goals exact ⟨n1, rfl⟩
  · exact ⟨n1, result_rel hk hM hA n2 area fun e => n4 rfl e⟩

end

end Ngmix.Proof.AdmomAxes
