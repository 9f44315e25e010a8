import Verif.Spec.EMUnit
import Verif.Props.Coords
import Verif.Props.EM

/-!
# Lemmas: the EM runners in other coordinates and another unit of brightness
-/

namespace Ngmix.Proof.EMUnit

open Ngmix Ngmix.Spec Ngmix.Props

noncomputable section

/-! ### Outcomes -/

theorem so_bind {α β γ δ : Type} {R : α → β → Prop} {S : γ → δ → Prop} {x : Except PyErr α} {y : Except PyErr β}
    {f : α → Except PyErr γ} {g : β → Except PyErr δ} (h : SameOutcome R x y)
    (hf : ∀ a b, x = .ok a → R a b → SameOutcome S (f a) (g b)) : SameOutcome S (x.bind f) (y.bind g) := by
  rcases x with e | a <;> rcases y with e' | b
  · exact h
  · exact h.elim
  · exact h.elim
  · exact hf a b rfl h

theorem so_map {α β γ δ : Type} {R : α → β → Prop} {S : γ → δ → Prop} {x : Except PyErr α} {y : Except PyErr β}
    {f : α → γ} {g : β → δ} (h : SameOutcome R x y)
    (hf : ∀ a b, R a b → S (f a) (g b)) : SameOutcome S (x.map f) (y.map g) := by
  rcases x with e | a <;> rcases y with e' | b
  · exact h
  · exact h.elim
  · exact h.elim
  · exact hf a b h

/-! ### Isometries -/

variable {k : ℝ} {M N : SkyMap}

theorem iso_det (h : M.Iso) : M.det ^ 2 = 1 := by
  obtain ⟨h1, h2, h3⟩ := h
  unfold SkyMap.det
  have : (M.a * M.d - M.b * M.c) ^ 2 = (M.a ^ 2 + M.b ^ 2) * (M.c ^ 2 + M.d ^ 2) - (M.a * M.c + M.b * M.d) ^ 2 := by
    ring
  rw [this, h1, h2, h3]
  norm_num

theorem iso_abs (h : M.Iso) : |M.det| = 1 := by
  have := iso_det h
  rw [← sq_abs] at this
  have h0 := abs_nonneg M.det
  nlinarith

theorem iso_ne (h : M.Iso) : M.det ≠ 0 := by
  intro h0
  have := iso_abs h
  rw [h0] at this
  simp at this

theorem iso_cols (h : M.Iso) : M.a ^ 2 + M.c ^ 2 = 1 ∧ M.b ^ 2 + M.d ^ 2 = 1 ∧ M.a * M.b + M.c * M.d = 0 := by
  have hd := iso_det h
  obtain ⟨h1, h2, h3⟩ := h
  unfold SkyMap.det at hd
  refine ⟨?_, ?_, ?_⟩
  · have h : M.a ^ 2 + M.c ^ 2 - 1 = 0 := by
      have e : (M.a * (M.a * M.c + M.b * M.d) ) = 0 := by rw [h3]; ring
      have : (M.a ^ 2 + M.c ^ 2 - 1) ^ 2 = 0 := by
        have hb : M.b ^ 2 = 1 - M.a ^ 2 := by linarith
        have hdd : M.d ^ 2 = 1 - M.c ^ 2 := by linarith
        have h4 : (M.a * M.c) ^ 2 = (M.b * M.d) ^ 2 := by
          have : M.a * M.c = - (M.b * M.d) := by linarith
          rw [this]; ring
        have h5 : M.a ^ 2 * M.c ^ 2 = (1 - M.a ^ 2) * (1 - M.c ^ 2) := by
          rw [← hb, ← hdd, ← mul_pow, ← mul_pow]; exact h4
        have h6 : M.a ^ 2 + M.c ^ 2 - 1 = 0 := by linarith
        rw [h6]; ring
      exact pow_eq_zero_iff (two_ne_zero) |>.1 this
    linarith
  · have hb : M.b ^ 2 = 1 - M.a ^ 2 := by linarith
    have hdd : M.d ^ 2 = 1 - M.c ^ 2 := by linarith
    have h4 : (M.a * M.c) ^ 2 = (M.b * M.d) ^ 2 := by
      have : M.a * M.c = - (M.b * M.d) := by linarith
      rw [this]; ring
    have h5 : M.a ^ 2 * M.c ^ 2 = (1 - M.a ^ 2) * (1 - M.c ^ 2) := by
      rw [← hb, ← hdd, ← mul_pow, ← mul_pow]; exact h4
    linarith
  · have hc : M.a * (M.a * M.b + M.c * M.d) = M.a ^ 2 * M.b + (M.a * M.c) * M.d := by ring
    have h4 : M.a * M.c = - (M.b * M.d) := by linarith
    have hb : M.b ^ 2 = 1 - M.a ^ 2 := by linarith
    have hdd : M.d ^ 2 = 1 - M.c ^ 2 := by linarith
    have h4' : (M.a * M.c) ^ 2 = (M.b * M.d) ^ 2 := by rw [h4]; ring
    have h5 : M.a ^ 2 * M.c ^ 2 = (1 - M.a ^ 2) * (1 - M.c ^ 2) := by
      rw [← hb, ← hdd, ← mul_pow, ← mul_pow]; exact h4'
    have h6 : M.d ^ 2 = M.a ^ 2 := by linarith
    have h7 : M.c ^ 2 = M.b ^ 2 := by linarith
    have : (M.a * M.b + M.c * M.d) ^ 2 = 0 := by
      have : (M.a * M.b + M.c * M.d) ^ 2 = M.a ^ 2 * M.b ^ 2 + 2 * ((M.a * M.c) * (M.b * M.d)) + M.c ^ 2 * M.d ^ 2 := by
        ring
      rw [this, h4, h7, h6]
      have : (M.b * M.d) ^ 2 = M.a ^ 2 * M.b ^ 2 := by rw [mul_pow, h6]; ring
      nlinarith
    exact pow_eq_zero_iff (two_ne_zero) |>.1 this

/-! ### Gaussians -/

theorem br_det (h : M.Iso) {g g' : Gauss} (hg : Brighter k M g g') :
    g'.irr * g'.icc - g'.irc * g'.irc = g.irr * g.icc - g.irc * g.irc := by
  have := moved_det hg
  rw [iso_det h, one_mul] at this
  exact this

theorem br_T (h : M.Iso) {g g' : Gauss} (hg : Brighter k M g g') : g'.irr + g'.icc = g.irr + g.icc := by
  obtain ⟨h1, h2, h3⟩ := iso_cols h
  obtain ⟨-, -, e1, -, e3⟩ := hg
  rw [e1, e3]
  simp only
  have : M.a ^ 2 * g.irr + 2 * M.a * M.b * g.irc + M.b ^ 2 * g.icc +
      (M.c ^ 2 * g.irr + 2 * M.c * M.d * g.irc + M.d ^ 2 * g.icc) =
      (M.a ^ 2 + M.c ^ 2) * g.irr + 2 * (M.a * M.b + M.c * M.d) * g.irc + (M.b ^ 2 + M.d ^ 2) * g.icc := by ring
  rw [this, h1, h2, h3]
  ring

/-- Convolved gaussians ready for evaluation, in the two systems. -/
def ConvRel (k : ℝ) (M : SkyMap) (n n' : Gauss) : Prop :=
  Brighter k M n n' ∧ (NormsCurrent n ∧ DetCurrent n) ∧ NormsCurrent n' ∧ DetCurrent n'

theorem br_chi2 (hM : M.Iso) {n n' : Gauss} (h : ConvRel k M n n') {px px' : Pixel}
    (hp : (px'.v, px'.u) = M.point (px.v, px.u)) : emChi2 n' px' = emChi2 n px := by
  obtain ⟨hb, ⟨⟨e, he, hD, b1, b2, b3, -, -⟩, -⟩, ⟨e', he', hD', b1', b2', b3', -, -⟩, -⟩ := h
  have hdet := br_det hM hb
  have hd2 : (M.a * M.d - M.b * M.c) ^ 2 = 1 := iso_det hM
  obtain ⟨-, hx, h1, h2, h3⟩ := hb
  simp only [SkyMap.point, Prod.mk.injEq] at hx hp
  simp only [emChi2, he, he', Fl.fin.injEq]
  rw [hdet] at b1' b2' b3'
  simp only [gaussChi2]
  rw [hx.1, hx.2, hp.1, hp.2, b1', b2', b3', b1, b2, b3, h1, h2, h3]
  generalize g0 : n.irr * n.icc - n.irc * n.irc = D at *
  have hD0 : D ≠ 0 := hD.ne'
  simp only
  have key : ∀ (p q r x y : ℝ),
      (M.c ^ 2 * p + 2 * M.c * M.d * q + M.d ^ 2 * r) * (M.a * x + M.b * y) * (M.a * x + M.b * y) +
      (M.a ^ 2 * p + 2 * M.a * M.b * q + M.b ^ 2 * r) * (M.c * x + M.d * y) * (M.c * x + M.d * y) -
      2 * (M.a * M.c * p + (M.a * M.d + M.b * M.c) * q + M.b * M.d * r) * (M.a * x + M.b * y) * (M.c * x + M.d * y) =
      (M.a * M.d - M.b * M.c) ^ 2 * (r * x * x + p * y * y - 2 * q * x * y) := by
    intro p q r x y; ring
  have k2 := key n.irr n.irc n.icc (px.v - n.row) (px.u - n.col)
  rw [hd2, one_mul] at k2
  have : ∀ A B C X Y : ℝ, C / D * X * X + A / D * Y * Y - 2 * (B / D) * X * Y =
      (C * X * X + A * Y * Y - 2 * B * X * Y) / D := by intro A B C X Y; ring
  rw [this, this, ← k2]
  congr 1
  ring

theorem br_eval (hM : M.Iso) {n n' : Gauss} (h : ConvRel k M n n') {px px' : Pixel}
    (hp : (px'.v, px'.u) = M.point (px.v, px.u)) (ha : px'.area = px.area) :
    gaussEvalFast n' px'.v px'.u px'.area = k * gaussEvalFast n px.v px.u px.area := by
  have hchi := br_chi2 hM h hp
  obtain ⟨hb, ⟨⟨e, he, hD, b1, b2, b3, b4, b5⟩, -⟩, ⟨e', he', hD', b1', b2', b3', b4', b5'⟩, -⟩ := h
  have hdet := br_det hM hb
  simp only [emChi2, he, he', Fl.fin.injEq] at hchi
  have hpn : e'.pnorm = k * e.pnorm := by
    rw [b5', b5, hdet, hb.1]
    simp only
    ring
  simp only [gaussEvalFast, he, he', hchi, hpn, ha]
  by_cases hc : gaussChi2 n e px.v px.u < fastexpMaxChi2 ∧ gaussChi2 n e px.v px.u ≥ 0
  · rw [if_pos hc, if_pos hc]; ring
  · rw [if_neg hc, if_neg hc]; ring

/-! ### Sums -/

/-- The scratch sums and the accumulated ones. -/
def SumsRel (k : ℝ) (M : SkyMap) (s s' : EMSums) : Prop :=
  (s'.gi = k * s.gi ∧ s'.tvsum = k * (M.a * s.tvsum + M.b * s.tusum + M.s * s.gi) ∧
    s'.tusum = k * (M.c * s.tvsum + M.d * s.tusum + M.t * s.gi) ∧
    s'.tv2sum = k * (M.a ^ 2 * s.tv2sum + 2 * M.a * M.b * s.tuvsum + M.b ^ 2 * s.tu2sum) ∧
    s'.tuvsum = k * (M.a * M.c * s.tv2sum + (M.a * M.d + M.b * M.c) * s.tuvsum + M.b * M.d * s.tu2sum) ∧
    s'.tu2sum = k * (M.c ^ 2 * s.tv2sum + 2 * M.c * M.d * s.tuvsum + M.d ^ 2 * s.tu2sum)) ∧
  (s'.pnew = k * s.pnew ∧ s'.vsum = k * (M.a * s.vsum + M.b * s.usum + M.s * s.pnew) ∧
    s'.usum = k * (M.c * s.vsum + M.d * s.usum + M.t * s.pnew) ∧
    s'.v2sum = k * (M.a ^ 2 * s.v2sum + 2 * M.a * M.b * s.uvsum + M.b ^ 2 * s.u2sum) ∧
    s'.uvsum = k * (M.a * M.c * s.v2sum + (M.a * M.d + M.b * M.c) * s.uvsum + M.b * M.d * s.u2sum) ∧
    s'.u2sum = k * (M.c ^ 2 * s.v2sum + 2 * M.c * M.d * s.uvsum + M.d ^ 2 * s.u2sum))

/-- Gaussians with their logarithms. -/
def TauRel (k : ℝ) (M : SkyMap) (x x' : Gauss × Fl × Fl) : Prop :=
  ConvRel k M x.1 x'.1 ∧ (k = 1 → x'.2 = x.2)

/-- Sums, total and log likelihood. -/
def AccRel (k : ℝ) (M : SkyMap) (x x' : EMSums × ℝ × Fl) : Prop :=
  SumsRel k M x.1 x'.1 ∧ x'.2.1 = k * x.2.1 ∧ (k = 1 → x'.2.2 = x.2.2)

theorem scratchGauss_rel (hM : M.Iso) {px px' : Pixel} (hp : BrighterPixel k M px px') {x x' : EMSums × ℝ × Fl}
    (hx : AccRel k M x x') {g g' : Gauss × Fl × Fl} (hg : TauRel k M g g') :
    AccRel k M (scratchGauss px x g) (scratchGauss px' x' g') := by
  have hv := br_eval hM hg.1 hp.1 hp.2.1
  have hc := br_chi2 hM hg.1 hp.1
  obtain ⟨⟨⟨a1, a2, a3, a4, a5, a6⟩, b⟩, hs, hl⟩ := hx
  obtain ⟨hb, ht⟩ := hg
  obtain ⟨-, hcen, -⟩ := hb.1
  have hpv := hp.1
  simp only [SkyMap.point, Prod.mk.injEq] at hcen hpv
  refine ⟨⟨⟨?_, ?_, ?_, ?_, ?_, ?_⟩, b⟩, ?_, ?_⟩
  · simp only [scratchGauss, hv, a1]; ring
  · simp only [scratchGauss, hv]; simp only [a2, hpv.1]; ring
  · simp only [scratchGauss, hv]; simp only [a3, hpv.2]; ring
  · simp only [scratchGauss, hv]; simp only [a4, hpv.1, hcen.1]; ring
  · simp only [scratchGauss, hv]; simp only [a5, hpv.1, hcen.1, hpv.2, hcen.2]; ring
  · simp only [scratchGauss, hv]; simp only [a6, hpv.2, hcen.2]; ring
  · simp only [scratchGauss, hv, hs]; ring
  · intro hk
    simp only [scratchGauss, hv, hl hk, ht hk, hc]
    rw [hk, one_mul]

theorem fold_rel (hM : M.Iso) {px px' : Pixel} (hp : BrighterPixel k M px px') {l l' : List (Gauss × Fl × Fl)}
    (hl : List.Forall₂ (TauRel k M) l l') : ∀ {x x' : EMSums × ℝ × Fl}, AccRel k M x x' →
    AccRel k M (l.foldl (scratchGauss px) x) (l'.foldl (scratchGauss px') x') := by
  induction hl with
  | nil => intro x x' h; exact h
  | cons a _ ih => intro x x' h; exact ih (scratchGauss_rel hM hp h a)

theorem scratchAll_rel (hM : M.Iso) (m : ℕ) {px px' : Pixel} (hp : BrighterPixel k M px px') :
    ∀ {ss ss' : List EMSums}, List.Forall₂ (SumsRel k M) ss ss' → ∀ {l l' : List (Gauss × Fl × Fl)},
    List.Forall₂ (TauRel k M) l l' → ∀ {gs gs' : ℝ} {lg lg' : Fl}, gs' = k * gs → (k = 1 → lg' = lg) →
    List.Forall₂ (SumsRel k M) (scratchAll m px ss l gs lg).1 (scratchAll m px' ss' l' gs' lg').1 ∧
      (scratchAll m px' ss' l' gs' lg').2.1 = k * (scratchAll m px ss l gs lg).2.1 ∧
      (k = 1 → (scratchAll m px' ss' l' gs' lg').2.2 = (scratchAll m px ss l gs lg).2.2) := by
  intro ss ss' hs
  induction hs with
  | nil => intro l l' _ gs gs' lg lg' h1 h2; exact ⟨.nil, h1, h2⟩
  | cons a _ ih =>
    intro l l' hl gs gs' lg lg' h1 h2
    have hr : AccRel k M (resetScratch _, gs, lg) (resetScratch _, gs', lg') :=
      ⟨⟨by simp [resetScratch], a.2⟩, h1, h2⟩
    obtain ⟨q1, q2, q3⟩ := fold_rel hM hp (List.forall₂_take m hl) hr
    obtain ⟨r1, r2, r3⟩ := ih (List.forall₂_drop m hl) q2 q3
    exact ⟨.cons q1 r1, r2, r3⟩

theorem doSums_rel (hk : 0 < k) {px px' : Pixel} (hp : BrighterPixel k M px px') {gt gt' : ℝ} (hg : gt' = k * gt)
    {ss ss' : List EMSums} (hs : List.Forall₂ (SumsRel k M) ss ss') :
    List.Forall₂ (SumsRel k M) (doSums px gt ss) (doSums px' gt' ss') := by
  have hf : px'.val / gt' = px.val / gt := by rw [hp.2.2.1, hg, mul_div_mul_left _ _ hk.ne']
  unfold doSums
  rw [List.forall₂_map_left_iff, List.forall₂_map_right_iff]
  refine hs.imp fun s s' h => ?_
  obtain ⟨⟨a1, a2, a3, a4, a5, a6⟩, b1, b2, b3, b4, b5, b6⟩ := h
  refine ⟨⟨a1, a2, a3, a4, a5, a6⟩, ?_, ?_, ?_, ?_, ?_, ?_⟩
  · simp only [hf, a1, b1]; ring
  · simp only [hf, a2, b2]; ring
  · simp only [hf, a3, b3]; ring
  · simp only [hf, a4, b4]; ring
  · simp only [hf, a5, b5]; ring
  · simp only [hf, a6, b6]; ring

theorem doScratch_rel (hM : M.Iso) (m : ℕ) {px px' : Pixel} (hp : BrighterPixel k M px px')
    {ss ss' : List EMSums} (hs : List.Forall₂ (SumsRel k M) ss ss') {l l' : List (Gauss × Fl × Fl)}
    (hl : List.Forall₂ (TauRel k M) l l') :
    List.Forall₂ (SumsRel k M) (doScratchSums m px ss l).1 (doScratchSums m px' ss' l').1 ∧
      (doScratchSums m px' ss' l').2.1 = k * (doScratchSums m px ss l).2.1 ∧
      (k = 1 → (doScratchSums m px' ss' l').2.2 = (doScratchSums m px ss l).2.2) := by
  obtain ⟨r1, r2, r3⟩ := scratchAll_rel hM m hp hs hl (gs := 0) (gs' := 0) (lg := .fin 0) (lg' := .fin 0)
    (by ring) (fun _ => rfl)
  refine ⟨r1, r2, fun h => ?_⟩
  simp only [doScratchSums]
  rw [r3 h, r2, h, one_mul]

/-- What the loop over the pixels returns. -/
def LoopRel (k : ℝ) (M : SkyMap) (r r' : List EMSums × Fl × ℝ) : Prop :=
  List.Forall₂ (SumsRel k M) r.1 r'.1 ∧ (k = 1 → r'.2.1 = r.2.1) ∧ r'.2.2 = k * r.2.2

theorem pixelLoop_rel (hk : 0 < k) (hM : M.Iso) (m : ℕ) {l l' : List (Gauss × Fl × Fl)}
    (hl : List.Forall₂ (TauRel k M) l l') (sky : ℝ) {pxs pxs' : List Pixel}
    (hp : List.Forall₂ (BrighterPixel k M) pxs pxs') : ∀ {st st' : List EMSums × Fl × ℝ}, LoopRel k M st st' →
    SameOutcome (LoopRel k M) (pixelLoop m l sky pxs st) (pixelLoop m l' (k * sky) pxs' st') := by
  induction hp with
  | nil => intro st st' h; exact h
  | @cons px px' pxs pxs' a _ ih =>
    intro st st' h
    obtain ⟨r1, r2, r3⟩ := doScratch_rel hM m a h.1 hl
    simp only [pixelLoop]
    generalize doScratchSums m px st.1 l = r at *
    generalize doScratchSums m px' st'.1 l' = r' at *
    have hgt : r'.2.1 + k * sky = k * (r.2.1 + sky) := by rw [r2]; ring
    by_cases h0 : r.2.1 + sky = 0
    · rw [if_pos h0, if_pos (by rw [hgt, h0, mul_zero])]
      exact rfl
    · rw [if_neg h0, if_neg (by rw [hgt]; exact mul_ne_zero hk.ne' h0)]
      refine ih ⟨doSums_rel hk a hgt r1, ?_, ?_⟩
      · intro h1
        simp only
        rw [h.2.1 h1, r3 h1]
      · simp only
        rw [h.2.2, a.2.2.1, hgt]
        have e : k * sky * (k * px.val) / (k * (r.2.1 + sky)) = k * (sky * px.val / (r.2.1 + sky)) := by
          rw [mul_assoc k sky, mul_div_mul_left _ _ hk.ne']
          ring
        rw [e]
        ring

/-! ### The psf -/

/-- Same linear part. -/
def SameLin (M N : SkyMap) : Prop := M.a = N.a ∧ M.b = N.b ∧ M.c = N.c ∧ M.d = N.d

/-- A covariance, moved. -/
def CovRel (M : SkyMap) (m m' : ℝ × ℝ × ℝ) : Prop :=
  m'.1 = M.a ^ 2 * m.1 + 2 * M.a * M.b * m.2.1 + M.b ^ 2 * m.2.2 ∧
  m'.2.1 = M.a * M.c * m.1 + (M.a * M.d + M.b * M.c) * m.2.1 + M.b * M.d * m.2.2 ∧
  m'.2.2 = M.c ^ 2 * m.1 + 2 * M.c * M.d * m.2.1 + M.d ^ 2 * m.2.2

theorem getMoms_eq (q : List Gauss) : emGetMoms q = (gmixGetCen q).bind fun c =>
    if c.2.2 = 0 then .error .zeroDiv else
      .ok ((q.map fun g => g.p * (g.irr + (g.row - c.1) * (g.row - c.1))).sum / c.2.2,
        (q.map fun g => g.p * (g.irc + (g.row - c.1) * (g.col - c.2.1))).sum / c.2.2,
        (q.map fun g => g.p * (g.icc + (g.col - c.2.1) * (g.col - c.2.1))).sum / c.2.2) := by
  unfold emGetMoms
  rcases gmixGetCen q with e | c
  · rfl
  · simp only [Except.bind, Ngmix.Proof.EM.foldl_moms, zero_add]

theorem momSums_rel (hN : SameLin M N) {q q' : List Gauss} (hq : List.Forall₂ (Moved N) q q') (r c : ℝ) :
    CovRel M ((q.map fun g => g.p * (g.irr + (g.row - r) * (g.row - r))).sum,
        (q.map fun g => g.p * (g.irc + (g.row - r) * (g.col - c))).sum,
        (q.map fun g => g.p * (g.icc + (g.col - c) * (g.col - c))).sum)
      ((q'.map fun g => g.p * (g.irr + (g.row - (N.point (r, c)).1) * (g.row - (N.point (r, c)).1))).sum,
        (q'.map fun g => g.p * (g.irc + (g.row - (N.point (r, c)).1) * (g.col - (N.point (r, c)).2))).sum,
        (q'.map fun g => g.p * (g.icc + (g.col - (N.point (r, c)).2) * (g.col - (N.point (r, c)).2))).sum) := by
  obtain ⟨n1, n2, n3, n4⟩ := hN
  induction hq with
  | nil => simp [CovRel]
  | cons a _ ih =>
    obtain ⟨a1, a2, a3, a4, a5⟩ := a
    obtain ⟨i1, i2, i3⟩ := ih
    simp only [SkyMap.point, Prod.mk.injEq] at a2 i1 i2 i3
    simp only [CovRel, List.map_cons, List.sum_cons, SkyMap.point]
    rw [i1, i2, i3, a1, a2.1, a2.2, a3, a4, a5, n1, n2, n3, n4]
    refine ⟨?_, ?_, ?_⟩ <;> ring

theorem getMoms_rel (hN : SameLin M N) {q q' : List Gauss} (hq : List.Forall₂ (Moved N) q q') :
    SameOutcome (CovRel M) (emGetMoms q) (emGetMoms q') := by
  obtain ⟨hf, hc⟩ := gcen_moved hq
  rw [getMoms_eq, getMoms_eq]
  by_cases h0 : Flux q = 0
  · rw [gmixGetCen_eq q, gmixGetCen_eq q', if_pos h0, if_pos (hf.trans h0)]
    exact rfl
  · obtain ⟨r, c, hrc⟩ : ∃ r c, gmixGetCen q = .ok (r, c, Flux q) := by
      rw [gmixGetCen_eq, if_neg h0]
      exact ⟨_, _, rfl⟩
    have hrc' := (gmixGetCen_ok q' _ _ _).2 ⟨hc r c ((gmixGetCen_ok q r c _).1 hrc).1, rfl⟩
    rw [hrc, hrc']
    simp only [Except.bind]
    rw [if_neg h0, if_neg (by rw [hf]; exact h0)]
    obtain ⟨m1, m2, m3⟩ := momSums_rel hN hq r c
    simp only [SameOutcome, CovRel] at m1 m2 m3 ⊢
    rw [m1, m2, m3, hf]
    refine ⟨?_, ?_, ?_⟩ <;> ring

/-! ### The update of the mixture -/

/-- The matrix is positive semidefinite. -/
def Psd (m : ℝ × ℝ × ℝ) : Prop := ∀ x y : ℝ, 0 ≤ m.1 * x ^ 2 + 2 * m.2.1 * (x * y) + m.2.2 * y ^ 2

/-- The test for negative sizes has the same outcome in both systems. -/
def GuardOk (M : SkyMap) (m : ℝ × ℝ × ℝ) (s : EMSums) : Prop :=
  M.Axes ∨ Psd (s.v2sum * (1 / s.pnew) - m.1, s.uvsum * (1 / s.pnew) - m.2.1, s.u2sum * (1 / s.pnew) - m.2.2)

theorem cov_guard {m m' : ℝ × ℝ × ℝ} (h : CovRel M m m') (hM : M.Iso) (hg : M.Axes ∨ Psd m) :
    (m'.1 < 0 ∨ m'.2.2 < 0) ↔ (m.1 < 0 ∨ m.2.2 < 0) := by
  obtain ⟨h1, h2, h3⟩ := hM
  obtain ⟨e1, -, e3⟩ := h
  rcases hg with (⟨hb, hc⟩ | ⟨ha, hd⟩) | hp
  · rw [hb] at h1 e1; rw [hc] at h2 e3
    have a1 : M.a ^ 2 = 1 := by linarith
    have d1 : M.d ^ 2 = 1 := by linarith
    rw [e1, e3, a1, d1]
    simp
  · rw [ha] at h1 e1; rw [hd] at h2 e3
    have a1 : M.b ^ 2 = 1 := by linarith
    have d1 : M.c ^ 2 = 1 := by linarith
    rw [e1, e3, a1, d1]
    simp [or_comm]
  · have p1 := hp 1 0
    have p2 := hp 0 1
    have p3 := hp M.a M.b
    have p4 := hp M.c M.d
    constructor
    · rintro (h | h) <;> exfalso <;> nlinarith
    · rintro (h | h) <;> exfalso <;> nlinarith

theorem cov_det {m m' : ℝ × ℝ × ℝ} (h : CovRel M m m') (hM : M.Iso) :
    m'.1 * m'.2.2 - m'.2.1 ^ 2 = m.1 * m.2.2 - m.2.1 ^ 2 := by
  have hd : (M.a * M.d - M.b * M.c) ^ 2 = 1 := iso_det hM
  obtain ⟨e1, e2, e3⟩ := h
  rw [e1, e2, e3]
  have : ∀ p q r : ℝ, (M.a ^ 2 * p + 2 * M.a * M.b * q + M.b ^ 2 * r) * (M.c ^ 2 * p + 2 * M.c * M.d * q + M.d ^ 2 * r) -
      (M.a * M.c * p + (M.a * M.d + M.b * M.c) * q + M.b * M.d * r) ^ 2 =
      (M.a * M.d - M.b * M.c) ^ 2 * (p * r - q ^ 2) := by intro p q r; ring
  rw [this, hd, one_mul]

theorem cov_T {m m' : ℝ × ℝ × ℝ} (h : CovRel M m m') (hM : M.Iso) : m'.1 + m'.2.2 = m.1 + m.2.2 := by
  obtain ⟨h1, h2, h3⟩ := iso_cols hM
  obtain ⟨e1, -, e3⟩ := h
  rw [e1, e3]
  have : ∀ p q r : ℝ, M.a ^ 2 * p + 2 * M.a * M.b * q + M.b ^ 2 * r + (M.c ^ 2 * p + 2 * M.c * M.d * q + M.d ^ 2 * r) =
      (M.a ^ 2 + M.c ^ 2) * p + 2 * (M.a * M.b + M.c * M.d) * q + (M.b ^ 2 + M.d ^ 2) * r := by intro p q r; ring
  rw [this, h1, h2, h3]
  ring

theorem cov_round (hM : M.Iso) (x : ℝ) : CovRel M (x, 0, x) (x, 0, x) := by
  obtain ⟨h1, h2, h3⟩ := hM
  simp only [CovRel]
  refine ⟨?_, ?_, ?_⟩
  · linear_combination (-x) * h1
  · linear_combination (-x) * h3
  · linear_combination (-x) * h2

theorem emCov_rel (hk : 0 < k) (hM : M.Iso) {m m' : ℝ × ℝ × ℝ} (hm : CovRel M m m') {s s' : EMSums}
    (hs : SumsRel k M s s') (hg : GuardOk M m s) : CovRel M (emCov m s) (emCov m' s') := by
  obtain ⟨-, b1, -, -, b4, b5, b6⟩ := hs
  obtain ⟨m1, m2, m3⟩ := hm
  have hpi : ∀ x : ℝ, k * x * (1 / (k * s.pnew)) = x * (1 / s.pnew) := by
    intro x
    rw [mul_one_div, mul_one_div, mul_div_mul_left _ _ hk.ne']
  have hc : CovRel M (s.v2sum * (1 / s.pnew) - m.1, s.uvsum * (1 / s.pnew) - m.2.1, s.u2sum * (1 / s.pnew) - m.2.2)
      (s'.v2sum * (1 / s'.pnew) - m'.1, s'.uvsum * (1 / s'.pnew) - m'.2.1, s'.u2sum * (1 / s'.pnew) - m'.2.2) := by
    simp only [CovRel]
    rw [b1, b4, b5, b6, hpi, hpi, hpi, m1, m2, m3]
    refine ⟨?_, ?_, ?_⟩ <;> ring
  have hgi := cov_guard hc hM hg
  simp only [emCov]
  simp only at hgi
  generalize s.v2sum * (1 / s.pnew) - m.1 = x at *
  generalize s.uvsum * (1 / s.pnew) - m.2.1 = y at *
  generalize s.u2sum * (1 / s.pnew) - m.2.2 = z at *
  generalize s'.v2sum * (1 / s'.pnew) - m'.1 = x' at *
  generalize s'.uvsum * (1 / s'.pnew) - m'.2.1 = y' at *
  generalize s'.u2sum * (1 / s'.pnew) - m'.2.2 = z' at *
  have hn : CovRel M (if x < 0 ∨ z < 0 then (1.0e-4, 0, 1.0e-4) else (x, y, z))
      (if x' < 0 ∨ z' < 0 then (1.0e-4, 0, 1.0e-4) else (x', y', z')) := by
    by_cases h0 : x < 0 ∨ z < 0
    · rw [if_pos h0, if_pos (hgi.2 h0)]
      exact cov_round hM _
    · rw [if_neg h0, if_neg (fun h => h0 (hgi.1 h))]
      exact hc
  generalize (if x < 0 ∨ z < 0 then ((1.0e-4 : ℝ), (0 : ℝ), (1.0e-4 : ℝ)) else (x, y, z)) = w at *
  generalize (if x' < 0 ∨ z' < 0 then ((1.0e-4 : ℝ), (0 : ℝ), (1.0e-4 : ℝ)) else (x', y', z')) = w' at *
  have hdet := cov_det hn hM
  by_cases h0 : w.1 * w.2.2 - w.2.1 ^ 2 < gmixLowDetval
  · rw [if_pos h0, if_pos (by rw [hdet]; exact h0), cov_T hn hM]
    exact cov_round hM _
  · rw [if_neg h0, if_neg (by rw [hdet]; exact h0)]
    exact hn

theorem setGauss_rel (hk : 0 < k) (hM : M.Iso) (kind : EMKind) {m m' : ℝ × ℝ × ℝ}
    (hm : movesCov kind = true → CovRel M m m') {g g' : Gauss} (hg : Brighter k M g g') {s s' : EMSums}
    (hs : SumsRel k M s s') (hgd : movesCov kind = true → GuardOk M m s) :
    SameOutcome (Brighter k M) (setGaussFromSums kind m g s) (setGaussFromSums kind m' g' s') := by
  have hs0 := hs
  obtain ⟨-, b1, b2, b3, -⟩ := hs0
  have hz : s'.pnew = 0 ↔ s.pnew = 0 := by rw [b1]; simp [hk.ne']
  have hcen : s.pnew ≠ 0 → (s'.vsum * (1 / s'.pnew), s'.usum * (1 / s'.pnew)) =
      M.point (s.vsum * (1 / s.pnew), s.usum * (1 / s.pnew)) := by
    intro h0
    simp only [SkyMap.point, Prod.mk.injEq]
    rw [b1, b2, b3]
    have hk0 := hk.ne'
    constructor <;> field_simp
  obtain ⟨-, hgc, g1, g2, g3⟩ := hg
  cases kind with
  | free =>
    obtain ⟨c1, c2, c3⟩ := emCov_rel hk hM (hm rfl) hs (hgd rfl)
    simp only [setGaussFromSums]
    by_cases h0 : s.pnew = 0
    · rw [if_pos h0, if_pos (hz.2 h0)]; exact rfl
    · rw [if_neg h0, if_neg (fun h => h0 (hz.1 h))]
      exact ⟨b1, hcen h0, c1, c2, c3⟩
  | fixcen =>
    obtain ⟨c1, c2, c3⟩ := emCov_rel hk hM (hm rfl) hs (hgd rfl)
    simp only [setGaussFromSums]
    by_cases h0 : s.pnew = 0
    · rw [if_pos h0, if_pos (hz.2 h0)]; exact rfl
    · rw [if_neg h0, if_neg (fun h => h0 (hz.1 h))]
      exact ⟨b1, hgc, c1, c2, c3⟩
  | fixcov =>
    simp only [setGaussFromSums]
    by_cases h0 : s.pnew = 0
    · rw [if_pos h0, if_pos (hz.2 h0)]; exact rfl
    · rw [if_neg h0, if_neg (fun h => h0 (hz.1 h))]
      exact ⟨b1, hcen h0, g1, g2, g3⟩
  | fluxonly => exact ⟨b1, hgc, g1, g2, g3⟩

theorem setLoop_rel (hk : 0 < k) (hM : M.Iso) (kind : EMKind) {m m' : ℝ × ℝ × ℝ}
    (hm : movesCov kind = true → CovRel M m m') {gs gs' : List Gauss} (hg : List.Forall₂ (Brighter k M) gs gs') :
    ∀ {ss ss' : List EMSums}, List.Forall₂ (SumsRel k M) ss ss' →
    (movesCov kind = true → ∀ s ∈ ss, GuardOk M m s) →
    SameOutcome (List.Forall₂ (Brighter k M)) (setFromSumsLoop kind m gs ss) (setFromSumsLoop kind m' gs' ss') := by
  induction hg with
  | nil => intro ss ss' hs _; cases hs <;> exact .nil
  | cons a _ ih =>
    intro ss ss' hs hgd
    cases hs with
    | nil => exact .nil
    | cons b hs =>
      simp only [setFromSumsLoop]
      refine so_bind (setGauss_rel hk hM kind hm a b fun h => hgd h _ List.mem_cons_self) fun x x' _ hx => ?_
      exact so_map (ih hs fun h s hs => hgd h s (List.mem_cons_of_mem _ hs)) fun y y' hy => .cons hx hy

theorem conv_scale (k : ℝ) (gm q : List Gauss) :
    gmixConvolve (gm.map fun g => { g with p := k * g.p }) q =
      (gmixConvolve gm q).map (List.map fun g => { g with p := k * g.p }) := by
  unfold gmixConvolve
  rcases gmixGetCen q with e | c
  · rfl
  · simp only [Except.map, Except.ok.injEq, List.flatMap_map, List.map_flatMap, List.map_map]
    congr 1
    funext o
    refine List.map_congr_left fun x _ => ?_
    simp only [gauss2dSet, Function.comp_apply, Gauss.mk.injEq, and_true]
    ring

theorem conv_fresh {gm q cv : List Gauss} (h : gmixConvolve gm q = .ok cv) : ∀ g ∈ cv, DetCurrent g := by
  unfold gmixConvolve at h
  rcases hc : gmixGetCen q with e | c
  · rw [hc] at h; cases h
  · rw [hc] at h
    simp only [Except.map, Except.ok.injEq] at h
    subst h
    intro g hg
    simp only [List.mem_flatMap, List.mem_map] at hg
    obtain ⟨o, -, x, -, rfl⟩ := hg
    rfl

theorem br_scaled {gm gm' : List Gauss} :
    List.Forall₂ (Brighter k M) gm gm' ↔ List.Forall₂ (Moved M) (gm.map fun g => { g with p := k * g.p }) gm' := by
  rw [List.forall₂_map_left_iff]
  exact Iff.rfl

/-- Corresponding gaussians with current determinants. -/
def FreshRel (k : ℝ) (M : SkyMap) (g g' : Gauss) : Prop := Brighter k M g g' ∧ DetCurrent g ∧ DetCurrent g'

theorem fresh_of {cv cv' : List Gauss} (h : List.Forall₂ (Brighter k M) cv cv') (h1 : ∀ g ∈ cv, DetCurrent g)
    (h2 : ∀ g ∈ cv', DetCurrent g) : List.Forall₂ (FreshRel k M) cv cv' := by
  induction h with
  | nil => exact .nil
  | cons a _ ih =>
    exact .cons ⟨a, h1 _ List.mem_cons_self, h2 _ List.mem_cons_self⟩
      (ih (fun g hg => h1 g (List.mem_cons_of_mem _ hg)) fun g hg => h2 g (List.mem_cons_of_mem _ hg))

theorem conv_rel (hN : SameLin M N) {gm gm' q q' : List Gauss} (hg : List.Forall₂ (Brighter k M) gm gm')
    (hq : List.Forall₂ (Moved N) q q') :
    SameOutcome (List.Forall₂ (FreshRel k M)) (gmixConvolve gm q) (gmixConvolve gm' q') := by
  obtain ⟨h1, h2⟩ := C93_convolve hN (br_scaled.1 hg) hq
  rw [conv_scale] at h1 h2
  rcases hc : gmixConvolve gm q with e | cv
  · rw [hc] at h1
    rw [(h1 e).1 rfl]
    exact rfl
  · rw [hc] at h2
    obtain ⟨cv', e', hr⟩ := h2 _ rfl
    rw [e']
    exact fresh_of (br_scaled.2 hr) (conv_fresh hc) (conv_fresh e')

theorem usable_iff (hM : M.Iso) {g g' : Gauss} (h : Brighter k M g g') : Usable g' ↔ Usable g := by
  unfold Usable
  rw [br_det hM h, br_T hM h]

theorem br_same {g g' n n' : Gauss} (h : Brighter k M g g') (h1 : SameGauss g n) (h2 : SameGauss g' n') :
    Brighter k M n n' := by
  obtain ⟨a1, a2, a3, a4, a5, a6⟩ := h1
  obtain ⟨b1, b2, b3, b4, b5, b6⟩ := h2
  obtain ⟨c1, c2, c3, c4, c5⟩ := h
  simp only [Brighter, Moved] at *
  rw [← a1, ← a2, ← a3, ← a4, ← a5, ← a6, ← b1, ← b2, ← b3, ← b4, ← b5, ← b6]
  exact ⟨c1, c2, c3, c4, c5⟩

theorem norms_rel (hM : M.Iso) {cv cv' : List Gauss} (h : List.Forall₂ (FreshRel k M) cv cv') :
    ((gmixSetNorms cv).2 = .error .gmixRange ∧ (gmixSetNorms cv').2 = .error .gmixRange) ∨
    ((gmixSetNorms cv).2 = .ok () ∧ (gmixSetNorms cv').2 = .ok () ∧
      List.Forall₂ (ConvRel k M) (gmixSetNorms cv).1 (gmixSetNorms cv').1) := by
  induction h with
  | nil => exact .inr ⟨rfl, rfl, .nil⟩
  | @cons g g' cv cv' a _ ih =>
    obtain ⟨ab, a1, a2⟩ := a
    by_cases hu : Usable g
    · obtain ⟨u1, u2, -, u4, u5⟩ := (C20_set_norm g a1).1 hu
      obtain ⟨v1, v2, -, v4, v5⟩ := (C20_set_norm g' a2).1 ((usable_iff hM ab).2 hu)
      have hr : ConvRel k M (gauss2dSetNorm g).1 (gauss2dSetNorm g').1 :=
        ⟨br_same ab u4 v4, ⟨u2, u5⟩, v2, v5⟩
      rcases e : gauss2dSetNorm g with ⟨n, _ | _⟩
      · rw [e] at u1; cases u1
      rcases e' : gauss2dSetNorm g' with ⟨n', _ | _⟩
      · rw [e'] at v1; cases v1
      rw [e, e'] at hr
      simp only [gmixSetNorms, e, e']
      rcases ih with ⟨i1, i2⟩ | ⟨i1, i2, i3⟩
      · exact .inl ⟨i1, i2⟩
      · exact .inr ⟨i1, i2, .cons hr i3⟩
    · left
      simp only [gmixSetNorms, (C20_set_norm g a1).2 hu, (C20_set_norm g' a2).2 (fun h => hu ((usable_iff hM ab).1 h))]
      exact ⟨trivial, trivial⟩

/-- The mixtures after an update. -/
def PairRel (k : ℝ) (M : SkyMap) (x x' : List Gauss × List Gauss) : Prop :=
  List.Forall₂ (Brighter k M) x.1 x'.1 ∧ List.Forall₂ (ConvRel k M) x.2 x'.2

theorem setFromSums_rel (hk : 0 < k) (hM : M.Iso) (hN : SameLin M N) (kind : EMKind) {gm gm' q q' : List Gauss}
    (hg : List.Forall₂ (Brighter k M) gm gm') (hq : List.Forall₂ (Moved N) q q') {ss ss' : List EMSums}
    (hs : List.Forall₂ (SumsRel k M) ss ss')
    (hgd : movesCov kind = true → ∀ m, emGetMoms q = .ok m → ∀ s ∈ ss, GuardOk M m s) :
    SameOutcome (PairRel k M) (setFromSums kind gm q ss) (setFromSums kind gm' q' ss') := by
  have tail : ∀ m m' : ℝ × ℝ × ℝ, (movesCov kind = true → CovRel M m m') →
      (movesCov kind = true → ∀ s ∈ ss, GuardOk M m s) →
      SameOutcome (PairRel k M)
        ((setFromSumsLoop kind m gm ss).bind fun gmix' => (gmixConvolve gmix' q).bind fun conv =>
          match gmixSetNorms conv with
          | (_, .error e) => .error e
          | (conv', .ok _) => .ok (gmix', conv'))
        ((setFromSumsLoop kind m' gm' ss').bind fun gmix' => (gmixConvolve gmix' q').bind fun conv =>
          match gmixSetNorms conv with
          | (_, .error e) => .error e
          | (conv', .ok _) => .ok (gmix', conv')) := by
    intro m m' hm hgd
    refine so_bind (setLoop_rel hk hM kind hm hg hs hgd) fun x x' _ hx => ?_
    refine so_bind (conv_rel hN hx hq) fun y y' _ hy => ?_
    rcases norms_rel hM hy with ⟨i1, i2⟩ | ⟨i1, i2, i3⟩
    · rcases e : gmixSetNorms y with ⟨n, _ | _⟩ <;> rcases e' : gmixSetNorms y' with ⟨n', _ | _⟩ <;>
        rw [e] at i1 <;> rw [e'] at i2 <;> simp only at i1 i2
      · cases i1; cases i2; exact rfl
      · cases i2
      · cases i1
      · cases i1
    · rcases e : gmixSetNorms y with ⟨n, _ | _⟩ <;> rcases e' : gmixSetNorms y' with ⟨n', _ | _⟩ <;>
        rw [e] at i1 i3 <;> rw [e'] at i2 i3 <;> simp only at i1 i2
      · cases i1
      · cases i1
      · cases i2
      · exact ⟨hx, i3⟩
  cases kind with
  | free => exact so_bind (getMoms_rel hN hq) fun m m' e h => tail m m' (fun _ => h) fun h => hgd h m e
  | fixcen => exact so_bind (getMoms_rel hN hq) fun m m' e h => tail m m' (fun _ => h) fun h => hgd h m e
  | fixcov => exact tail _ _ (fun h => by cases h) fun h => by cases h
  | fluxonly => exact tail _ _ (fun h => by cases h) fun h => by cases h

/-! ### One pass -/

theorem evalSum_rel (hM : M.Iso) {cv cv' : List Gauss} (h : List.Forall₂ (ConvRel k M) cv cv') {px px' : Pixel}
    (hp : (px'.v, px'.u) = M.point (px.v, px.u)) (ha : px'.area = px.area) :
    gmixEvalFast cv' px'.v px'.u px'.area = k * gmixEvalFast cv px.v px.u px.area := by
  rw [C27_sum_of_components, C27_sum_of_components]
  induction h with
  | nil => simp
  | cons a _ ih => rw [List.map_cons, List.sum_cons, List.map_cons, List.sum_cons, ih, br_eval hM a hp ha]; ring

theorem fill_rel (hM : M.Iso) {cv cv' : List Gauss} (h : List.Forall₂ (ConvRel k M) cv cv') (sky : ℝ)
    {pxs pxs' : List Pixel} (hp : List.Forall₂ (BrighterPixel k M) pxs pxs') :
    List.Forall₂ (BrighterPixel k M) (fillZeroWeight cv sky pxs) (fillZeroWeight cv' (k * sky) pxs') := by
  unfold fillZeroWeight
  rw [List.forall₂_map_left_iff, List.forall₂_map_right_iff]
  refine hp.imp fun x x' hx => ?_
  obtain ⟨h1, h2, h3, h4⟩ := hx
  by_cases h0 : x.ierr ≤ 0
  · rw [if_pos h0, if_pos (h4.2 h0)]
    refine ⟨h1, h2, ?_, h4⟩
    simp only
    rw [evalSum_rel hM h h1 h2]
    ring
  · rw [if_neg h0, if_neg (fun h => h0 (h4.1 h))]
    exact ⟨h1, h2, h3, h4⟩

theorem tau_rel (hM : M.Iso) {cv cv' : List Gauss} (h : List.Forall₂ (ConvRel k M) cv cv') :
    List.Forall₂ (TauRel k M) (cv.zip (logtauLogdet cv)) (cv'.zip (logtauLogdet cv')) := by
  unfold logtauLogdet
  induction h with
  | nil => exact .nil
  | @cons g g' _ _ a _ ih =>
    rw [List.map_cons, List.map_cons, List.zip_cons_cons, List.zip_cons_cons]
    refine .cons ⟨a, fun hk => ?_⟩ ih
    obtain ⟨b, ⟨-, d1⟩, -, d2⟩ := a
    have hd := br_det hM b
    unfold DetCurrent at d1 d2
    simp only
    rw [d1, d2, hd, b.1, hk]
    simp only [one_mul]

theorem clear_rel {ss ss' : List EMSums} (h : ss.length = ss'.length) :
    List.Forall₂ (SumsRel k M) (clearSums ss) (clearSums ss') := by
  unfold clearSums
  rw [List.forall₂_map_left_iff, List.forall₂_map_right_iff, List.forall₂_iff_get]
  refine ⟨h, fun i _ _ => ?_⟩
  simp [SumsRel]

/-- The states of the two runs; the quantity tested for convergence is left out. -/
def StateRel (k : ℝ) (M : SkyMap) (st st' : EMState) : Prop :=
  List.Forall₂ (Brighter k M) st.gmix st'.gmix ∧ List.Forall₂ (ConvRel k M) st.conv st'.conv ∧
  st.sums.length = st'.sums.length ∧ List.Forall₂ (BrighterPixel k M) st.pixels st'.pixels ∧ st'.sky = k * st.sky

/-- A pass without the convergence test: the new state and the quantity to be tested. -/
def emCore (kind : EMKind) (vary : Bool) (psf : List Gauss) (fill : Bool) (st : EMState) :
    Except PyErr (EMState × Fl) :=
  let pixels := if fill then fillZeroWeight st.conv st.sky st.pixels else st.pixels
  let taus := logtauLogdet st.conv
  (pixelLoop psf.length (st.conv.zip taus) st.sky pixels (clearSums st.sums, .fin 0, 0)).bind fun r =>
  (setFromSums kind st.gmix psf r.1).bind fun gm =>
  (emNewSky vary pixels.length r.2.2 st.sky).map fun sky =>
    (⟨gm.1, gm.2, r.1, pixels, sky, st.last, st.frac⟩, emCur kind gm.1 r.2.1)

theorem emIter_core (kind : EMKind) (conf : EMConf) (psf : List Gauss) (fill : Bool) (n : ℤ) (st : EMState) :
    emIter kind conf psf fill n st =
      (emCore kind conf.varySky psf fill st).bind fun c => emTest kind conf n c.1 c.2 := by
  unfold emIter emCore
  dsimp only
  generalize pixelLoop _ _ _ _ _ = x
  rcases x with e | r
  · rfl
  simp only [Except.bind]
  generalize setFromSums _ _ _ _ = x
  rcases x with e | gm
  · rfl
  simp only
  generalize emNewSky _ _ _ _ = x
  rcases x with e | sky <;> rfl

theorem psum_rel {gm gm' : List Gauss} (h : List.Forall₂ (Brighter k M) gm gm') : psum gm' = k * psum gm := by
  rw [psum_eq_flux, psum_eq_flux]
  unfold Flux
  induction h with
  | nil => simp
  | cons a _ ih => rw [List.map_cons, List.sum_cons, List.map_cons, List.sum_cons, ih, a.1]; simp only; ring

/-- What is tested for convergence: the same number, or for the fluxes their sum. -/
def CurRel (kind : EMKind) (k : ℝ) (c c' : Fl) : Prop :=
  (kind = .fluxonly → ∃ x, c = .fin x ∧ c' = .fin (k * x)) ∧ (kind ≠ .fluxonly → k = 1 → c' = c)

theorem emCore_rel (hk : 0 < k) (hM : M.Iso) (hN : SameLin M N) (kind : EMKind) (vary fill : Bool)
    {q q' : List Gauss} (hq : List.Forall₂ (Moved N) q q') {st st' : EMState} (h : StateRel k M st st')
    (hgd : movesCov kind = true → ∀ r, pixelLoop q.length (st.conv.zip (logtauLogdet st.conv)) st.sky
        (if fill then fillZeroWeight st.conv st.sky st.pixels else st.pixels) (clearSums st.sums, .fin 0, 0) = .ok r →
      ∀ m, emGetMoms q = .ok m → ∀ s ∈ r.1, GuardOk M m s) :
    SameOutcome (fun c c' => StateRel k M c.1 c'.1 ∧ CurRel kind k c.2 c'.2 ∧
        (c.1.last = st.last ∧ c.1.frac = st.frac) ∧ c'.1.last = st'.last ∧ c'.1.frac = st'.frac)
      (emCore kind vary q fill st) (emCore kind vary q' fill st') := by
  obtain ⟨h1, h2, h3, h4, h5⟩ := h
  have hpx : List.Forall₂ (BrighterPixel k M) (if fill then fillZeroWeight st.conv st.sky st.pixels else st.pixels)
      (if fill then fillZeroWeight st'.conv st'.sky st'.pixels else st'.pixels) := by
    rw [h5]
    cases fill
    · exact h4
    · exact fill_rel hM h2 _ h4
  have hlen := hpx.length_eq
  unfold emCore
  dsimp only
  generalize (if fill then fillZeroWeight st.conv st.sky st.pixels else st.pixels) = pxs at *
  generalize (if fill then fillZeroWeight st'.conv st'.sky st'.pixels else st'.pixels) = pxs' at *
  rw [← hq.length_eq, h5]
  refine so_bind (pixelLoop_rel hk hM q.length (tau_rel hM h2) st.sky hpx
    ⟨clear_rel h3, fun _ => rfl, (mul_zero k).symm⟩) fun r r' er hr => ?_
  refine so_bind (setFromSums_rel hk hM hN kind h1 hq hr.1 fun hm => hgd hm r er) fun gm gm' _ hgm => ?_
  have hsky : SameOutcome (fun s s' => s' = k * s) (emNewSky vary pxs.length r.2.2 st.sky)
      (emNewSky vary pxs'.length r'.2.2 (k * st.sky)) := by
    rw [← hlen, hr.2.2]
    unfold emNewSky
    cases vary
    · exact rfl
    · simp only [if_true]
      by_cases h0 : pxs.length = 0
      · rw [if_pos h0, if_pos h0]; exact rfl
      · rw [if_neg h0, if_neg h0]
        exact mul_div_assoc _ _ _
  refine so_map hsky fun s s' hs => ⟨⟨hgm.1, hgm.2, hr.1.length_eq, hpx, hs⟩, ⟨fun hf => ?_, fun hf h1 => ?_⟩,
    ⟨rfl, rfl⟩, rfl, rfl⟩
  · subst hf
    exact ⟨_, rfl, by simp only [emCur]; rw [psum_rel hgm.1]⟩
  · cases kind <;> first | exact absurd rfl hf | exact hr.2.1 h1

/-! ### The loop -/

/-- The states of two runs that do the same number of passes. -/
def FullRel (kind : EMKind) (k : ℝ) (M : SkyMap) (st st' : EMState) : Prop :=
  StateRel k M st st' ∧ CurRel kind k st.last st'.last ∧ st'.frac = st.frac

theorem emFrac_rel (hk : 0 < k) (kind : EMKind) (hfull : kind ≠ .fluxonly → k = 1) {c c' l l' : Fl}
    (hc : CurRel kind k c c') (hl : CurRel kind k l l') : emFrac kind c' l' = emFrac kind c l := by
  by_cases hf : kind = .fluxonly
  · obtain ⟨x, rfl, rfl⟩ := hc.1 hf
    obtain ⟨y, rfl, rfl⟩ := hl.1 hf
    subst hf
    simp only [emFrac]
    by_cases h0 : y = 0
    · rw [if_pos (by simpa using Or.inr h0), if_pos (by simpa using h0)]
    · rw [if_neg (by simpa using ⟨hk.ne', h0⟩), if_neg (by simpa using h0),
        Fl.fin_div _ _ (mul_ne_zero hk.ne' h0), Fl.fin_div _ _ h0, mul_div_mul_left _ _ hk.ne']
  · rw [hc.2 hf (hfull hf), hl.2 hf (hfull hf)]

theorem emTest_rel (hk : 0 < k) (kind : EMKind) (hfull : kind ≠ .fluxonly → k = 1) {conf conf' : EMConf} (n : ℤ)
    (hmi : conf'.miniter = conf.miniter) (htol : conf'.tol = conf.tol)
    {st st' : EMState} (h : FullRel kind k M st st') {c c' : Fl} (hc : CurRel kind k c c') :
    SameOutcome (fun r r' : EMState × Bool => FullRel kind k M r.1 r'.1 ∧ r'.2 = r.2) (emTest kind conf n st c)
      (emTest kind conf' n st' c') := by
  obtain ⟨h1, h2, h3⟩ := h
  unfold emTest
  rw [hmi, htol]
  by_cases hn : n ≥ conf.miniter
  · rw [if_pos hn, if_pos hn, emFrac_rel hk kind hfull hc h2]
    rcases emFrac kind c st.last with e | f
    · exact rfl
    · simp only [Except.map]
      by_cases hlt : Fl.lt f (.fin conf.tol)
      · rw [if_pos hlt, if_pos hlt]; exact ⟨⟨h1, h2, rfl⟩, rfl⟩
      · rw [if_neg hlt, if_neg hlt]; exact ⟨⟨h1, hc, rfl⟩, rfl⟩
  · rw [if_neg hn, if_neg hn]
    exact ⟨⟨h1, hc, h3⟩, rfl⟩

/-- The test for negative sizes comes out the same in the next pass. -/
def PassOk (kind : EMKind) (M : SkyMap) (q : List Gauss) (fill : Bool) (st : EMState) : Prop :=
  movesCov kind = true → ∀ r, pixelLoop q.length (st.conv.zip (logtauLogdet st.conv)) st.sky
      (if fill then fillZeroWeight st.conv st.sky st.pixels else st.pixels) (clearSums st.sums, .fin 0, 0) = .ok r →
    ∀ m, emGetMoms q = .ok m → ∀ s ∈ r.1, GuardOk M m s

/-- A property of the states that is kept and makes the test come out the same. -/
structure KeepsGuard (kind : EMKind) (M : SkyMap) (vary fill : Bool) (q : List Gauss) (Inv : EMState → Prop) : Prop where
  ok : ∀ st, Inv st → PassOk kind M q fill st
  step : ∀ st c, Inv st → emCore kind vary q fill st = .ok c → ∀ l f, Inv { c.1 with last := l, frac := f }

theorem emTest_state {kind : EMKind} {conf : EMConf} {n : ℤ} {st : EMState} {c : Fl} {r : EMState × Bool}
    (h : emTest kind conf n st c = .ok r) : ∃ l f, r.1 = { st with last := l, frac := f } := by
  unfold emTest at h
  split_ifs at h
  · obtain ⟨f, -, rfl⟩ := exMap_ok h
    split_ifs
    · exact ⟨_, _, rfl⟩
    · exact ⟨_, _, rfl⟩
  · simp only [Except.ok.injEq] at h
    subst h
    exact ⟨_, _, rfl⟩

theorem emLoop_rel (hk : 0 < k) (hM : M.Iso) (hN : SameLin M N) (kind : EMKind) (hfull : kind ≠ .fluxonly → k = 1)
    {conf conf' : EMConf} (hmi : conf'.miniter = conf.miniter) (htol : conf'.tol = conf.tol)
    (hv : conf'.varySky = conf.varySky) (fill : Bool) {q q' : List Gauss} (hq : List.Forall₂ (Moved N) q q')
    {Inv : EMState → Prop} (hI : KeepsGuard kind M conf.varySky fill q Inv) : ∀ (n i : ℕ) {st st' : EMState},
    FullRel kind k M st st' → Inv st →
    SameOutcome (fun r r' : EMState × ℕ => FullRel kind k M r.1 r'.1 ∧ r'.2 = r.2)
      (emLoop kind conf q fill n i st) (emLoop kind conf' q' fill n i st') := by
  intro n
  induction n with
  | zero => intro i st st' h _; exact ⟨h, rfl⟩
  | succ n ih =>
    intro i st st' h hinv
    simp only [emLoop, emIter_core, hv]
    have hc := emCore_rel hk hM hN kind conf.varySky fill hq h.1 (hI.ok st hinv)
    have hit : SameOutcome (fun r r' : EMState × Bool => (FullRel kind k M r.1 r'.1 ∧ r'.2 = r.2) ∧ Inv r.1)
        ((emCore kind conf.varySky q fill st).bind fun c => emTest kind conf ((i : ℤ) + 1) c.1 c.2)
        ((emCore kind conf.varySky q' fill st').bind fun c => emTest kind conf' ((i : ℤ) + 1) c.1 c.2) := by
      refine so_bind hc fun c c' ec hcc => ?_
      obtain ⟨g1, g2, ⟨g3, g4⟩, g5, g6⟩ := hcc
      have ht := emTest_rel (M := M) hk kind hfull ((i : ℤ) + 1) hmi htol
        (st := c.1) (st' := c'.1) ⟨g1, by rw [g3, g5]; exact h.2.1, by rw [g4, g6]; exact h.2.2⟩ g2
      rcases e1 : emTest kind conf ((i : ℤ) + 1) c.1 c.2 with e | r <;>
        rcases e2 : emTest kind conf' ((i : ℤ) + 1) c'.1 c'.2 with e' | r' <;> rw [e1, e2] at ht
      · exact ht
      · exact ht.elim
      · exact ht.elim
      · obtain ⟨l, f, hr⟩ := emTest_state e1
        exact ⟨ht, by rw [hr]; exact hI.step st c hinv ec l f⟩
    refine so_bind hit fun r r' _ hr => ?_
    obtain ⟨⟨r1, r2⟩, r3⟩ := hr
    rw [r2]
    cases hb : r.2
    · simp only [Bool.false_eq_true, if_false]
      exact ih (i + 1) r1 r3
    · simp only [if_true]
      exact ⟨r1, rfl⟩

/-- `n` passes, whatever the convergence tests said. -/
inductive CoreSteps (kind : EMKind) (vary : Bool) (q : List Gauss) (fill : Bool) : ℕ → EMState → EMState → Prop
  | zero (st : EMState) : CoreSteps kind vary q fill 0 st st
  | succ (n : ℕ) (st b : EMState) (c : EMState × Fl) (l : Fl) (f : Option Fl) : emCore kind vary q fill st = .ok c →
      CoreSteps kind vary q fill n { c.1 with last := l, frac := f } b → CoreSteps kind vary q fill (n + 1) st b

theorem emLoop_steps (kind : EMKind) (conf : EMConf) (q : List Gauss) (fill : Bool) : ∀ (n i : ℕ) (st : EMState)
    (r : EMState × ℕ), emLoop kind conf q fill n i st = .ok r →
    ∃ m, r.2 = i + m ∧ CoreSteps kind conf.varySky q fill m st r.1 := by
  intro n
  induction n with
  | zero =>
    intro i st r h
    simp only [emLoop, Except.ok.injEq] at h
    subst h
    exact ⟨0, rfl, .zero _⟩
  | succ n ih =>
    intro i st r h
    simp only [emLoop, emIter_core] at h
    obtain ⟨y, e1, h⟩ := exBind_ok h
    obtain ⟨c, e2, e3⟩ := exBind_ok e1
    obtain ⟨l, f, hy⟩ := emTest_state e3
    split_ifs at h
    · simp only [Except.ok.injEq] at h
      subst h
      refine ⟨1, rfl, .succ 0 _ _ c l f e2 ?_⟩
      rw [hy]
      exact .zero _
    · obtain ⟨m, h1, h2⟩ := ih _ _ _ h
      rw [hy] at h2
      exact ⟨m + 1, by omega, .succ m _ _ c l f e2 h2⟩

theorem steps_rel (hk : 0 < k) (hM : M.Iso) (hN : SameLin M N) (kind : EMKind) (vary fill : Bool)
    {q q' : List Gauss} (hq : List.Forall₂ (Moved N) q q') {Inv : EMState → Prop}
    (hI : KeepsGuard kind M vary fill q Inv) : ∀ (n : ℕ) {st st' b b' : EMState}, StateRel k M st st' → Inv st →
    CoreSteps kind vary q fill n st b → CoreSteps kind vary q' fill n st' b' → StateRel k M b b' := by
  intro n
  induction n with
  | zero => intro st st' b b' h _ h1 h2; cases h1; cases h2; exact h
  | succ n ih =>
    intro st st' b b' h hinv h1 h2
    cases h1 with
    | succ _ _ _ c l f e1 s1 =>
      cases h2 with
      | succ _ _ _ c' l' f' e2 s2 =>
        have hc := emCore_rel hk hM hN kind vary fill hq h (hI.ok st hinv)
        rw [e1, e2] at hc
        exact ih (st := { c.1 with last := l, frac := f }) (st' := { c'.1 with last := l', frac := f' }) hc.1
          (hI.step st c hinv e1 l f) s1 s2

/-! ### The runner -/

/-- What the runners return. -/
def RunRel (k : ℝ) (M : SkyMap) (r r' : EMRun) : Prop :=
  List.Forall₂ (Brighter k M) r.gmix r'.gmix ∧ List.Forall₂ (Brighter k M) r.conv r'.conv ∧ r'.sky = k * r.sky

theorem run_of_state {st st' : EMState} (h : StateRel k M st st') (n n' : ℕ) :
    RunRel k M ⟨n, st.frac, st.sky, st.gmix.map fun g => { g with normSet := false }, st.conv, st.pixels⟩
      ⟨n', st'.frac, st'.sky, st'.gmix.map fun g => { g with normSet := false }, st'.conv, st'.pixels⟩ := by
  obtain ⟨h1, h2, -, -, h5⟩ := h
  refine ⟨?_, h2.imp fun _ _ h => h.1, h5⟩
  simp only
  rw [List.forall₂_map_left_iff, List.forall₂_map_right_iff]
  exact h1.imp fun _ _ h => h

/-- The state the loop starts with. -/
def startState (kind : EMKind) (pixels : List Pixel) (gmix conv : List Gauss) (sky : ℝ) : EMState :=
  ⟨gmix, conv, List.replicate gmix.length EMSums.zero, pixels, sky,
    match kind with | .fluxonly => .fin (psum gmix) | _ => .fin (-9999.9e9), none⟩

theorem emRun_start (kind : EMKind) (conf : EMConf) (pixels : List Pixel) (gmix psf conv cv : List Gauss) (fill : Bool)
    (h : gmixSetNorms conv = (cv, .ok ())) (hm : ¬ conf.maxiter ≤ 0) :
    emRun kind conf pixels gmix psf conv fill =
      (emLoop kind conf psf fill conf.maxiter.toNat 0 (startState kind pixels gmix cv conf.sky)).map
        fun r => ⟨r.2, r.1.frac, r.1.sky, r.1.gmix.map fun g => { g with normSet := false }, r.1.conv, r.1.pixels⟩ := by
  unfold emRun
  rw [h]
  simp only
  rw [if_neg hm]
  cases kind <;> rfl

theorem start_rel {kind : EMKind} {pixels pixels' : List Pixel} {gmix gmix' cv cv' : List Gauss} {sky : ℝ}
    (hg : List.Forall₂ (Brighter k M) gmix gmix') (hc : List.Forall₂ (ConvRel k M) cv cv')
    (hp : List.Forall₂ (BrighterPixel k M) pixels pixels') :
    FullRel kind k M (startState kind pixels gmix cv sky) (startState kind pixels' gmix' cv' (k * sky)) := by
  refine ⟨⟨hg, hc, ?_, hp, rfl⟩, ⟨fun hf => ?_, fun hf _ => ?_⟩, rfl⟩
  · simp only [startState, List.length_replicate, hg.length_eq]
  · subst hf
    exact ⟨_, rfl, by simp only [startState]; rw [psum_rel hg]⟩
  · cases kind <;> first | exact absurd rfl hf | rfl

theorem emRun_rel (hk : 0 < k) (hM : M.Iso) (hN : SameLin M N) (kind : EMKind) (hfull : kind ≠ .fluxonly → k = 1)
    {conf conf' : EMConf} (hc : conf' = { conf with sky := k * conf.sky }) (fill : Bool) {q q' : List Gauss}
    (hq : List.Forall₂ (Moved N) q q') {pxs pxs' : List Pixel} (hp : List.Forall₂ (BrighterPixel k M) pxs pxs')
    {gm gm' cv cv' : List Gauss} (hg : List.Forall₂ (Brighter k M) gm gm') (hcv : List.Forall₂ (FreshRel k M) cv cv')
    {Inv : EMState → Prop} (hI : KeepsGuard kind M conf.varySky fill q Inv)
    (h0 : (gmixSetNorms cv).2 = .ok () → Inv (startState kind pxs gm (gmixSetNorms cv).1 conf.sky)) :
    SameOutcome (fun r r' : EMRun => RunRel k M r r' ∧ r'.numiter = r.numiter ∧ r'.frac = r.frac)
      (emRun kind conf pxs gm q cv fill) (emRun kind conf' pxs' gm' q' cv' fill) := by
  subst hc
  rcases norms_rel hM hcv with ⟨i1, i2⟩ | ⟨i1, i2, i3⟩
  · rcases e : gmixSetNorms cv with ⟨n, _ | _⟩ <;> rcases e' : gmixSetNorms cv' with ⟨n', _ | _⟩ <;>
      rw [e] at i1 <;> rw [e'] at i2 <;> simp only at i1 i2
    · cases i1; cases i2; unfold emRun; rw [e, e']; exact rfl
    · cases i2
    · cases i1
    · cases i1
  · have e : gmixSetNorms cv = ((gmixSetNorms cv).1, .ok ()) := by rw [← i1]
    have e' : gmixSetNorms cv' = ((gmixSetNorms cv').1, .ok ()) := by rw [← i2]
    by_cases hm : conf.maxiter ≤ 0
    · unfold emRun
      rw [e, e']
      simp only
      rw [if_pos hm, if_pos hm]
      exact rfl
    · rw [emRun_start kind conf pxs gm q cv _ fill e hm, emRun_start kind { conf with sky := k * conf.sky } pxs' gm' q' cv' _ fill e' hm]
      refine so_map (emLoop_rel hk hM hN kind hfull (by rfl) (by rfl) (by rfl) fill hq hI _ 0
        (start_rel hg i3 hp) (h0 i1)) fun r r' hr => ?_
      exact ⟨run_of_state hr.1.1 _ _, hr.2, hr.1.2.2⟩

theorem emRun_steps {kind : EMKind} {conf : EMConf} {pxs : List Pixel} {gm q cv : List Gauss} {fill : Bool} {r : EMRun}
    (h : emRun kind conf pxs gm q cv fill = .ok r) : (gmixSetNorms cv).2 = .ok () ∧
    ∃ st, CoreSteps kind conf.varySky q fill r.numiter (startState kind pxs gm (gmixSetNorms cv).1 conf.sky) st ∧
      r = ⟨r.numiter, st.frac, st.sky, st.gmix.map fun g => { g with normSet := false }, st.conv, st.pixels⟩ := by
  rcases e : gmixSetNorms cv with ⟨n, e1 | u⟩
  · unfold emRun at h; rw [e] at h; cases h
  · cases u
    refine ⟨rfl, ?_⟩
    by_cases hm : conf.maxiter ≤ 0
    · unfold emRun at h; rw [e] at h; simp only at h; rw [if_pos hm] at h; cases h
    · rw [emRun_start kind conf pxs gm q cv _ fill e hm] at h
      obtain ⟨x, h1, rfl⟩ := exMap_ok h
      obtain ⟨m, h2, h3⟩ := emLoop_steps _ _ _ _ _ _ _ _ h1
      rw [zero_add] at h2
      exact ⟨x.1, by simp only; rw [h2]; exact h3, rfl⟩

/-! ### When the test for negative sizes comes out the same -/

theorem keeps_axes (kind : EMKind) (vary fill : Bool) (q : List Gauss) (h : M.Axes ∨ movesCov kind = false) :
    KeepsGuard kind M vary fill q fun _ => True := by
  refine ⟨fun st _ hm r _ m _ s _ => ?_, fun _ _ _ _ _ _ => trivial⟩
  rcases h with h | h
  · exact .inl h
  · rw [h] at hm; cases hm

theorem sm_quad (conv : List Gauss) (sky : ℝ) (px : Pixel) (x y : ℝ) : ∀ blk : List Gauss,
    shareMoment (fun dv _ => dv ^ 2) conv sky blk px * x ^ 2 + 2 * shareMoment (fun dv du => dv * du) conv sky blk px * (x * y) +
      shareMoment (fun _ du => du ^ 2) conv sky blk px * y ^ 2 =
    shareMoment (fun dv du => (dv * x + du * y) ^ 2) conv sky blk px := by
  intro blk
  unfold shareMoment
  induction blk with
  | nil => simp
  | cons g blk ih =>
    simp only [List.map_cons, List.sum_cons]
    rw [← ih]
    ring

theorem tot_quad (conv : List Gauss) (sky : ℝ) (blk : List Gauss) (x y : ℝ) : ∀ pxs : List Pixel,
    (pxs.map (shareMoment (fun dv _ => dv ^ 2) conv sky blk)).sum * x ^ 2 +
      2 * (pxs.map (shareMoment (fun dv du => dv * du) conv sky blk)).sum * (x * y) +
      (pxs.map (shareMoment (fun _ du => du ^ 2) conv sky blk)).sum * y ^ 2 =
    (pxs.map (shareMoment (fun dv du => (dv * x + du * y) ^ 2) conv sky blk)).sum := by
  intro pxs
  induction pxs with
  | nil => simp
  | cons p pxs ih =>
    simp only [List.map_cons, List.sum_cons]
    rw [← ih, ← sm_quad]
    ring

open Ngmix.Proof.EM in
/-- The states of a fit of nonnegative data. -/
def NonnegState (q : List Gauss) (st : EMState) : Prop := Sized q.length st ∧ Nonneg q (point st)

open Ngmix.Proof.EM in
theorem keeps_nonneg (kind : EMKind) (vary fill : Bool) (q : List Gauss) (hq : ∀ g ∈ q, 0 ≤ g.p)
    (hz : emGetMoms q = .ok (0, 0, 0)) : KeepsGuard kind M vary fill q (NonnegState q) := by
  refine ⟨fun st hst hm r hr m hmm s hs => ?_, fun st c hst hc l f => ?_⟩
  · right
    rw [hz, Except.ok.injEq] at hmm
    subst hmm
    obtain ⟨hsz, c1, c2, c3, c4⟩ := hst
    rw [filled_eq] at hr
    have hcv := convolved_nonneg c1 c2 hq
    have hzip : (st.conv.zip (logtauLogdet st.conv)).map Prod.fst = st.conv := by
      rw [List.map_fst_zip]; simp [logtauLogdet]
    have hcl : (clearSums st.sums).length = st.sums.length := by simp [clearSums]
    obtain ⟨k1, k2, k3, -⟩ := pixelLoop_ok q.length _ st.sky _ _ _ _ r (by rw [hzip, hcl, hsz.2, hsz.1]) hr
    rw [hzip] at k2 k3
    have hpx : ∀ px ∈ filled fill (point st), 0 ≤ px.val ∧ 0 ≤ px.area := by
      intro px hx
      obtain ⟨p, hp, rfl⟩ := List.mem_map.mp hx
      obtain ⟨q1, q2⟩ := c3 p hp
      split_ifs
      · exact ⟨add_nonneg c4 (predicted_nonneg q2 hcv), q2⟩
      · exact ⟨q1, q2⟩
    have hden : ∀ px ∈ filled fill (point st), 0 < predicted st.conv px + st.sky := fun px hx =>
      lt_of_le_of_ne (add_nonneg (predicted_nonneg (hpx px hx).2 hcv) c4) (Ne.symm (k2 px hx))
    obtain ⟨i, hi, rfl⟩ := List.getElem_of_mem hs
    rw [List.forall₂_iff_get] at k3
    have hi' : i < ((clearSums st.sums).zip (blocks q.length (clearSums st.sums).length st.conv)).length := by
      rw [k3.1]; exact hi
    have hadv := k3.2 i hi' hi
    simp only [List.get_eq_getElem] at hadv
    have hmem := List.of_mem_zip (a := _) (b := _) (l₁ := clearSums st.sums) (List.getElem_mem hi')
    have hzero : ((clearSums st.sums).zip (blocks q.length (clearSums st.sums).length st.conv))[i].1 =
        ⟨0, 0, 0, 0, 0, 0, 0, 0, 0, 0, 0, 0⟩ := by
      have := hmem.1
      simp only [clearSums, List.mem_map] at this
      obtain ⟨_, -, e⟩ := this
      exact e.symm
    simp only [List.get_eq_getElem] at hmem
    generalize hb : ((clearSums st.sums).zip (blocks q.length (clearSums st.sums).length st.conv))[i] = xb at *
    obtain ⟨a1, -, -, a4, a5, a6⟩ := hadv
    rw [hzero] at a1 a4 a5 a6
    simp only [zero_add] at a1 a4 a5 a6
    have hbl : ∀ g ∈ xb.2, NormsCurrent g ∧ 0 < g.irr + g.icc ∧ 0 ≤ g.p :=
      fun g hg => hcv g (mem_blocks_sub _ _ _ _ hmem.2 g hg)
    have hsh : ∀ px ∈ filled fill (point st), ∀ b : List Gauss,
        (∀ g ∈ b, NormsCurrent g ∧ 0 < g.irr + g.icc ∧ 0 ≤ g.p) → 0 ≤ share st.conv st.sky b px := by
      intro px hx b hb
      exact div_nonneg (mul_nonneg (hpx px hx).1 (predicted_nonneg (hpx px hx).2 hb)) (hden px hx).le
    have hp0 : 0 ≤ r.1[i].pnew := by
      rw [a1]
      refine List.sum_nonneg ?_
      intro z hz
      obtain ⟨px, hx, rfl⟩ := List.mem_map.mp hz
      exact hsh px hx _ hbl
    intro x y
    simp only [sub_zero]
    have hq2 : 0 ≤ r.1[i].v2sum * x ^ 2 + 2 * r.1[i].uvsum * (x * y) + r.1[i].u2sum * y ^ 2 := by
      rw [a4, a5, a6, tot_quad]
      refine List.sum_nonneg ?_
      intro z hz
      obtain ⟨px, hx, rfl⟩ := List.mem_map.mp hz
      refine List.sum_nonneg ?_
      intro w hw
      obtain ⟨g, hg, rfl⟩ := List.mem_map.mp hw
      refine mul_nonneg (sq_nonneg _) (hsh px hx _ ?_)
      intro g' hg'
      rw [List.mem_singleton] at hg'
      subst hg'
      exact hbl _ hg
    have hinv : 0 ≤ 1 / r.1[i].pnew := one_div_nonneg.2 hp0
    have : r.1[i].v2sum * (1 / r.1[i].pnew) * x ^ 2 + 2 * (r.1[i].uvsum * (1 / r.1[i].pnew)) * (x * y) +
        r.1[i].u2sum * (1 / r.1[i].pnew) * y ^ 2 =
        (r.1[i].v2sum * x ^ 2 + 2 * r.1[i].uvsum * (x * y) + r.1[i].u2sum * y ^ 2) * (1 / r.1[i].pnew) := by ring
    rw [this]
    exact mul_nonneg hq2 hinv
  · obtain ⟨hsz, hn⟩ := hst
    have hit : emIter kind ⟨0, 1, 0, 0, vary⟩ q fill 0 st = .ok ({ c.1 with last := c.2 }, false) := by
      rw [emIter_core, hc]
      simp [Except.bind, emTest]
    obtain ⟨j1, -, j2⟩ := emIter_ok kind _ q fill 0 st _ _ hsz hit
    exact ⟨j1, update_nonneg hq _ _ j2 hn⟩

end

end Ngmix.Proof.EMUnit
