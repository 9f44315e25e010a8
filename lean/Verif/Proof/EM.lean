import Verif.Spec.EM
import Verif.Props.GMix
import Verif.Props.Norms
import Verif.Props.FastExp
import Verif.Proof.ExceptLemmas
import Mathlib.Tactic.Ring
import Mathlib.Tactic.FieldSimp
import Mathlib.Tactic.Linarith
import Mathlib.Tactic.Positivity

/-!
# Lemmas: the EM runners perform EM updates
-/

namespace Ngmix.Proof.EM

open Ngmix Ngmix.Spec Ngmix.Props

noncomputable section

/-- The scratch sums of one component in one pixel. -/
def setScratch (px : Pixel) (s : EMSums) (blk : List Gauss) : EMSums :=
  let tot : (Gauss → ℝ) → ℝ := fun f => (blk.map fun g => f g * gaussEvalFast g px.v px.u px.area).sum
  { s with gi := predicted blk px, tvsum := px.v * predicted blk px, tusum := px.u * predicted blk px,
           tv2sum := tot fun g => (px.v - g.row) ^ 2, tuvsum := tot fun g => (px.v - g.row) * (px.u - g.col),
           tu2sum := tot fun g => (px.u - g.col) ^ 2 }

theorem foldl_scratch (px : Pixel) : ∀ (l : List (Gauss × Fl × Fl)) (s : EMSums) (gsum : ℝ) (logL : Fl),
    ∃ logL', l.foldl (scratchGauss px) (s, gsum, logL) =
      ({ s with gi := s.gi + predicted (l.map Prod.fst) px,
                tvsum := s.tvsum + px.v * predicted (l.map Prod.fst) px,
                tusum := s.tusum + px.u * predicted (l.map Prod.fst) px,
                tv2sum := s.tv2sum + ((l.map Prod.fst).map fun g => (px.v - g.row) ^ 2 *
                  gaussEvalFast g px.v px.u px.area).sum,
                tuvsum := s.tuvsum + ((l.map Prod.fst).map fun g => (px.v - g.row) * (px.u - g.col) *
                  gaussEvalFast g px.v px.u px.area).sum,
                tu2sum := s.tu2sum + ((l.map Prod.fst).map fun g => (px.u - g.col) ^ 2 *
                  gaussEvalFast g px.v px.u px.area).sum },
        gsum + predicted (l.map Prod.fst) px, logL') := by
  intro l
  induction l with
  | nil => intro s gsum logL; exact ⟨logL, by simp [predicted]⟩
  | cons g l ih =>
    intro s gsum logL
    rw [List.foldl_cons]
    obtain ⟨logL', h⟩ := ih (scratchGauss px (s, gsum, logL) g).1 (scratchGauss px (s, gsum, logL) g).2.1
      (scratchGauss px (s, gsum, logL) g).2.2
    refine ⟨logL', h.trans ?_⟩
    simp only [scratchGauss, predicted, List.map_cons, List.sum_cons, Prod.mk.injEq, EMSums.mk.injEq,
      and_true]
    refine ⟨⟨?_, ?_, ?_, ?_, ?_, ?_⟩, ?_⟩ <;> ring

theorem scratchAll_eq (m : ℕ) (px : Pixel) : ∀ (ss : List EMSums) (conv : List (Gauss × Fl × Fl)) (gsum : ℝ)
    (logL : Fl), ∃ logL', scratchAll m px ss conv gsum logL =
      (List.zipWith (setScratch px) ss (blocks m ss.length (conv.map Prod.fst)),
        gsum + ((blocks m ss.length (conv.map Prod.fst)).map fun b => predicted b px).sum, logL') := by
  intro ss
  induction ss with
  | nil => intro conv gsum logL; exact ⟨logL, by simp [scratchAll, blocks]⟩
  | cons s ss ih =>
    intro conv gsum logL
    obtain ⟨l1, h1⟩ := foldl_scratch px (conv.take m) (resetScratch s) gsum logL
    obtain ⟨l2, h2⟩ := ih (conv.drop m) (gsum + predicted ((conv.take m).map Prod.fst) px) l1
    refine ⟨l2, ?_⟩
    simp only [scratchAll]
    rw [h1]
    simp only
    rw [h2]
    have ht : (conv.take m).map Prod.fst = (conv.map Prod.fst).take m := by rw [List.map_take]
    rw [ht]
    simp only [List.length_cons, blocks, List.zipWith_cons_cons, List.map_drop,
      List.map_cons, List.sum_cons, Prod.mk.injEq, List.cons.injEq, and_true]
    refine ⟨?_, by ring⟩
    simp only [setScratch, resetScratch, zero_add]

theorem blocks_length (m : ℕ) : ∀ (n : ℕ) (l : List Gauss), (blocks m n l).length = n := by
  intro n
  induction n with
  | zero => intro l; rfl
  | succ n ih => intro l; simp [blocks, ih]

theorem predicted_append (a b : List Gauss) (px : Pixel) :
    predicted (a ++ b) px = predicted a px + predicted b px := by
  simp [predicted]

theorem blocks_total (m : ℕ) (px : Pixel) : ∀ (n : ℕ) (l : List Gauss), l.length = n * m →
    ((blocks m n l).map fun b => predicted b px).sum = predicted l px := by
  intro n
  induction n with
  | zero => intro l h; simp at h; simp [blocks, h, predicted]
  | succ n ih =>
    intro l h
    simp only [blocks, List.map_cons, List.sum_cons]
    rw [ih (l.drop m) (by rw [List.length_drop, h, Nat.succ_mul]; omega), ← predicted_append,
      List.take_append_drop]

/-- Accumulators of a component that have advanced by the shares of the pixels. -/
def Advanced (conv : List Gauss) (sky : ℝ) (pxs : List Pixel) (x : EMSums × List Gauss) (s' : EMSums) : Prop :=
  let tot : (Pixel → ℝ) → ℝ := fun f => (pxs.map f).sum
  s'.pnew = x.1.pnew + tot (share conv sky x.2) ∧
  s'.vsum = x.1.vsum + tot (fun px => px.v * share conv sky x.2 px) ∧
  s'.usum = x.1.usum + tot (fun px => px.u * share conv sky x.2 px) ∧
  s'.v2sum = x.1.v2sum + tot (shareMoment (fun dv _ => dv ^ 2) conv sky x.2) ∧
  s'.uvsum = x.1.uvsum + tot (shareMoment (fun dv du => dv * du) conv sky x.2) ∧
  s'.u2sum = x.1.u2sum + tot (shareMoment (fun _ du => du ^ 2) conv sky x.2)

theorem shareMoment_eq (f : ℝ → ℝ → ℝ) (conv : List Gauss) (sky : ℝ) (blk : List Gauss) (px : Pixel) :
    shareMoment f conv sky blk px =
      (blk.map fun g => f (px.v - g.row) (px.u - g.col) * gaussEvalFast g px.v px.u px.area).sum *
        (px.val / (predicted conv px + sky)) := by
  unfold shareMoment
  rw [← List.sum_map_mul_right]
  congr 1
  refine List.map_congr_left fun g _ => ?_
  simp only [share, predicted, List.map_cons, List.map_nil, List.sum_cons, List.sum_nil, add_zero]
  ring

/-- One pixel. -/
theorem advance_one (conv : List Gauss) (sky : ℝ) (px : Pixel) : ∀ (ss : List EMSums)
    (bs : List (List Gauss)), ss.length = bs.length → List.Forall₂ (Advanced conv sky [px]) (ss.zip bs)
      (doSums px (predicted conv px + sky) (List.zipWith (setScratch px) ss bs)) := by
  intro ss
  induction ss with
  | nil => intro bs h; simp [doSums]
  | cons s ss ih =>
    intro bs h
    rcases bs with _ | ⟨b, bs⟩
    · simp at h
    simp only [List.zip_cons_cons, List.zipWith_cons_cons, doSums, List.map_cons]
    refine .cons ?_ (ih bs (by simpa using h))
    simp only [Advanced, List.map_cons, List.map_nil, List.sum_cons, List.sum_nil, add_zero,
      shareMoment_eq, setScratch, share]
    refine ⟨?_, ?_, ?_, trivial, trivial, trivial⟩ <;> ring

theorem pixelLoop_ok (m : ℕ) (cv : List (Gauss × Fl × Fl)) (sky : ℝ) : ∀ (pxs : List Pixel)
    (ss : List EMSums) (el : Fl) (sk : ℝ) (r : List EMSums × Fl × ℝ), (cv.map Prod.fst).length = ss.length * m →
    pixelLoop m cv sky pxs (ss, el, sk) = .ok r →
    r.1.length = ss.length ∧ (∀ px ∈ pxs, predicted (cv.map Prod.fst) px + sky ≠ 0) ∧
    List.Forall₂ (Advanced (cv.map Prod.fst) sky pxs) (ss.zip (blocks m ss.length (cv.map Prod.fst))) r.1 ∧
    r.2.2 = sk + (pxs.map fun px => px.val * sky / (predicted (cv.map Prod.fst) px + sky)).sum := by
  intro pxs
  induction pxs with
  | nil =>
    intro ss el sk r hl h
    simp only [pixelLoop, Except.ok.injEq] at h
    subst h
    refine ⟨rfl, by simp, ?_, by simp⟩
    rw [List.forall₂_iff_get]
    refine ⟨by simp [blocks_length], ?_⟩
    intro i h1 h2
    simp [Advanced]
  | cons px pxs ih =>
    intro ss el sk r hl h
    simp only [pixelLoop, doScratchSums] at h
    obtain ⟨l', hs⟩ := scratchAll_eq m px ss cv 0 (.fin 0)
    rw [hs] at h
    simp only [zero_add] at h
    rw [blocks_total m px ss.length _ hl] at h
    by_cases h0 : predicted (cv.map Prod.fst) px + sky = 0
    · rw [if_pos h0] at h; simp at h
    · rw [if_neg h0] at h
      have hz : (List.zipWith (setScratch px) ss (blocks m ss.length (cv.map Prod.fst))).length = ss.length := by
        simp [blocks_length]
      obtain ⟨k1, k2, k3, k4⟩ := ih _ _ _ r (by simp only [doSums, List.length_map, hz]; simpa using hl) h
      have hz' : (doSums px (predicted (cv.map Prod.fst) px + sky)
        (List.zipWith (setScratch px) ss (blocks m ss.length (cv.map Prod.fst)))).length = ss.length := by
        simp only [doSums, List.length_map, hz]
      have hadv := advance_one (cv.map Prod.fst) sky px ss (blocks m ss.length (cv.map Prod.fst))
        (by rw [blocks_length])
      rw [hz'] at k1 k3
      refine ⟨k1, ?_, ?_, ?_⟩
      · intro q hq
        rcases List.mem_cons.mp hq with rfl | hq
        · exact h0
        · exact k2 q hq
      · rw [List.forall₂_iff_get] at k3 hadv ⊢
        refine ⟨by simp [blocks_length, k1], ?_⟩
        intro i hi1 hi2
        have hi : i < ss.length := by simpa [blocks_length] using hi1
        have a1 := hadv.2 i hi1 (by rw [hz']; exact hi)
        have a2 := k3.2 i (by simp [blocks_length, hz', hi]) hi2
        simp only [List.get_eq_getElem, List.getElem_zip] at a1 a2 ⊢
        simp only [Advanced, List.map_cons, List.map_nil, List.sum_cons, List.sum_nil, add_zero] at a1 a2 ⊢
        obtain ⟨a11, a12, a13, a14, a15, a16⟩ := a1
        obtain ⟨a21, a22, a23, a24, a25, a26⟩ := a2
        rw [a21, a22, a23, a24, a25, a26, a11, a12, a13, a14, a15, a16]
        refine ⟨?_, ?_, ?_, ?_, ?_, ?_⟩ <;> ring
      · rw [k4, List.map_cons, List.sum_cons, mul_comm sky px.val]; ring

theorem foldl_moms (r c : ℝ) : ∀ (l : List Gauss) (a b d : ℝ), l.foldl (fun (acc : ℝ × ℝ × ℝ) g =>
      let rowdiff := g.row - r
      let coldiff := g.col - c
      (acc.1 + g.p * (g.irr + rowdiff ^ 2), acc.2.1 + g.p * (g.irc + rowdiff * coldiff),
        acc.2.2 + g.p * (g.icc + coldiff ^ 2))) (a, b, d) =
    (a + (l.map fun g => g.p * (g.irr + (g.row - r) * (g.row - r))).sum,
      b + (l.map fun g => g.p * (g.irc + (g.row - r) * (g.col - c))).sum,
      d + (l.map fun g => g.p * (g.icc + (g.col - c) * (g.col - c))).sum) := by
  intro l
  induction l with
  | nil => simp
  | cons g l ih =>
    intro a b d
    rw [List.foldl_cons, ih]
    simp only [List.map_cons, List.sum_cons, Prod.mk.injEq]
    refine ⟨?_, ?_, ?_⟩ <;> ring

theorem emGetMoms_ok (gm : List Gauss) (m : ℝ × ℝ × ℝ) (h : emGetMoms gm = .ok m) :
    SecondMoments gm m.1 m.2.1 m.2.2 := by
  rcases hc : gmixGetCen gm with e | ⟨r, c, f⟩
  · simp [emGetMoms, hc, Except.bind] at h
  · obtain ⟨h1, rfl⟩ := (gmixGetCen_ok gm r c f).mp hc
    simp only [emGetMoms, hc, Except.bind] at h
    rw [foldl_moms, if_neg h1.1] at h
    simp only [zero_add, Except.ok.injEq] at h
    subst h
    refine ⟨r, c, h1, ?_, ?_, ?_⟩ <;> rw [mul_div_cancel₀ _ h1.1]

theorem emCov_regular (q : ℝ × ℝ × ℝ) (s : EMSums) :
    Regular (s.v2sum / s.pnew - q.1) (s.uvsum / s.pnew - q.2.1) (s.u2sum / s.pnew - q.2.2)
      (emCov q s).1 (emCov q s).2.1 (emCov q s).2.2 := by
  have hl : gmixLowDetval = (1e-200 : ℝ) := by norm_num [gmixLowDetval]
  unfold Regular emCov
  simp only [mul_one_div]
  by_cases h : s.v2sum / s.pnew - q.1 < 0 ∨ s.u2sum / s.pnew - q.2.2 < 0
  · rw [if_pos h, if_pos h]
    simp only
    rw [if_neg (by rw [hl]; norm_num)]
    exact ⟨rfl, rfl, rfl⟩
  · rw [if_neg h, if_neg h]
    simp only
    by_cases h2 : (s.v2sum / s.pnew - q.1) * (s.u2sum / s.pnew - q.2.2) - (s.uvsum / s.pnew - q.2.1) ^ 2 < 1e-200
    · rw [if_pos h2, if_pos (by rw [hl]; exact h2)]
      exact ⟨rfl, rfl, rfl⟩
    · rw [if_neg h2, if_neg (by rw [hl]; exact h2)]
      exact ⟨rfl, rfl, rfl⟩

theorem setGauss_ok (kind : EMKind) (psf : List Gauss) (q : ℝ × ℝ × ℝ) (a : EMPoint) (pxs : List Pixel)
    (hq : movesCov kind = true → SecondMoments psf q.1 q.2.1 q.2.2) (g : Gauss) (s : EMSums) (blk : List Gauss)
    (hs : Advanced a.conv a.sky pxs (⟨0, 0, 0, 0, 0, 0, 0, 0, 0, 0, 0, 0⟩, blk) s) (g' : Gauss)
    (h : setGaussFromSums kind q g s = .ok g') :
    ComponentUpdate kind psf a pxs g blk g' ∧ g'.normSet = false := by
  simp only [Advanced, zero_add] at hs
  obtain ⟨a1, a2, a3, a4, a5, a6⟩ := hs
  have hr := emCov_regular q s
  rw [a4, a5, a6] at hr
  have c1 : ∀ x y : ℝ, y ≠ 0 → x * (1 / y) * y = x := fun x y hy => by field_simp
  cases kind <;> simp only [setGaussFromSums] at h
  · split_ifs at h with h0
    cases h
    refine ⟨⟨a1, fun _ => h0, ?_, ?_⟩, rfl⟩
    · rw [if_pos (by rfl)]; simp only [← a2, ← a3]; exact ⟨c1 _ _ h0, c1 _ _ h0⟩
    · rw [if_pos (by rfl)]; exact ⟨_, _, _, hq rfl, hr⟩
  · split_ifs at h with h0
    cases h
    refine ⟨⟨a1, fun _ => h0, ?_, ?_⟩, rfl⟩
    · rw [if_neg (by simp [movesCen])]; exact ⟨rfl, rfl⟩
    · rw [if_pos (by rfl)]; exact ⟨_, _, _, hq rfl, hr⟩
  · split_ifs at h with h0
    cases h
    refine ⟨⟨a1, fun _ => h0, ?_, ?_⟩, rfl⟩
    · rw [if_pos (by rfl)]; simp only [← a2, ← a3]; exact ⟨c1 _ _ h0, c1 _ _ h0⟩
    · rw [if_neg (by simp [movesCov])]; exact ⟨rfl, rfl, rfl⟩
  · cases h
    refine ⟨⟨a1, fun h => absurd rfl h, ?_, ?_⟩, rfl⟩
    · rw [if_neg (by simp [movesCen])]; exact ⟨rfl, rfl⟩
    · rw [if_neg (by simp [movesCov])]; exact ⟨rfl, rfl, rfl⟩

theorem setLoop_ok (kind : EMKind) (psf : List Gauss) (q : ℝ × ℝ × ℝ) (a : EMPoint) (pxs : List Pixel)
    (hq : movesCov kind = true → SecondMoments psf q.1 q.2.1 q.2.2) : ∀ (gs : List Gauss) (ss : List EMSums)
    (bs : List (List Gauss)) (gs' : List Gauss), gs.length = ss.length →
    List.Forall₂ (fun b s => Advanced a.conv a.sky pxs (⟨0, 0, 0, 0, 0, 0, 0, 0, 0, 0, 0, 0⟩, b) s) bs ss →
    setFromSumsLoop kind q gs ss = .ok gs' →
    gs'.length = gs.length ∧ (∀ g ∈ gs', g.normSet = false) ∧
    List.Forall₂ (fun (x : Gauss × List Gauss) g' => ComponentUpdate kind psf a pxs x.1 x.2 g') (gs.zip bs) gs' := by
  intro gs
  induction gs with
  | nil => intro ss bs gs' hl hf h; simp [setFromSumsLoop] at h; subst h; simp
  | cons g gs ih =>
    intro ss bs gs' hl hf h
    rcases ss with _ | ⟨s, ss⟩
    · simp at hl
    rcases hf with _ | ⟨h1, h2⟩
    simp only [setFromSumsLoop] at h
    obtain ⟨g1, e1, e2⟩ := exBind_ok h
    obtain ⟨gs1, e3, rfl⟩ := exMap_ok e2
    obtain ⟨k1, k2⟩ := setGauss_ok kind psf q a pxs hq g s _ h1 g1 e1
    obtain ⟨k3, k4, k5⟩ := ih ss _ gs1 (by simpa using hl) h2 e3
    refine ⟨by simp [k3], ?_, .cons k1 k5⟩
    intro x hx
    rcases List.mem_cons.mp hx with rfl | hx
    · exact k2
    · exact k4 x hx

theorem convolved_norms (gm psf cv cv' : List Gauss) (h : gmixConvolve gm psf = .ok cv)
    (hn : gmixSetNorms cv = (cv', .ok ())) : IsConvolved gm psf cv' ∧ cv'.length = gm.length * psf.length := by
  rcases hc : gmixGetCen psf with e | ⟨r, c, f⟩
  · simp [gmixConvolve, hc, Except.map] at h
  obtain ⟨h1, rfl⟩ := (gmixGetCen_ok psf r c f).mp hc
  have hp := C19_pairs gm psf cv h r c h1
  have hd : ∀ g ∈ cv, DetCurrent g := by
    intro g hg
    obtain ⟨i, hi, e⟩ := List.getElem_of_mem hg
    rw [List.forall₂_iff_get] at hp
    have := hp.2 i (by rw [hp.1]; exact hi) hi
    rw [← e]
    exact this.2.2.2.2.2.2.1
  have hu := setNorms_ok_usable cv hd (by rw [hn])
  have hs := ((C20_set_norms cv hd).1 hu).2
  rw [hn] at hs
  simp only at hs
  refine ⟨⟨r, c, h1, ?_⟩, ?_⟩
  · rw [List.forall₂_iff_get] at hp hs ⊢
    refine ⟨by rw [hp.1, hs.1], ?_⟩
    intro i i1 i2
    have hi : i < cv.length := by rw [hs.1]; exact i2
    obtain ⟨p1, p2, p3, p4, p5, p6, p7, p8⟩ := hp.2 i i1 hi
    obtain ⟨⟨s1, s2, s3, s4, s5, s6⟩, t1, t2, t3⟩ := hs.2 i hi i2
    refine ⟨s4 ▸ p1, s5 ▸ p2, s6 ▸ p3, s2 ▸ p4, s3 ▸ p5, s1 ▸ p6, t1, t2, ?_⟩
    have := hu _ (List.getElem_mem hi)
    rw [← s4, ← s5, ← s6]
    exact this
  · have e := (C19_convolution gm psf cv h).1
    rw [← hs.length_eq, e]

theorem setFromSums_ok (kind : EMKind) (psf : List Gauss) (a : EMPoint) (pxs : List Pixel) (ss : List EMSums)
    (r : List Gauss × List Gauss) (hl : a.gmix.length = ss.length)
    (hf : List.Forall₂ (fun b s => Advanced a.conv a.sky pxs (⟨0, 0, 0, 0, 0, 0, 0, 0, 0, 0, 0, 0⟩, b) s)
      (blocks psf.length a.gmix.length a.conv) ss)
    (h : setFromSums kind a.gmix psf ss = .ok r) :
    r.1.length = a.gmix.length ∧ r.2.length = r.1.length * psf.length ∧ IsConvolved r.1 psf r.2 ∧
    (∀ g ∈ r.1, g.normSet = false) ∧
    List.Forall₂ (fun (x : Gauss × List Gauss) g' => ComponentUpdate kind psf a pxs x.1 x.2 g')
      (a.gmix.zip (blocks psf.length a.gmix.length a.conv)) r.1 := by
  unfold setFromSums at h
  obtain ⟨q, e1, e2⟩ := exBind_ok h
  obtain ⟨gm', e3, e4⟩ := exBind_ok e2
  obtain ⟨cv, e5, e6⟩ := exBind_ok e4
  rcases hn : gmixSetNorms cv with ⟨cv', _ | u⟩
  · rw [hn] at e6; simp at e6
  · rw [hn] at e6
    simp only [Except.ok.injEq] at e6
    subst e6
    have hq : movesCov kind = true → SecondMoments psf q.1 q.2.1 q.2.2 := by
      intro hk
      cases kind <;> simp [movesCov] at hk <;> exact emGetMoms_ok psf q e1
    obtain ⟨k1, k2, k3⟩ := setLoop_ok kind psf q a pxs hq a.gmix ss _ gm' hl hf e3
    obtain ⟨c1, c2⟩ := convolved_norms gm' psf cv cv' e5 hn
    exact ⟨k1, c2, c1, k2, k3⟩

/-- Shape of the state between iterations. -/
def Sized (m : ℕ) (st : EMState) : Prop :=
  st.sums.length = st.gmix.length ∧ st.conv.length = st.gmix.length * m

def point (st : EMState) : EMPoint := ⟨st.gmix, st.conv, st.pixels, st.sky⟩

theorem filled_eq (fill : Bool) (st : EMState) :
    (if fill then fillZeroWeight st.conv st.sky st.pixels else st.pixels) = filled fill (point st) := by
  have hsum : ∀ (l : List Gauss) (px : Pixel), gmixEvalFast l px.v px.u px.area = predicted l px := by
    intro l px
    unfold gmixEvalFast predicted
    have : ∀ (l : List Gauss) (a : ℝ), l.foldl (fun acc g => acc + gaussEvalFast g px.v px.u px.area) a =
        a + (l.map fun g => gaussEvalFast g px.v px.u px.area).sum := by
      intro l
      induction l with
      | nil => simp
      | cons g l ih => intro a; rw [List.foldl_cons, ih]; simp only [List.map_cons, List.sum_cons]; ring
    rw [this, zero_add]
  cases fill
  · simp only [filled, point, Bool.false_eq_true, false_and, if_false, List.map_id']
  · simp only [filled, point, if_true, fillZeroWeight, true_and, hsum]

/-- One pass of the loop is one EM update. -/
theorem emIter_ok (kind : EMKind) (conf : EMConf) (psf : List Gauss) (fill : Bool) (n : ℤ) (st st' : EMState)
    (b : Bool) (hsz : Sized psf.length st) (h : emIter kind conf psf fill n st = .ok (st', b)) :
    Sized psf.length st' ∧ (∀ g ∈ st'.gmix, g.normSet = false) ∧
      EMUpdate kind conf.varySky fill psf (point st) (point st') := by
  unfold emIter at h
  simp only [filled_eq] at h
  obtain ⟨r, e1, h⟩ := exBind_ok h
  obtain ⟨gm, e2, h⟩ := exBind_ok h
  obtain ⟨sky, e3, h⟩ := exBind_ok h
  have hz : (st.conv.zip (logtauLogdet st.conv)).map Prod.fst = st.conv := by
    rw [List.map_fst_zip]; simp [logtauLogdet]
  have hcl : (clearSums st.sums).length = st.sums.length := by simp [clearSums]
  obtain ⟨k1, k2, k3, k4⟩ := pixelLoop_ok psf.length _ st.sky _ _ _ _ r
    (by rw [hz, hcl, hsz.2, hsz.1]) e1
  rw [hz] at k2 k3 k4
  rw [hcl] at k1 k3
  rw [hsz.1] at k1 k3
  have hf : List.Forall₂ (fun b s => Advanced st.conv st.sky (filled fill (point st))
      (⟨0, 0, 0, 0, 0, 0, 0, 0, 0, 0, 0, 0⟩, b) s) (blocks psf.length st.gmix.length st.conv) r.1 := by
    rw [List.forall₂_iff_get] at k3 ⊢
    refine ⟨by rw [blocks_length, k1], ?_⟩
    intro i i1 i2
    have := k3.2 i (by simp [hcl, hsz.1, blocks_length] ; rw [k1] at i2; exact i2) i2
    simpa [clearSums] using this
  obtain ⟨m1, m2, m3, m5, m4⟩ := setFromSums_ok kind psf (point st) _ r.1 gm k1.symm hf e2
  -- the new state
  have hst : point st' = ⟨gm.1, gm.2, filled fill (point st), sky⟩ ∧ st'.sums = r.1 := by
    unfold emTest at h
    split_ifs at h with h1
    · obtain ⟨f, -, h⟩ := exMap_ok h
      split_ifs at h with h2 <;> simp only [Prod.mk.injEq] at h <;> rw [h.1.symm] <;> exact ⟨rfl, rfl⟩
    · simp only [Except.ok.injEq, Prod.mk.injEq] at h
      rw [← h.1]; exact ⟨rfl, rfl⟩
  have hg : st'.gmix = gm.1 := congrArg EMPoint.gmix hst.1
  have hc : st'.conv = gm.2 := congrArg EMPoint.conv hst.1
  refine ⟨⟨by rw [hst.2, hg, m1]; exact k1, by rw [hc, hg]; exact m2⟩, by rw [hg]; exact m5, ?_⟩
  rw [hst.1]
  refine ⟨rfl, k2, m4, m3, ?_⟩
  unfold emNewSky at e3
  by_cases hv : conf.varySky = true
  · rw [if_pos hv] at e3 ⊢
    split_ifs at e3 with h0
    simp only [Except.ok.injEq] at e3
    refine ⟨?_, ?_⟩
    · intro hh; exact h0 (congrArg List.length hh)
    · simp only
      rw [← e3, div_mul_cancel₀ _ (by exact_mod_cast h0), k4, zero_add]
      rfl
  · rw [if_neg hv] at e3 ⊢
    simp only [Except.ok.injEq] at e3
    exact e3.symm

theorem chain_cons {kind : EMKind} {vary fill : Bool} {psf : List Gauss} {n : ℕ} {a b c : EMPoint}
    (h1 : EMUpdate kind vary fill psf a b) (h2 : EMChain kind vary fill psf n b c) :
    EMChain kind vary fill psf (n + 1) a c := by
  induction h2 with
  | one b c h => exact .snoc 1 a b c (.one a b h1) h
  | snoc n b c d _ hu ih => exact .snoc (n + 1) a c d (ih h1) hu

theorem emLoop_ok (kind : EMKind) (conf : EMConf) (psf : List Gauss) (fill : Bool) : ∀ (k i : ℕ)
    (st : EMState) (r : EMState × ℕ), Sized psf.length st → emLoop kind conf psf fill k i st = .ok r →
    i ≤ r.2 ∧ r.2 ≤ i + k ∧ (0 < k → i < r.2) ∧
      ((r.2 = i ∧ r.1 = st) ∨ (∀ g ∈ r.1.gmix, g.normSet = false) ∧ EMChain kind conf.varySky fill psf (r.2 - i) (point st) (point r.1)) := by
  intro k
  induction k with
  | zero =>
    intro i st r hs h
    simp only [emLoop, Except.ok.injEq] at h
    subst h
    exact ⟨le_refl _, le_refl _, fun h => absurd h (lt_irrefl _), .inl ⟨rfl, rfl⟩⟩
  | succ k ih =>
    intro i st r hs h
    simp only [emLoop] at h
    obtain ⟨⟨st1, b⟩, e1, h⟩ := exBind_ok h
    obtain ⟨k1, k3, k2⟩ := emIter_ok kind conf psf fill _ st st1 b hs e1
    simp only at h
    split_ifs at h with hb
    · simp only [Except.ok.injEq] at h
      subst h
      refine ⟨Nat.le_succ _, by simp, fun _ => Nat.lt_succ_self _, .inr ?_⟩
      simp only [Nat.add_sub_cancel_left]
      exact ⟨k3, .one _ _ k2⟩
    · obtain ⟨j1, j2, j3, j4⟩ := ih (i + 1) st1 r k1 h
      refine ⟨by omega, by omega, fun _ => by omega, .inr ?_⟩
      rcases j4 with ⟨j4, j5⟩ | ⟨j5, j4⟩
      · rw [j4, j5, Nat.add_sub_cancel_left]; exact ⟨k3, .one _ _ k2⟩
      · refine ⟨j5, ?_⟩
        have : r.2 - i = (r.2 - (i + 1)) + 1 := by omega
        rw [this]
        exact chain_cons k2 j4

/-- The runner performs `numiter` EM updates. -/
theorem emRun_ok (kind : EMKind) (conf : EMConf) (pixels : List Pixel) (gmix psf conv : List Gauss) (fill : Bool)
    (hc : gmixConvolve gmix psf = .ok conv) (r : EMRun) (h : emRun kind conf pixels gmix psf conv fill = .ok r) :
    1 ≤ r.numiter ∧ (r.numiter : ℤ) ≤ conf.maxiter ∧ ∃ conv0, IsConvolved gmix psf conv0 ∧
      EMChain kind conf.varySky fill psf r.numiter ⟨gmix, conv0, pixels, conf.sky⟩
        ⟨r.gmix, r.conv, r.pixels, r.sky⟩ := by
  unfold emRun at h
  rcases hn : gmixSetNorms conv with ⟨cv, _ | u⟩
  · rw [hn] at h; simp at h
  · rw [hn] at h
    simp only at h
    split_ifs at h with hm
    obtain ⟨x, e, rfl⟩ := exMap_ok h
    obtain ⟨c1, c2⟩ := convolved_norms gmix psf conv cv hc hn
    obtain ⟨j1, j2, j3, j4⟩ := emLoop_ok kind conf psf fill _ _ _ x
      ⟨by simp only [List.length_replicate], c2⟩ e
    have hk : 0 < conf.maxiter.toNat := by omega
    have := j3 hk
    refine ⟨this, by simp only; omega, cv, c1, ?_⟩
    rcases j4 with ⟨j4, -⟩ | ⟨j5, j4⟩
    · omega
    · have hid : (x.1.gmix.map fun g => { g with normSet := false }) = x.1.gmix := by
        conv_rhs => rw [← List.map_id x.1.gmix]
        refine List.map_congr_left fun g hg => ?_
        rcases g with ⟨_, _, _, _, _, _, _, ns, _⟩
        have := j5 _ hg
        simp only at this
        rw [this]; rfl
      simp only
      rw [hid]
      exact j4

/-! ### What follows from the updates -/

theorem convolved_length {gm psf conv : List Gauss} (h : IsConvolved gm psf conv) :
    conv.length = gm.length * psf.length := by
  obtain ⟨_, _, _, h⟩ := h
  rw [← h.length_eq]
  simp [List.length_flatMap]

theorem sum_map_comm' {α β : Type} (l : List α) (k : List β) (f : α → β → ℝ) :
    (l.map fun a => (k.map fun b => f a b).sum).sum = (k.map fun b => (l.map fun a => f a b).sum).sum := by
  induction l with
  | nil => simp
  | cons a l ih => simp only [List.map_cons, List.sum_cons, ih, ← List.sum_map_add]

theorem map_snd_zip' {α β : Type} : ∀ (l : List α) (k : List β), l.length = k.length →
    (l.zip k).map Prod.snd = k := by
  intro l k h
  rw [List.map_snd_zip]; omega

/-- Flux after an update. -/
theorem update_flux {kind : EMKind} {vary fill : Bool} {psf : List Gauss} {a b : EMPoint}
    (ha : IsConvolved a.gmix psf a.conv) (h : EMUpdate kind vary fill psf a b) :
    Flux b.gmix = (b.pixels.map fun px => px.val * predicted a.conv px / (predicted a.conv px + a.sky)).sum := by
  obtain ⟨-, -, h3, -, -⟩ := h
  have e : b.gmix.map (fun g => g.p) =
      (a.gmix.zip (blocks psf.length a.gmix.length a.conv)).map fun x =>
        (b.pixels.map (share a.conv a.sky x.2)).sum := by
    clear ha
    generalize a.gmix.zip (blocks psf.length a.gmix.length a.conv) = z at h3
    generalize b.gmix = y at h3
    induction h3 with
    | nil => rfl
    | cons h1 _ ih => rw [List.map_cons, List.map_cons, ih, h1.1]
  unfold Flux
  rw [e]
  have e2 : ((a.gmix.zip (blocks psf.length a.gmix.length a.conv)).map fun x =>
        (b.pixels.map (share a.conv a.sky x.2)).sum) =
      ((blocks psf.length a.gmix.length a.conv).map fun k => (b.pixels.map (share a.conv a.sky k)).sum) := by
    rw [← map_snd_zip' a.gmix (blocks psf.length a.gmix.length a.conv) (by rw [blocks_length]), List.map_map]
    rw [map_snd_zip' a.gmix (blocks psf.length a.gmix.length a.conv) (by rw [blocks_length])]
    rfl
  rw [e2, sum_map_comm']
  congr 1
  refine List.map_congr_left fun px _ => ?_
  rw [← blocks_total psf.length px a.gmix.length a.conv (convolved_length ha)]
  simp only [share]
  rw [← blocks_total psf.length px a.gmix.length a.conv (convolved_length ha)]
  simp only [mul_div_right_comm]
  rw [List.sum_map_mul_left]

theorem update_total {kind : EMKind} {vary fill : Bool} {psf : List Gauss} {a b : EMPoint}
    (ha : IsConvolved a.gmix psf a.conv) (h : EMUpdate kind vary fill psf a b) :
    Flux b.gmix + (b.pixels.map fun px => px.val * a.sky / (predicted a.conv px + a.sky)).sum =
      (b.pixels.map fun px => px.val).sum := by
  rw [update_flux ha h, ← List.sum_map_add]
  congr 1
  refine List.map_congr_left fun px hp => ?_
  have := h.2.1 px hp
  field_simp

/-- A chain ends with an update from a convolved point; everything before it is a chain. -/
theorem chain_last {kind : EMKind} {vary fill : Bool} {psf : List Gauss} {n : ℕ} {a c : EMPoint}
    (h : EMChain kind vary fill psf n a c) (ha : IsConvolved a.gmix psf a.conv) :
    ∃ b, IsConvolved b.gmix psf b.conv ∧ EMUpdate kind vary fill psf b c := by
  cases h with
  | one => exact ⟨a, ha, by assumption⟩
  | snoc n _ b _ h1 h2 =>
    refine ⟨b, ?_, h2⟩
    cases h1 with
    | one _ _ h => exact h.2.2.2.1
    | snoc _ _ _ _ _ h => exact h.2.2.2.1

/-- Something kept by every update is kept by a chain. -/
theorem chain_keeps {kind : EMKind} {vary fill : Bool} {psf : List Gauss} (P : EMPoint → EMPoint → Prop)
    (h1 : ∀ a b, EMUpdate kind vary fill psf a b → P a b) (h2 : ∀ a b c, P a b → P b c → P a c) {n : ℕ}
    {a c : EMPoint} (h : EMChain kind vary fill psf n a c) : P a c := by
  induction h with
  | one a b h => exact h1 a b h
  | snoc n a b c _ hu ih => exact h2 a b c ih (h1 b c hu)

/-- An invariant of points. -/
theorem chain_inv {kind : EMKind} {vary fill : Bool} {psf : List Gauss} (P : EMPoint → Prop)
    (h1 : ∀ a b, EMUpdate kind vary fill psf a b → P a → P b) {n : ℕ} {a c : EMPoint}
    (h : EMChain kind vary fill psf n a c) (ha : P a) : P c := by
  induction h with
  | one a b h => exact h1 a b h ha
  | snoc n a b c _ hu ih => exact h1 b c hu (ih ha)

theorem forall2_zip_left {α β γ : Type} (R : α → γ → Prop) : ∀ (l : List α) (k : List β) (m : List γ),
    l.length = k.length → List.Forall₂ (fun (x : α × β) y => R x.1 y) (l.zip k) m → List.Forall₂ R l m := by
  intro l
  induction l with
  | nil =>
    intro k m _ h
    cases h
    exact .nil
  | cons a l ih =>
    intro k m hl h
    rcases k with _ | ⟨b, k⟩
    · simp at hl
    rw [List.zip_cons_cons] at h
    rcases h with _ | ⟨h1, h2⟩
    exact .cons h1 (ih k _ (by simpa using hl) h2)

/-- Component by component. -/
theorem update_components {kind : EMKind} {vary fill : Bool} {psf : List Gauss} {a b : EMPoint}
    (h : EMUpdate kind vary fill psf a b) : List.Forall₂ (fun g g' => ∃ blk,
      ComponentUpdate kind psf a b.pixels g blk g') a.gmix b.gmix :=
  forall2_zip_left _ a.gmix (blocks psf.length a.gmix.length a.conv) b.gmix (by rw [blocks_length])
    (h.2.2.1.imp fun x _ hx => ⟨x.2, hx⟩)

theorem regular_psd {a b c a' b' c' : ℝ} (h : Regular a b c a' b' c') :
    0 ≤ a' ∧ 0 ≤ c' ∧ b' ^ 2 ≤ a' * c' := by
  unfold Regular at h
  split_ifs at h with h1 h2
  · obtain ⟨rfl, rfl, rfl⟩ := h; norm_num
  · obtain ⟨rfl, rfl, rfl⟩ := h
    push Not at h1
    refine ⟨by linarith, by linarith, ?_⟩
    have : 0 ≤ (a + c) / 2 := by linarith
    nlinarith
  · obtain ⟨rfl, rfl, rfl⟩ := h
    push Not at h1 h2
    exact ⟨h1.1, h1.2, by have : (0 : ℝ) ≤ 1e-200 := by norm_num
                          linarith⟩

theorem predicted_nonneg {conv : List Gauss} {px : Pixel} (ha : 0 ≤ px.area)
    (h : ∀ g ∈ conv, NormsCurrent g ∧ 0 < g.irr + g.icc ∧ 0 ≤ g.p) : 0 ≤ predicted conv px := by
  unfold predicted
  refine List.sum_nonneg ?_
  intro x hx
  obtain ⟨g, hg, rfl⟩ := List.mem_map.mp hx
  obtain ⟨h1, h2, h3⟩ := h g hg
  obtain ⟨y, peak, -, -, hy⟩ := C26_eval g h1 h2 h3 px.v px.u px.area ha
  rcases hy with hy | ⟨hy, -⟩
  · have h0 := abs_nonneg (gaussEvalFast g px.v px.u px.area - y)
    have := abs_le.mp hy
    norm_num at this hy h0 ⊢
    nlinarith
  · rw [hy]

/-- All the fluxes of a convolved mixture are nonnegative when those of both mixtures are. -/
theorem convolved_nonneg {gm psf conv : List Gauss} (h : IsConvolved gm psf conv)
    (hg : ∀ g ∈ gm, 0 ≤ g.p) (hp : ∀ g ∈ psf, 0 ≤ g.p) :
    ∀ g ∈ conv, NormsCurrent g ∧ 0 < g.irr + g.icc ∧ 0 ≤ g.p := by
  obtain ⟨r, c, hc, h⟩ := h
  have hF : 0 < Flux psf := by
    refine lt_of_le_of_ne ?_ (Ne.symm hc.1)
    refine List.sum_nonneg ?_
    intro x hx
    obtain ⟨g, hg, rfl⟩ := List.mem_map.mp hx
    exact hp g hg
  intro g hgm
  obtain ⟨i, hi, e⟩ := List.getElem_of_mem hgm
  rw [List.forall₂_iff_get] at h
  have hi' : i < (gm.flatMap fun o => psf.map fun q => (o, q)).length := by rw [h.1]; exact hi
  obtain ⟨-, -, -, -, -, h6, -, h8, h9⟩ := h.2 i hi' hi
  have hm : (gm.flatMap fun o => psf.map fun q => (o, q))[i] ∈ gm.flatMap fun o => psf.map fun q => (o, q) :=
    List.getElem_mem hi'
  simp only [List.mem_flatMap, List.mem_map] at hm
  obtain ⟨o, ho, q, hq, eq⟩ := hm
  simp only [List.get_eq_getElem] at h6 h8 h9
  rw [e] at h6 h8 h9
  rw [← eq] at h6
  refine ⟨h8, lt_trans lowDet_pos h9.2, ?_⟩
  have : 0 ≤ g.p * Flux psf := by rw [h6]; exact mul_nonneg (hg o ho) (hp q hq)
  exact nonneg_of_mul_nonneg_left this hF

/-- Nonnegative pixels, sky and fluxes stay so. -/
def Nonneg (psf : List Gauss) (a : EMPoint) : Prop :=
  IsConvolved a.gmix psf a.conv ∧ (∀ g ∈ a.gmix, 0 ≤ g.p) ∧ (∀ px ∈ a.pixels, 0 ≤ px.val ∧ 0 ≤ px.area) ∧ 0 ≤ a.sky

theorem mem_blocks_sub (m : ℕ) : ∀ (n : ℕ) (l : List Gauss) (b : List Gauss), b ∈ blocks m n l →
    ∀ g ∈ b, g ∈ l := by
  intro n
  induction n with
  | zero => intro l b hb; simp [blocks] at hb
  | succ n ih =>
    intro l b hb g hg
    rcases List.mem_cons.mp hb with rfl | hb
    · exact List.mem_of_mem_take hg
    · exact List.mem_of_mem_drop (ih _ b hb g hg)

theorem update_nonneg {kind : EMKind} {vary fill : Bool} {psf : List Gauss} (hp : ∀ g ∈ psf, 0 ≤ g.p)
    (a b : EMPoint) (h : EMUpdate kind vary fill psf a b) (ha : Nonneg psf a) : Nonneg psf b := by
  obtain ⟨c1, c2, c3, c4⟩ := ha
  have hcv := convolved_nonneg c1 c2 hp
  have hpx : ∀ px ∈ b.pixels, 0 ≤ px.val ∧ 0 ≤ px.area := by
    rw [h.1]
    intro px hx
    obtain ⟨q, hq, rfl⟩ := List.mem_map.mp hx
    obtain ⟨q1, q2⟩ := c3 q hq
    split_ifs
    · exact ⟨add_nonneg c4 (predicted_nonneg q2 hcv), q2⟩
    · exact ⟨q1, q2⟩
  have hden : ∀ px ∈ b.pixels, 0 < predicted a.conv px + a.sky := fun px hx =>
    lt_of_le_of_ne (add_nonneg (predicted_nonneg (hpx px hx).2 hcv) c4) (Ne.symm (h.2.1 px hx))
  refine ⟨h.2.2.2.1, ?_, hpx, ?_⟩
  · intro g hg
    obtain ⟨i, hi, e⟩ := List.getElem_of_mem hg
    have h3 := h.2.2.1
    rw [List.forall₂_iff_get] at h3
    have hi' : i < (a.gmix.zip (blocks psf.length a.gmix.length a.conv)).length := by rw [h3.1]; exact hi
    have := (h3.2 i hi' hi).1
    simp only [List.get_eq_getElem] at this
    rw [e] at this
    rw [this]
    refine List.sum_nonneg ?_
    intro x hx
    obtain ⟨px, hx', rfl⟩ := List.mem_map.mp hx
    replace hx := hx'
    refine div_nonneg (mul_nonneg (hpx px hx).1 (predicted_nonneg (hpx px hx).2 ?_)) (hden px hx).le
    intro g hg
    have hm := List.getElem_mem hi'
    have := List.of_mem_zip (a := _) (b := _) (l₁ := a.gmix) (by exact hm)
    exact hcv g (mem_blocks_sub _ _ _ _ this.2 g hg)
  · have hs := h.2.2.2.2
    split_ifs at hs with hv
    · obtain ⟨s1, s2⟩ := hs
      have hl : (0 : ℝ) < b.pixels.length := by
        have := List.length_pos_iff.mpr s1
        exact_mod_cast this
      have : 0 ≤ b.sky * b.pixels.length := by
        rw [s2]
        refine List.sum_nonneg ?_
        intro x hx
        obtain ⟨px, hx', rfl⟩ := List.mem_map.mp hx
        replace hx := hx'
        exact div_nonneg (mul_nonneg (hpx px hx).1 c4) (hden px hx).le
      exact nonneg_of_mul_nonneg_left this hl
    · rw [hs]; exact c4

end

end Ngmix.Proof.EM
