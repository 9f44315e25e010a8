import Verif.Spec.Layout
import Verif.Props.Pixels
import Verif.Props.Order
import Verif.Props.Masked
import Verif.Proof.EM
import Verif.Props.EM
import Verif.Props.FitModel
import Verif.Props.PSFFlux

/-!
# C108: the layout of the image array does not matter
-/

namespace Ngmix.Props

open Ngmix Ngmix.Spec Ngmix.Proof.EM

noncomputable section

/-! ### Pixel lists -/

theorem rowMajor_nodup (n m : ℕ) : (rowMajor n m).Nodup := by
  unfold rowMajor
  rw [List.nodup_flatMap]
  refine ⟨fun r _ => (List.nodup_range).map (fun a b h => by simpa using h), ?_⟩
  refine List.Pairwise.imp ?_ (List.nodup_range (n := n))
  intro a b hab p ha hb
  obtain ⟨c, -, rfl⟩ := List.mem_map.1 ha
  obtain ⟨d, -, h⟩ := List.mem_map.1 hb
  exact hab (by simpa using (congrArg Prod.fst h).symm)

/-- The places of the used pixels in the order of the pixel list. -/
def usedList (ignore : Bool) (im w : Image) : List (ℕ × ℕ) :=
  if ignore then positiveWeight im.nrow im.ncol w.get else rowMajor im.nrow im.ncol

theorem mem_usedList (ignore : Bool) (im w : Image) (p : ℕ × ℕ) : p ∈ usedList ignore im w ↔ p ∈ Used ignore im w := by
  unfold usedList Used positiveWeight
  cases ignore
  · simp [mem_rowMajor]
  · simp [mem_rowMajor, and_assoc]

theorem usedList_nodup (ignore : Bool) (im w : Image) : (usedList ignore im w).Nodup := by
  unfold usedList positiveWeight
  cases ignore
  · simpa using rowMajor_nodup _ _
  · simpa using (rowMajor_nodup _ _).filter _

theorem makePixels_used (ignore : Bool) (im w : Image) (j : Jacobian) (hw : w.nrow = im.nrow ∧ w.ncol = im.ncol) :
    makePixels im w j ignore = if ignore = true ∧ usedList ignore im w = [] then .error .gmixFatal
      else .ok ((usedList ignore im w).map (mkPix im w j)) := by
  have key : ∀ (l : List (ℕ × ℕ)) (px : List Pixel), List.Forall₂ (PixelOf im w j) l px → px = l.map (mkPix im w j) := by
    intro l px h
    induction h with
    | nil => rfl
    | @cons p q l px h _ ih =>
      rw [List.map_cons, ih]
      congr 1
      obtain ⟨h1, h2, h3, h4⟩ := h
      obtain ⟨g1, g2, g3, g4⟩ := mkPix_spec im w j p
      ext
      · have := h1.trans g1.symm; simpa using (congrArg Prod.snd this)
      · have := h1.trans g1.symm; simpa using (congrArg Prod.fst this)
      · exact h2.trans g2.symm
      · exact h3.trans g3.symm
      · exact (pow_left_inj₀ h4.1 g4.1 two_ne_zero).1 (h4.2.trans g4.2.symm)
  cases ignore
  · obtain ⟨px, h1, -, h2⟩ := C17_make_pixels_all im w j
    rw [h1, if_neg (by simp), key _ _ h2]
    rfl
  · obtain ⟨h1, h2⟩ := C17_make_pixels_ignore im w j hw
    by_cases h : positiveWeight im.nrow im.ncol w.get = []
    · rw [h1 h, if_pos ⟨rfl, h⟩]
    · obtain ⟨px, h3, h4⟩ := h2 h
      rw [h3, if_neg (fun x => h x.2), key _ _ h4]
      rfl

/-- C108: images of the same sky offer the same pixels, in another order, or none of them has any. -/
theorem C108_pixels (ignore : Bool) (im w : Image) (j : Jacobian) (im' w' : Image) (j' : Jacobian)
    (hw : w.nrow = im.nrow ∧ w.ncol = im.ncol) (hw' : w'.nrow = im'.nrow ∧ w'.ncol = im'.ncol)
    (h : SameScene ignore im w j im' w' j') :
    (makePixels im w j ignore = .error .gmixFatal ∧ makePixels im' w' j' ignore = .error .gmixFatal) ∨
    ∃ px px', makePixels im w j ignore = .ok px ∧ makePixels im' w' j' ignore = .ok px' ∧ px.Perm px' := by
  obtain ⟨ha, f, hf, hv⟩ := h
  have hp : ((usedList ignore im w).map f).Perm (usedList ignore im' w') := by
    rw [List.perm_ext_iff_of_nodup _ (usedList_nodup _ _ _)]
    · intro p
      rw [mem_usedList, List.mem_map]
      constructor
      · rintro ⟨q, hq, rfl⟩
        exact hf.mapsTo ((mem_usedList _ _ _ _).1 hq)
      · intro hq
        obtain ⟨q, h1, h2⟩ := hf.surjOn hq
        exact ⟨q, (mem_usedList _ _ _ _).2 h1, h2⟩
    · exact (usedList_nodup _ _ _).map_on fun a ha b hb hab =>
        hf.injOn ((mem_usedList _ _ _ _).1 ha) ((mem_usedList _ _ _ _).1 hb) hab
  have hm : ((usedList ignore im w).map f).map (mkPix im' w' j') = (usedList ignore im w).map (mkPix im w j) := by
    rw [List.map_map]
    refine List.map_congr_left fun p hp => ?_
    obtain ⟨h1, h2, h3⟩ := hv p ((mem_usedList _ _ _ _).1 hp)
    simp only [Function.comp, mkPix, h1, h2, h3, ha]
  rw [makePixels_used _ _ _ _ hw, makePixels_used _ _ _ _ hw']
  have he : usedList ignore im w = [] ↔ usedList ignore im' w' = [] := by
    rw [← List.length_eq_zero_iff, ← List.length_eq_zero_iff, ← hp.length_eq, List.length_map]
  by_cases h0 : ignore = true ∧ usedList ignore im w = []
  · exact .inl ⟨if_pos h0, if_pos ⟨h0.1, he.1 h0.2⟩⟩
  · refine .inr ⟨_, _, if_neg h0, if_neg fun x => h0 ⟨x.1, he.2 x.2⟩, ?_⟩
    rw [← hm]
    exact hp.map _

/-! ### Which layouts -/

theorem jac_made_area (j : Jacobian) (h : JacMade j) : j.area = |j.dvdrow * j.dudcol - j.dvdcol * j.dudrow| := by
  rw [h]
  simp only [Jacobian.area, Jacobian.finishInit]
  exact Real.sq_sqrt (abs_nonneg _)

/-- C108: an image with rows and columns exchanged or with its rows in reverse order shows the same sky, with the Jacobian
that goes with it, and so does what is left when rows and columns without used pixels are cut away. -/
theorem C108_layouts (im w : Image) (j : Jacobian) (hj : JacMade j) (hw : w.nrow = im.nrow ∧ w.ncol = im.ncol) :
    (∀ ignore, SameScene ignore im w j (transposed im) (transposed w) (jacTransposed j)) ∧
    (∀ ignore, SameScene ignore im w j (flipped im) (flipped w) (jacFlipped im.nrow j)) ∧
    ∀ (a b : ℕ) (im' w' : Image), CutFrom a b im im' → CutFrom a b w w' → w'.nrow = im'.nrow ∧ w'.ncol = im'.ncol →
      (∀ r c, 0 < w.get r c → r < im.nrow → c < im.ncol →
        a ≤ r ∧ r < a + im'.nrow ∧ b ≤ c ∧ c < b + im'.ncol) →
      SameScene true im w j im' w' (jacCut a b j) := by
  have harea := jac_made_area j hj
  have area : ∀ r c x y z t, |x * t - y * z| = |j.dvdrow * j.dudcol - j.dvdcol * j.dudrow| →
      (Jacobian.finishInit r c x y z t).area = j.area := by
    intro r c x y z t h
    rw [harea, ← h]
    exact Real.sq_sqrt (abs_nonneg _)
  refine ⟨fun ignore => ⟨?_, fun p => (p.2, p.1), ?_, ?_⟩, fun ignore => ⟨?_, fun p => (im.nrow - 1 - p.1, p.2), ?_, ?_⟩, ?_⟩
  · refine area _ _ _ _ _ _ ?_
    rw [abs_sub_comm]
  · refine ⟨?_, ?_, ?_⟩
    · rintro ⟨r, c⟩ ⟨h1, h2, h3⟩; exact ⟨h2, h1, h3⟩
    · rintro ⟨r, c⟩ - ⟨r', c'⟩ - h
      simp only [Prod.mk.injEq] at h ⊢
      exact ⟨h.2, h.1⟩
    · rintro ⟨r, c⟩ ⟨h1, h2, h3⟩; exact ⟨(c, r), ⟨h2, h1, h3⟩, rfl⟩
  · rintro ⟨r, c⟩ -
    refine ⟨rfl, rfl, ?_⟩
    simp only [jacTransposed, Jacobian.finishInit, Jacobian.getVU, Prod.mk.injEq]
    constructor <;> ring
  · refine area _ _ _ _ _ _ ?_
    rw [← abs_neg]
    congr 1
    ring
  · refine ⟨?_, ?_, ?_⟩
    · rintro ⟨r, c⟩ ⟨h1, h2, h3⟩
      simp only at h1 h2 h3
      refine ⟨show im.nrow - 1 - r < im.nrow by omega, h2, fun hi => ?_⟩
      show 0 < w.get (w.nrow - 1 - (im.nrow - 1 - r)) c
      rw [hw.1, show im.nrow - 1 - (im.nrow - 1 - r) = r by omega]
      exact h3 hi
    · rintro ⟨r, c⟩ ⟨h1, -, -⟩ ⟨r', c'⟩ ⟨h1', -, -⟩ h
      simp only [Prod.mk.injEq] at h h1 h1' ⊢
      exact ⟨by omega, h.2⟩
    · rintro ⟨r, c⟩ ⟨h1, h2, h3⟩
      have h1' : r < im.nrow := h1
      refine ⟨(im.nrow - 1 - r, c), ⟨show im.nrow - 1 - r < im.nrow by omega, h2, fun hi => ?_⟩, ?_⟩
      · have := h3 hi
        simp only [flipped, hw.1] at this
        exact this
      · simp only [Prod.mk.injEq, and_true]
        omega
  · rintro ⟨r, c⟩ ⟨h1, h2, h3⟩
    simp only at h1 h2 h3
    have e : im.nrow - 1 - (im.nrow - 1 - r) = r := by omega
    refine ⟨by simp only [flipped, e], by simp only [flipped, hw.1, e], ?_⟩
    have e2 : ((im.nrow - 1 - r : ℕ) : ℝ) = (im.nrow : ℝ) - 1 - r := by
      rw [Nat.cast_sub (by omega), Nat.cast_sub (by omega)]; simp
    simp only [jacFlipped, Jacobian.finishInit, Jacobian.getVU, Prod.mk.injEq, e2]
    constructor <;> ring
  · intro a b im' w' hi hwc hw' hin
    refine ⟨area _ _ _ _ _ _ rfl, fun p => (p.1 - a, p.2 - b), ⟨?_, ?_, ?_⟩, ?_⟩
    · rintro ⟨r, c⟩ ⟨h1, h2, h3⟩
      simp only at h1 h2 h3
      obtain ⟨g1, g2, g3, g4⟩ := hin r c (h3 trivial) h1 h2
      refine ⟨show r - a < im'.nrow by omega, show c - b < im'.ncol by omega, fun _ => ?_⟩
      show 0 < w'.get (r - a) (c - b)
      rw [hwc.2.2 _ (by omega) _ (by omega), show a + (r - a) = r by omega, show b + (c - b) = c by omega]
      exact h3 trivial
    · rintro ⟨r, c⟩ ⟨h1, h2, h3⟩ ⟨r', c'⟩ ⟨h1', h2', h3'⟩ h
      simp only [Prod.mk.injEq] at h h1 h2 h3 h1' h2' h3' ⊢
      obtain ⟨g1, g2, g3, g4⟩ := hin r c (h3 trivial) h1 h2
      obtain ⟨g1', g2', g3', g4'⟩ := hin r' c' (h3' trivial) h1' h2'
      omega
    · rintro ⟨r, c⟩ ⟨h1, h2, h3⟩
      simp only at h1 h2 h3
      obtain ⟨k1, k2, -⟩ := hi
      refine ⟨(a + r, b + c), ⟨show a + r < im.nrow by omega, show b + c < im.ncol by omega, fun _ => ?_⟩, ?_⟩
      · have := h3 trivial
        rw [hwc.2.2 _ (by omega) _ (by omega)] at this
        exact this
      · simp
    · rintro ⟨r, c⟩ ⟨h1, h2, h3⟩
      simp only at h1 h2 h3
      obtain ⟨g1, g2, g3, g4⟩ := hin r c (h3 trivial) h1 h2
      have e1 : a + (r - a) = r := by omega
      have e2 : b + (c - b) = c := by omega
      refine ⟨?_, ?_, ?_⟩
      · simp only; rw [hi.2.2 _ (by omega) _ (by omega), e1, e2]
      · simp only; rw [hwc.2.2 _ (by omega) _ (by omega), e1, e2]
      · simp only [jacCut, Jacobian.finishInit, Jacobian.getVU, Prod.mk.injEq, Nat.cast_sub g1, Nat.cast_sub g3]
        constructor <;> ring

/-! ### Loops over pixels -/

/-- A loop that may raise. -/
def exFold {σ α : Type} (step : σ → α → Except PyErr σ) : List α → σ → Except PyErr σ
  | [], s => .ok s
  | a :: l, s => (step s a).bind (exFold step l)

/-- The same exception, or related values. -/
def ExRel {α : Type} (R : α → α → Prop) : Except PyErr α → Except PyErr α → Prop
  | .ok a, .ok b => R a b
  | .error e, .error e' => e = e'
  | _, _ => False

theorem exRel_bind {α β : Type} {R : α → α → Prop} {S : β → β → Prop} {x x' : Except PyErr α} {f g : α → Except PyErr β}
    (h : ExRel R x x') (hf : ∀ a b, R a b → ExRel S (f a) (g b)) : ExRel S (x.bind f) (x'.bind g) := by
  rcases x with e | a <;> rcases x' with e' | b
  · exact h
  · exact h.elim
  · exact h.elim
  · exact hf a b h

theorem exRel_trans {α : Type} {R : α → α → Prop} (hR : ∀ a b c, R a b → R b c → R a c) {x y z : Except PyErr α}
    (h : ExRel R x y) (h' : ExRel R y z) : ExRel R x z := by
  rcases x with e | a <;> rcases y with e' | b <;> rcases z with e'' | c
  · exact Eq.trans h h'
  all_goals first | exact h.elim | exact h'.elim | exact hR _ _ _ h h'

theorem exFold_perm {σ α : Type} (step : σ → α → Except PyErr σ) (R : σ → σ → Prop) (hr : ∀ a, R a a)
    (ht : ∀ a b c, R a b → R b c → R a c)
    (hc : ∀ s s' a, R s s' → ExRel R (step s a) (step s' a))
    (hs : ∀ s a b, ExRel R ((step s a).bind fun t => step t b) ((step s b).bind fun t => step t a))
    {l l' : List α} (h : l.Perm l') : ∀ s s', R s s' → ExRel R (exFold step l s) (exFold step l' s') := by
  have cong : ∀ (l : List α) s s', R s s' → ExRel R (exFold step l s) (exFold step l s') := by
    intro l
    induction l with
    | nil => intro s s' h; exact h
    | cons a l ih => intro s s' h; exact exRel_bind (hc s s' a h) ih
  induction h with
  | nil => intro s s' h; exact h
  | cons a _ ih => intro s s' h; exact exRel_bind (hc s s' a h) ih
  | swap a b l =>
    intro s s' h
    have e : ∀ a b s, exFold step (a :: b :: l) s = ((step s a).bind fun t => step t b).bind (exFold step l) := by
      intro a b s
      simp only [exFold]
      rcases step s a with e | t <;> rfl
    rw [e, e]
    refine exRel_trans ht (y := ((step s a).bind fun t => step t b).bind (exFold step l)) ?_ ?_
    · exact exRel_bind (hs s b a) (cong l)
    · exact exRel_bind (exRel_bind (hc s s' a h) fun t t' h' => hc t t' b h') (cong l)
  | trans _ _ ih1 ih2 => intro s s' h; exact exRel_trans ht (ih1 s s (hr s)) (ih2 s s' h)

theorem exRel_eq {α : Type} {x y : Except PyErr α} (h : ExRel Eq x y) : x = y := by
  rcases x with e | a <;> rcases y with e' | b
  · exact congrArg _ h
  · exact h.elim
  · exact h.elim
  · exact congrArg _ h

theorem exFold_perm_eq {σ α : Type} (step : σ → α → Except PyErr σ)
    (hs : ∀ s a b, ((step s a).bind fun t => step t b) = ((step s b).bind fun t => step t a))
    {l l' : List α} (h : l.Perm l') (s : σ) : exFold step l s = exFold step l' s := by
  have refl : ∀ {β : Type} (x : Except PyErr β), ExRel Eq x x := by
    intro β x; rcases x with e | a <;> rfl
  refine exRel_eq (exFold_perm step Eq (fun _ => rfl) (fun _ _ _ => Eq.trans) ?_ ?_ h s s rfl)
  · rintro s _ a rfl; exact refl _
  · intro s a b; rw [hs s a b]; exact refl _

/-! ### Gaussian weighted moments -/

open Classical in
/-- One pixel of the loop. -/
def wsOne (higher : Bool) (g : Gauss) (wt : List Gauss) (maxrad2 : Option ℝ) (res : WRes) (px : Pixel) : Except PyErr WRes :=
  if ∃ m ∈ maxrad2, (px.u - g.col) * (px.u - g.col) + (px.v - g.row) * (px.v - g.row) < m then
    if px.ierr * px.ierr = 0 then .error .zeroDiv
    else .ok ⟨res.npix + 1, (gmixEval wt px.v px.u px.area).bind fun w => res.acc.map (wsStep (wsF higher g.row g.col px) px w)⟩
  else .ok res

theorem wsLoop_fold (higher : Bool) (g : Gauss) (wt : List Gauss) (m : Option ℝ) : ∀ (px : List Pixel) (res : WRes),
    wsLoop higher g wt m px res = exFold (wsOne higher g wt m) px res
  | [], _ => rfl
  | p :: px, res => by
    unfold wsLoop exFold wsOne
    simp only
    split_ifs
    · rfl
    · exact wsLoop_fold higher g wt m px _
    · exact wsLoop_fold higher g wt m px _

theorem wsStep_comm (F F' : List ℝ) (p q : Pixel) (x y : ℝ) (a : WAcc) :
    wsStep F p x (wsStep F' q y a) = wsStep F' q y (wsStep F p x a) := by
  unfold wsStep
  simp only [WAcc.mk.injEq]
  refine ⟨add_right_comm _ _ _, ?_, ?_⟩
  · funext i; exact add_right_comm _ _ _
  · funext i j; exact add_right_comm _ _ _

theorem wsOne_comm (higher : Bool) (g : Gauss) (wt : List Gauss) (m : Option ℝ) (s : WRes) (a b : Pixel) :
    ((wsOne higher g wt m s a).bind fun t => wsOne higher g wt m t b) =
      ((wsOne higher g wt m s b).bind fun t => wsOne higher g wt m t a) := by
  unfold wsOne
  split_ifs <;> simp only [Except.bind, *] <;> try rfl
  congr 2
  rcases gmixEval wt a.v a.u a.area with _ | x <;> rcases gmixEval wt b.v b.u b.area with _ | y <;> rcases s.acc with _ | c <;>
    simp [wsStep_comm]

theorem wsLoop_perm (higher : Bool) (g : Gauss) (wt : List Gauss) (m : Option ℝ) {px px' : List Pixel} (h : px.Perm px')
    (res : WRes) : wsLoop higher g wt m px res = wsLoop higher g wt m px' res := by
  rw [wsLoop_fold, wsLoop_fold]
  exact exFold_perm_eq _ (wsOne_comm higher g wt m) h res

/-- C108: Gaussian weighted moments of the same pixels in another order are the same. -/
theorem C108_gauss (weight : List Gauss) (higher : Bool) (px px' : List Pixel) (area : ℝ) (h : px.Perm px') :
    gaussMomGo weight higher (.obs px' area) = gaussMomGo weight higher (.obs px area) := by
  have e : ∀ data maxrad res, getWeightedSums data px' maxrad higher res = getWeightedSums data px maxrad higher res := by
    intro data maxrad res
    unfold getWeightedSums
    rcases setNormsIfNeeded data with ⟨d, _ | _⟩
    · rfl
    · rcases d with _ | ⟨g, gs⟩
      · rfl
      · simp only [wsLoop_perm higher g (g :: gs) _ h res]
  unfold gaussMomGo getWeightedMoments
  simp only [e]

/-! ### Adaptive moments -/

theorem cenStep_comm (w : AMWt) (r : AMRes) (a b : Pixel) : cenStep w (cenStep w r a) b = cenStep w (cenStep w r b) a := by
  unfold cenStep
  simp only [AMRes.mk.injEq, true_and, and_true]
  funext i
  split_ifs <;> ring

theorem momStep_comm (w : AMWt) (r : AMRes) (a b : Pixel) : momStep w (momStep w r a) b = momStep w (momStep w r b) a := by
  unfold momStep
  simp only [AMRes.mk.injEq, true_and, and_true]
  refine ⟨add_right_comm _ _ _, ?_, ?_⟩
  · funext i; exact add_right_comm _ _ _
  · funext i j; exact add_right_comm _ _ _

theorem amCensums_perm (w : AMWt) {px px' : List Pixel} (h : px.Perm px') (r : AMRes) : amCensums w px r = amCensums w px' r := by
  unfold amCensums
  exact h.foldl_eq' (fun a _ b _ z => cenStep_comm w z a b) r

open Classical in
theorem amMomsums_fold (w : AMWt) : ∀ (px : List Pixel) (r : AMRes), amMomsums w px r =
    exFold (fun r p => if p.ierr * p.ierr = 0 then .error .zeroDiv else .ok (momStep w r p)) px r
  | [], _ => rfl
  | p :: px, r => by
    unfold amMomsums exFold
    split_ifs
    · rfl
    · exact amMomsums_fold w px _

theorem amMomsums_perm (w : AMWt) {px px' : List Pixel} (h : px.Perm px') (r : AMRes) : amMomsums w px r = amMomsums w px' r := by
  rw [amMomsums_fold, amMomsums_fold]
  refine exFold_perm_eq _ (fun s a b => ?_) h r
  split_ifs <;> simp only [Except.bind, *, momStep_comm w s a b]

theorem amLoop_perm (conf : AMConf) (orig : ℝ × ℝ) {px px' : List Pixel} (h : px.Perm px') :
    ∀ (k i : ℕ) (w : AMWt) (res : AMRes) (old : Option (ℝ × ℝ × ℝ)),
      amLoop conf orig px' k i w res old = amLoop conf orig px k i w res old
  | 0, _, _, _, _ => rfl
  | k + 1, i, w, res, old => by
    unfold amLoop amIter amPass
    simp only [amCensums_perm _ h.symm, amMomsums_perm _ h.symm]
    simp only [amLoop_perm conf orig h k]

/-- C108: adaptive moments of the same pixels in another order are the same, and leave the same weight. -/
theorem C108_admom (conf : AMConf) (px px' : List Pixel) (area : ℝ) (guess : AMWt) (h : px.Perm px') :
    admomGo conf px' area guess = admomGo conf px area guess := by
  unfold admomGo admomNb
  simp only [amLoop_perm conf _ h]

/-! ### EM -/

theorem scratch_fold_indep (px : Pixel) : ∀ (l : List (Gauss × Fl × Fl)) (s s' : EMSums) (g : ℝ) (L : Fl),
    (l.foldl (scratchGauss px) (s, g, L)).2 = (l.foldl (scratchGauss px) (s', g, L)).2
  | [], _, _, _, _ => rfl
  | x :: l, s, s', g, L => by
    rw [List.foldl_cons, List.foldl_cons]
    exact scratch_fold_indep px l _ _ _ _

theorem scratchAll_indep (m : ℕ) (px : Pixel) : ∀ (ss ss' : List EMSums), ss.length = ss'.length →
    ∀ (conv : List (Gauss × Fl × Fl)) (g : ℝ) (L : Fl), (scratchAll m px ss conv g L).2 = (scratchAll m px ss' conv g L).2
  | [], [], _, _, _, _ => rfl
  | s :: ss, s' :: ss', h, conv, g, L => by
    simp only [scratchAll]
    have e := scratch_fold_indep px (conv.take m) (resetScratch s) (resetScratch s') g L
    rw [e]
    exact scratchAll_indep m px ss ss' (by simpa using h) _ _ _

/-- Sums that differ in the scratch fields only. -/
def SumsRel (a b : List EMSums × Fl × ℝ) : Prop := a.1.map resetScratch = b.1.map resetScratch ∧ a.2 = b.2

open Classical in
/-- One pixel of the loop. -/
def emOne (m : ℕ) (conv : List (Gauss × Fl × Fl)) (sky : ℝ) (st : List EMSums × Fl × ℝ) (px : Pixel) :
    Except PyErr (List EMSums × Fl × ℝ) :=
  let r := doScratchSums m px st.1 conv
  let gtot := r.2.1 + sky
  if gtot = 0 then .error .gmixRange
  else .ok (doSums px gtot r.1, st.2.1 + r.2.2, st.2.2 + sky * px.val / gtot)

theorem pixelLoop_fold (m : ℕ) (conv : List (Gauss × Fl × Fl)) (sky : ℝ) : ∀ (px : List Pixel) (st : List EMSums × Fl × ℝ),
    pixelLoop m conv sky px st = exFold (emOne m conv sky) px st
  | [], _ => rfl
  | p :: px, st => by
    unfold pixelLoop exFold emOne
    simp only
    split_ifs
    · rfl
    · exact pixelLoop_fold m conv sky px _

theorem doScratch_indep (m : ℕ) (px : Pixel) {ss ss' : List EMSums} (h : ss.length = ss'.length)
    (conv : List (Gauss × Fl × Fl)) : (doScratchSums m px ss conv).2 = (doScratchSums m px ss' conv).2 := by
  unfold doScratchSums
  simp only [scratchAll_indep m px ss ss' h conv 0 (.fin 0)]

theorem doScratch_sums (m : ℕ) (px : Pixel) (ss : List EMSums) (conv : List (Gauss × Fl × Fl)) :
    (doScratchSums m px ss conv).1 = List.zipWith (setScratch px) ss (blocks m ss.length (conv.map Prod.fst)) := by
  obtain ⟨L, h⟩ := scratchAll_eq m px ss conv 0 (.fin 0)
  unfold doScratchSums
  rw [h]

/-- What one pixel adds to the sums of one gaussian. -/
def emAdd (px : Pixel) (f : ℝ) (s : EMSums) (blk : List Gauss) : EMSums :=
  let t := setScratch px s blk
  { t with pnew := t.pnew + t.gi * f, usum := t.usum + t.tusum * f, vsum := t.vsum + t.tvsum * f,
           u2sum := t.u2sum + t.tu2sum * f, uvsum := t.uvsum + t.tuvsum * f, v2sum := t.v2sum + t.tv2sum * f }

theorem doSums_eq (m : ℕ) (px : Pixel) (g : ℝ) (ss : List EMSums) (conv : List (Gauss × Fl × Fl)) :
    doSums px g (doScratchSums m px ss conv).1 =
      List.zipWith (emAdd px (px.val / g)) ss (blocks m ss.length (conv.map Prod.fst)) := by
  rw [doScratch_sums]
  unfold doSums
  simp only [List.map_zipWith]
  rfl

theorem emAdd_reset (px : Pixel) (f : ℝ) {s s' : EMSums} (h : resetScratch s = resetScratch s') (b : List Gauss) :
    resetScratch (emAdd px f s b) = resetScratch (emAdd px f s' b) := by
  simp only [resetScratch, EMSums.mk.injEq] at h
  simp only [resetScratch, emAdd, setScratch, EMSums.mk.injEq]
  simp_all

theorem emAdd_comm (p q : Pixel) (x y : ℝ) (s : EMSums) (b : List Gauss) :
    resetScratch (emAdd q y (emAdd p x s b) b) = resetScratch (emAdd p x (emAdd q y s b) b) := by
  simp only [resetScratch, emAdd, setScratch, EMSums.mk.injEq, true_and]
  refine ⟨?_, ?_, ?_, ?_, ?_, ?_⟩ <;> exact add_right_comm _ _ _

theorem zip_reset (px : Pixel) (f : ℝ) : ∀ (ss ss' : List EMSums) (B : List (List Gauss)),
    ss.map resetScratch = ss'.map resetScratch →
    (List.zipWith (emAdd px f) ss B).map resetScratch = (List.zipWith (emAdd px f) ss' B).map resetScratch
  | [], [], _, _ => rfl
  | [], _ :: _, _, h => by simp at h
  | _ :: _, [], _, h => by simp at h
  | _ :: _, _ :: _, [], _ => rfl
  | s :: ss, s' :: ss', b :: B, h => by
    simp only [List.map_cons, List.cons.injEq, List.zipWith_cons_cons] at h ⊢
    exact ⟨emAdd_reset px f h.1 b, zip_reset px f ss ss' B h.2⟩

theorem zip_comm (p q : Pixel) (x y : ℝ) : ∀ (ss : List EMSums) (B : List (List Gauss)),
    (List.zipWith (emAdd q y) (List.zipWith (emAdd p x) ss B) B).map resetScratch =
      (List.zipWith (emAdd p x) (List.zipWith (emAdd q y) ss B) B).map resetScratch
  | [], _ => rfl
  | _ :: _, [] => rfl
  | s :: ss, b :: B => by
    simp only [List.map_cons, List.zipWith_cons_cons, emAdd_comm p q x y s b, zip_comm p q x y ss B]

theorem emOne_congr (m : ℕ) (conv : List (Gauss × Fl × Fl)) (sky : ℝ) (s s' : List EMSums × Fl × ℝ) (a : Pixel)
    (h : SumsRel s s') : ExRel SumsRel (emOne m conv sky s a) (emOne m conv sky s' a) := by
  obtain ⟨h1, h2⟩ := h
  have hl : s.1.length = s'.1.length := by simpa using congrArg List.length h1
  unfold emOne
  simp only [doScratch_indep m a hl conv, h2]
  split_ifs
  · rfl
  · refine ⟨?_, rfl⟩
    simp only [doSums_eq, hl]
    exact zip_reset _ _ _ _ _ h1

theorem blocks_zip_length (px : Pixel) (f : ℝ) (m : ℕ) (ss : List EMSums) (l : List Gauss) :
    (List.zipWith (emAdd px f) ss (blocks m ss.length l)).length = ss.length := by
  rw [List.length_zipWith, blocks_length, min_self]

theorem fl_add_right_comm (a b c : Fl) : a + b + c = a + c + b := by
  show Fl.add (Fl.add a b) c = Fl.add (Fl.add a c) b
  rcases a with _ | _ | _ | a <;> rcases b with _ | _ | _ | b <;> rcases c with _ | _ | _ | c <;> simp only [Fl.add] <;>
    rw [add_right_comm]

theorem emOne_comm (m : ℕ) (conv : List (Gauss × Fl × Fl)) (sky : ℝ) (s : List EMSums × Fl × ℝ) (a b : Pixel) :
    ExRel SumsRel ((emOne m conv sky s a).bind fun t => emOne m conv sky t b)
      ((emOne m conv sky s b).bind fun t => emOne m conv sky t a) := by
  have e : ∀ p q : Pixel, ∀ g, (doScratchSums m q (doSums p g (doScratchSums m p s.1 conv).1) conv).2 =
      (doScratchSums m q s.1 conv).2 := fun p q g => doScratch_indep m q (by rw [doSums_eq, blocks_zip_length]) conv
  unfold emOne
  by_cases ha : (doScratchSums m a s.1 conv).2.1 + sky = 0
  · by_cases hb : (doScratchSums m b s.1 conv).2.1 + sky = 0
    · simp only [ha, hb, if_true]; rfl
    · simp only [ha, if_true, if_neg hb, Except.bind, e]; rfl
  · by_cases hb : (doScratchSums m b s.1 conv).2.1 + sky = 0
    · simp only [hb, if_true, if_neg ha, Except.bind, e]; rfl
    · simp only [if_neg ha, if_neg hb, Except.bind, e]
      refine ⟨?_, ?_⟩
      · simp only [doSums_eq, blocks_zip_length]
        exact zip_comm _ _ _ _ _ _
      · simp only [Prod.mk.injEq]
        exact ⟨fl_add_right_comm _ _ _, add_right_comm _ _ _⟩

theorem pixelLoop_perm (m : ℕ) (conv : List (Gauss × Fl × Fl)) (sky : ℝ) {px px' : List Pixel} (h : px.Perm px')
    (s s' : List EMSums × Fl × ℝ) (hs : SumsRel s s') :
    ExRel SumsRel (pixelLoop m conv sky px s) (pixelLoop m conv sky px' s') := by
  rw [pixelLoop_fold, pixelLoop_fold]
  exact exFold_perm _ SumsRel (fun a => ⟨rfl, rfl⟩) (fun a b c h h' => ⟨h.1.trans h'.1, h.2.trans h'.2⟩)
    (emOne_congr m conv sky) (emOne_comm m conv sky) h s s' hs

theorem setGauss_reset (kind : EMKind) (q : ℝ × ℝ × ℝ) (g : Gauss) {s s' : EMSums} (h : resetScratch s = resetScratch s') :
    setGaussFromSums kind q g s = setGaussFromSums kind q g s' := by
  simp only [resetScratch, EMSums.mk.injEq, true_and] at h
  obtain ⟨h1, h2, h3, h4, h5, h6⟩ := h
  unfold setGaussFromSums emCov
  cases kind <;> simp only [h1, h2, h3, h4, h5, h6]

theorem setLoop_reset (kind : EMKind) (q : ℝ × ℝ × ℝ) : ∀ (gs : List Gauss) (ss ss' : List EMSums),
    ss.map resetScratch = ss'.map resetScratch → setFromSumsLoop kind q gs ss = setFromSumsLoop kind q gs ss'
  | [], _, _, _ => by unfold setFromSumsLoop; rfl
  | _ :: _, [], [], _ => rfl
  | _ :: _, [], _ :: _, h => by simp at h
  | _ :: _, _ :: _, [], h => by simp at h
  | g :: gs, s :: ss, s' :: ss', h => by
    simp only [List.map_cons, List.cons.injEq] at h
    unfold setFromSumsLoop
    rw [setGauss_reset kind q g h.1, setLoop_reset kind q gs ss ss' h.2]

theorem setFromSums_reset (kind : EMKind) (gm psf : List Gauss) {ss ss' : List EMSums}
    (h : ss.map resetScratch = ss'.map resetScratch) : setFromSums kind gm psf ss = setFromSums kind gm psf ss' := by
  unfold setFromSums
  simp only [setLoop_reset kind _ gm ss ss' h]

/-- States with the same pixels in another order, and other scratch. -/
def StatePerm (s s' : EMState) : Prop :=
  s.pixels.Perm s'.pixels ∧ s.sums.length = s'.sums.length ∧ s' = { s with pixels := s'.pixels, sums := s'.sums }

theorem sp_test (kind : EMKind) (conf : EMConf) (n : ℤ) {s s' : EMState} (h : StatePerm s s') (cur : Fl) :
    ExRel (fun a b : EMState × Bool => StatePerm a.1 b.1 ∧ a.2 = b.2) (emTest kind conf n s cur) (emTest kind conf n s' cur) := by
  obtain ⟨h1, h3, h2⟩ := h
  have hlast : s'.last = s.last := by rw [h2]
  unfold emTest
  by_cases hm : n ≥ conf.miniter
  · rw [if_pos hm, if_pos hm, hlast]
    rcases emFrac kind cur s.last with e | f
    · rfl
    · simp only [Except.map]
      split_ifs
      · exact ⟨⟨h1, h3, by rw [h2]⟩, rfl⟩
      · exact ⟨⟨h1, h3, by rw [h2]⟩, rfl⟩
  · rw [if_neg hm, if_neg hm]
    exact ⟨⟨h1, h3, by rw [h2]⟩, rfl⟩

theorem fillZero_perm (conv : List Gauss) (sky : ℝ) {px px' : List Pixel} (h : px.Perm px') :
    (fillZeroWeight conv sky px).Perm (fillZeroWeight conv sky px') := h.map _

theorem sp_iter (kind : EMKind) (conf : EMConf) (psf : List Gauss) (fill : Bool) (n : ℤ) {s s' : EMState} (h : StatePerm s s') :
    ExRel (fun a b : EMState × Bool => StatePerm a.1 b.1 ∧ a.2 = b.2) (emIter kind conf psf fill n s)
      (emIter kind conf psf fill n s') := by
  obtain ⟨h1, h3, h2⟩ := h
  have a1 : s'.conv = s.conv := by rw [h2]
  have a2 : s'.sky = s.sky := by rw [h2]
  have a4 : s'.gmix = s.gmix := by rw [h2]
  have a5 : s'.last = s.last := by rw [h2]
  have a6 : s'.frac = s.frac := by rw [h2]
  have hp : (if fill then fillZeroWeight s.conv s.sky s.pixels else s.pixels).Perm
      (if fill then fillZeroWeight s'.conv s'.sky s'.pixels else s'.pixels) := by
    rw [a1, a2]
    cases fill
    · exact h1
    · exact fillZero_perm _ _ h1
  unfold emIter
  simp only
  generalize (if fill then fillZeroWeight s.conv s.sky s.pixels else s.pixels) = q at hp
  generalize (if fill then fillZeroWeight s'.conv s'.sky s'.pixels else s'.pixels) = q' at hp
  rw [a1, a2, a4, a5, a6, ← hp.length_eq]
  have hc : clearSums s.sums = clearSums s'.sums := by
    unfold clearSums
    rw [List.map_const', List.map_const', h3]
  refine exRel_bind (pixelLoop_perm psf.length _ s.sky hp _ _ ⟨by rw [hc], rfl⟩) ?_
  rintro ⟨ss, r⟩ ⟨ss', r'⟩ ⟨k1, k2⟩
  simp only at k1 k2
  subst k2
  simp only [setFromSums_reset kind s.gmix psf k1]
  rcases setFromSums kind s.gmix psf ss' with e | gm
  · rfl
  simp only [Except.bind]
  rcases emNewSky conf.varySky q.length r.2 s.sky with e | sky
  · rfl
  exact sp_test kind conf n ⟨hp, by simpa using congrArg List.length k1, rfl⟩ _

theorem sp_loop (kind : EMKind) (conf : EMConf) (psf : List Gauss) (fill : Bool) :
    ∀ (k i : ℕ) {s s' : EMState} (_ : StatePerm s s'),
    ExRel (fun a b : EMState × ℕ => StatePerm a.1 b.1 ∧ a.2 = b.2) (emLoop kind conf psf fill k i s)
      (emLoop kind conf psf fill k i s')
  | 0, _, _, _, h => ⟨h, rfl⟩
  | k + 1, i, s, s', h => by
    unfold emLoop
    refine exRel_bind (sp_iter kind conf psf fill _ h) ?_
    rintro ⟨t, b⟩ ⟨t', b'⟩ ⟨h1, h2⟩
    simp only at h1 h2
    subst h2
    simp only
    split_ifs
    · exact ⟨h1, rfl⟩
    · exact sp_loop kind conf psf fill k (i + 1) h1

theorem sp_finish (m : ℤ) (kind : EMKind) (conf : EMConf) {px px' : List Pixel} (h : px.Perm px')
    (gmix psf conv : List Gauss) (fill : Bool) :
    emFinish m (emRun kind conf px' gmix psf conv fill) = emFinish m (emRun kind conf px gmix psf conv fill) := by
  unfold emRun
  rcases gmixSetNorms conv with ⟨conv', _ | _⟩
  · rfl
  simp only
  split_ifs
  · rfl
  generalize hs : (⟨gmix, conv', List.replicate gmix.length EMSums.zero, px, conf.sky, _, none⟩ : EMState) = s
  generalize hs' : (⟨gmix, conv', List.replicate gmix.length EMSums.zero, px', conf.sky, _, none⟩ : EMState) = s'
  have hsp : StatePerm s s' := by
    subst hs hs'
    exact ⟨h, rfl, rfl⟩
  have hl := sp_loop kind conf psf fill conf.maxiter.toNat 0 hsp
  revert hl
  rcases emLoop kind conf psf fill conf.maxiter.toNat 0 s with e | ⟨t, n⟩ <;>
    rcases emLoop kind conf psf fill conf.maxiter.toNat 0 s' with e' | ⟨t', n'⟩ <;> intro hl
  · rw [show e = e' from hl]
  · exact hl.elim
  · exact hl.elim
  · obtain ⟨⟨-, -, h2⟩, h3⟩ := hl
    simp only at h2 h3
    subst h3
    rw [h2]
    simp only [emFinish, Except.map, Except.bind]
    generalize newGMix none (some (getFullPars t.conv)) = y
    generalize newGMix none (some (getFullPars (List.map _ t.gmix))) = x
    rcases x with e | x
    · cases e <;> rfl
    · rcases y with e | y
      · cases e <;> rfl
      · rfl

/-- C108: EM with a starting sky gives the same result for the same pixels in another order. -/
theorem C108_em (f : EMFitter) (o o' : EMObs) (guess : GMixObj) (sky : ℝ) (h : PermEM o o') :
    emGo f o' guess (some sky) = emGo f o guess (some sky) := by
  obtain ⟨h2, h3⟩ := h
  have hp : emPsf o' = emPsf o := by unfold emPsf; rw [h2]
  unfold emGo emStart
  simp only [hp]
  revert h3
  rcases o.pixels with _ | px <;> rcases o'.pixels with _ | px' <;> intro h3
  · rfl
  · exact h3.elim
  · exact h3.elim
  · have hz : anyZeroWeight px' = anyZeroWeight px := by
      unfold anyZeroWeight
      rw [Bool.eq_iff_iff]
      simp only [List.any_eq_true]
      exact ⟨fun ⟨x, hx, h⟩ => ⟨x, h3.symm.subset hx, h⟩, fun ⟨x, hx, h⟩ => ⟨x, h3.subset hx, h⟩⟩
    simp only [hz, sp_finish f.maxiter f.kind _ h3]

theorem min_perm {x y : ℝ} {l k : List ℝ} (h : (x :: l).Perm (y :: k)) : l.foldl min x = k.foldl min y := by
  obtain ⟨a1, a2⟩ := foldl_min_spec l x
  obtain ⟨b1, b2⟩ := foldl_min_spec k y
  exact le_antisymm (a2 _ (h.symm.subset b1)) (b2 _ (h.subset a1))

theorem max_perm {x y : ℝ} {l k : List ℝ} (h : (x :: l).Perm (y :: k)) : l.foldl max x = k.foldl max y := by
  obtain ⟨a1, a2⟩ := foldl_max_spec l x
  obtain ⟨b1, b2⟩ := foldl_max_spec k y
  exact le_antisymm (b2 _ (h.subset a1)) (a2 _ (h.symm.subset b1))

/-- Weights that are all one. -/
def unitWeights (im : Image) : Image := ⟨im.nrow, im.ncol, fun _ _ => 1⟩

theorem imVals_perm {im im' : Image} {j j' : Jacobian} (h : SameScene false im (unitWeights im) j im' (unitWeights im') j') :
    (imVals im).Perm (imVals im') := by
  rcases C108_pixels false im (unitWeights im) j im' (unitWeights im') j' ⟨rfl, rfl⟩ ⟨rfl, rfl⟩ h with ⟨h1, -⟩ | ⟨px, px', h1, h2, h3⟩
  · rw [makePixels_used false im (unitWeights im) j ⟨rfl, rfl⟩, if_neg (by simp)] at h1
    cases h1
  · rw [makePixels_used false im (unitWeights im) j ⟨rfl, rfl⟩, if_neg (by simp)] at h1
    rw [makePixels_used false im' (unitWeights im') j' ⟨rfl, rfl⟩, if_neg (by simp)] at h2
    simp only [Except.ok.injEq] at h1 h2
    have e : ∀ (im : Image) (j : Jacobian), ((usedList false im (unitWeights im)).map (mkPix im (unitWeights im) j)).map Pixel.val =
        imVals im := by
      intro im j
      unfold usedList imVals rowMajor
      simp only [Bool.false_eq_true, if_false, List.map_flatMap, List.map_map]
      rfl
    rw [← e im j, ← e im' j', h1, h2]
    exact h3.map _

/-- C108: EM without a starting sky, which takes the range of the values for its sky and all pixels with equal weight, gives
the same result for images of which all pixels correspond. -/
theorem C108_em_nosky (f : EMFitter) (o o' : EMObs) (guess : GMixObj) (hpsf : o'.psf = o.psf)
    (h : SameScene false o.image (unitWeights o.image) o.jac o'.image (unitWeights o'.image) o'.jac) :
    emGo f o' guess none = emGo f o guess none := by
  have hv := imVals_perm h
  have hprep : (prepImage o.image = .error .value ∧ prepImage o'.image = .error .value) ∨ ∃ sky,
      prepImage o.image = .ok (⟨o.image.nrow, o.image.ncol, fun r c => o.image.get r c + sky⟩, sky) ∧
      prepImage o'.image = .ok (⟨o'.image.nrow, o'.image.ncol, fun r c => o'.image.get r c + sky⟩, sky) := by
    unfold prepImage imMin imMax
    rcases h1 : imVals o.image with _ | ⟨x, xs⟩
    · rw [h1] at hv
      refine .inl ⟨rfl, ?_⟩
      rw [← hv.nil_eq]
      rfl
    · rcases h2 : imVals o'.image with _ | ⟨y, ys⟩
      · rw [h1, h2] at hv
        exact absurd hv.eq_nil (by simp)
      · rw [h1, h2] at hv
        refine .inr ⟨_, rfl, ?_⟩
        simp only [Except.bind, min_perm hv, max_perm hv]
  rcases hprep with ⟨h1, h2⟩ | ⟨sky, h1, h2⟩
  · unfold emGo emStart prepObs
    simp only [h1, h2, Except.bind]
  · have hs : SameScene true ⟨o.image.nrow, o.image.ncol, fun r c => o.image.get r c + sky⟩ (unitWeights o.image) o.jac
        ⟨o'.image.nrow, o'.image.ncol, fun r c => o'.image.get r c + sky⟩ (unitWeights o'.image) o'.jac := by
      obtain ⟨ha, g, hg, hval⟩ := h
      have hu : ∀ im : Image, ∀ s : ℝ, Used true ⟨im.nrow, im.ncol, fun r c => im.get r c + s⟩ (unitWeights im) =
          Used false im (unitWeights im) := by
        intro im s
        ext p
        simp [Used, unitWeights]
      refine ⟨ha, g, ?_, ?_⟩
      · rw [hu, hu]; exact hg
      · intro p hp
        rw [hu] at hp
        obtain ⟨k1, k2, k3⟩ := hval p hp
        exact ⟨by simp only [k1], k2, k3⟩
    have hpx := C108_pixels true ⟨o.image.nrow, o.image.ncol, fun r c => o.image.get r c + sky⟩ (unitWeights o.image) o.jac
      ⟨o'.image.nrow, o'.image.ncol, fun r c => o'.image.get r c + sky⟩ (unitWeights o'.image) o'.jac ⟨rfl, rfl⟩ ⟨rfl, rfl⟩ hs
    unfold unitWeights at hpx
    rcases hpx with ⟨k1, k2⟩ | ⟨px, px', k1, k2, k3⟩
    · unfold emGo emStart prepObs
      simp only [h1, h2, Except.bind, k1, k2, Except.map]
    · have e1 : emStart o none = .ok (⟨⟨o.image.nrow, o.image.ncol, fun r c => o.image.get r c + sky⟩, o.jac, some px, o.psf⟩, sky) := by
        unfold emStart prepObs
        simp only [h1, Except.bind, k1, Except.map]
      have e2 : emStart o' none = .ok (⟨⟨o'.image.nrow, o'.image.ncol, fun r c => o'.image.get r c + sky⟩, o'.jac, some px',
          o'.psf⟩, sky) := by
        unfold emStart prepObs
        simp only [h2, Except.bind, k2, Except.map]
      have key := C108_em f ⟨⟨o.image.nrow, o.image.ncol, fun r c => o.image.get r c + sky⟩, o.jac, some px, o.psf⟩
        ⟨⟨o'.image.nrow, o'.image.ncol, fun r c => o'.image.get r c + sky⟩, o'.jac, some px', o'.psf⟩ guess sky ⟨hpsf, k3⟩
      unfold emGo at key ⊢
      rw [e1, e2]
      exact key

/-! ### Model fits -/

theorem perm_initBand (kind : FMKind) (dopsf : Bool) (bp : List ℝ) : ∀ {is is' : List Img},
    List.Forall₂ PermImg is is' → initBand kind dopsf bp is' = initBand kind dopsf bp is
  | _, _, .nil => rfl
  | _, _, .cons a as => by
      unfold initBand initOne
      rw [perm_initBand kind dopsf bp as, a.1]

theorem perm_initAll (kind : FMKind) (dopsf : Bool) (pars : List ℝ) : ∀ {obs obs' : List (List Img)} (_ : PermImgs obs obs')
    (b : ℕ), initAll kind dopsf pars b obs' = initAll kind dopsf pars b obs
  | _, _, .nil, _ => rfl
  | _, _, .cons a as, b => by
      unfold initAll
      simp only [perm_initBand kind dopsf _ a, perm_initAll kind dopsf pars as]

theorem perm_fillBand (dopsf : Bool) (bp : List ℝ) : ∀ {is is' : List Img} (_ : List.Forall₂ PermImg is is')
    (gs : List (GMixObj × GMixObj)), fillBand dopsf bp is' gs = fillBand dopsf bp is gs
  | _, _, .nil, _ => rfl
  | _, _, .cons _ _, [] => rfl
  | _, _, .cons a as, g :: gs => by
      unfold fillBand fillOne
      rw [a.1, perm_fillBand dopsf bp as]

theorem perm_fillAll (kind : FMKind) (dopsf : Bool) (pars : List ℝ) : ∀ {obs obs' : List (List Img)} (_ : PermImgs obs obs')
    (b : ℕ) (st : FMState), fillAll kind dopsf pars b obs' st = fillAll kind dopsf pars b obs st
  | _, _, .nil, _, _ => rfl
  | _, _, .cons _ _, _, [] => rfl
  | _, _, .cons a as, b, gs :: st => by
      unfold fillAll
      simp only [perm_fillBand dopsf _ a, perm_fillAll kind dopsf pars as]

theorem perm_getLoglike (gm : List Gauss) {px px' : List Pixel} (h : px.Perm px') : getLoglike gm px' = getLoglike gm px := by
  unfold getLoglike
  rcases setNormsIfNeeded gm with ⟨gm', _ | _⟩
  · rfl
  · have : loglikeLoop gm' px' = loglikeLoop gm' px := by
      unfold loglikeLoop
      refine h.symm.foldl_eq' (fun a _ b _ z => ?_) _
      simp only [LogLike.mk.injEq, and_true]
      exact ⟨add_right_comm _ _ _, add_right_comm _ _ _, add_right_comm _ _ _⟩
    simp only [this]

theorem perm_loglikeBand : ∀ {is is' : List Img} (_ : List.Forall₂ PermImg is is') (gs : List (GMixObj × GMixObj))
    (acc : LogLike), loglikeBand is' gs acc = loglikeBand is gs acc
  | _, _, .nil, _, _ => rfl
  | _, _, .cons _ _, [], _ => rfl
  | _, _, .cons a as, g :: gs, acc => by
      unfold loglikeBand
      simp only [perm_getLoglike _ a.2, perm_loglikeBand as]

theorem perm_loglikeAll : ∀ {obs obs' : List (List Img)} (_ : PermImgs obs obs') (st : FMState)
    (acc : LogLike), loglikeAll obs' st acc = loglikeAll obs st acc
  | _, _, .nil, _, _ => rfl
  | _, _, .cons _ _, [], _ => rfl
  | _, _, .cons a as, gs :: st, acc => by
      unfold loglikeAll
      simp only [perm_loglikeBand a, perm_loglikeAll as]

theorem perm_calcLnprob (kind : FMKind) (prior : Option JointPrior) (dopsf : Bool) {obs obs' : List (List Img)}
    (h : PermImgs obs obs') (st : FMState) (pars : List ℝ) :
    calcLnprob ⟨kind, prior, obs', dopsf⟩ st pars = calcLnprob ⟨kind, prior, obs, dopsf⟩ st pars := by
  unfold calcLnprob calcLnprobTry
  simp only [perm_fillAll kind dopsf pars h, perm_loglikeAll h]

theorem perm_new (kind : FMKind) (prior : Option JointPrior) {obs obs' : List (List Img)} (h : PermImgs obs obs')
    (guess : List ℝ) : newFitModel kind prior obs' guess =
      (newFitModel kind prior obs guess).map fun x => ({ x.1 with obs := obs' }, x.2) := by
  have hl : obs'.length = obs.length := h.length_eq.symm
  unfold newFitModel
  rw [hl]
  rcases kind.npars obs.length with _ | npars
  · rfl
  rcases kind.nPriorPars prior obs.length with _ | _
  · rfl
  simp only [Except.bind]
  by_cases hg : guess.length ≠ npars
  · rw [if_pos hg, if_pos hg]; rfl
  rw [if_neg hg, if_neg hg]
  cases h with
  | nil => rfl
  | cons a as =>
    cases a with
    | nil => rfl
    | cons b bs =>
      rename_i i i' _ _
      have hp : i'.hasPsfGmix = i.hasPsfGmix := by unfold Img.hasPsfGmix; rw [b.1]
      simp only [hp]
      rw [perm_initAll kind _ guess (.cons (.cons b bs) as) 0]
      rcases initAll kind i.hasPsfGmix guess 0 _ with e | st
      · cases e <;> rfl
      · rfl

/-! Residuals: one order for all parameters. -/

theorem perm_index {α : Type} (d : α) {l l' : List α} (h : l.Perm l') :
    ∃ idx : List ℕ, idx.Perm (List.range l.length) ∧ l' = idx.map fun i => l.getD i d := by
  induction h with
  | nil => exact ⟨[], .refl _, rfl⟩
  | @cons a l l' _ ih =>
    obtain ⟨idx, h1, h2⟩ := ih
    refine ⟨0 :: idx.map Nat.succ, ?_, ?_⟩
    · rw [List.length_cons, List.range_succ_eq_map]
      exact (h1.map _).cons _
    · rw [h2]; simp
  | swap a b l =>
    refine ⟨1 :: 0 :: (List.range l.length).map (fun i => i + 2), ?_, ?_⟩
    · rw [List.length_cons, List.length_cons, List.range_succ_eq_map, List.range_succ_eq_map, List.map_cons, List.map_map]
      exact .swap _ _ _
    · simp only [List.map_cons, List.map_map, List.getD_cons_succ, List.getD_cons_zero, List.cons.injEq, true_and]
      refine List.ext_getElem (by simp) fun i h1 h2 => ?_
      simp [h1]
  | @trans l1 l2 l3 _ _ ih1 ih2 =>
    obtain ⟨i1, a1, a2⟩ := ih1
    obtain ⟨i2, b1, b2⟩ := ih2
    have hl : i1.length = l1.length := by simpa using a1.length_eq
    refine ⟨i2.map fun i => i1.getD i 0, ?_, ?_⟩
    · have e : i1 = (List.range i1.length).map fun i => i1.getD i 0 := by
        refine List.ext_getElem (by simp) fun i h1 h2 => ?_
        simp [h1]
      rw [a2, List.length_map] at b1
      exact ((b1.map _).trans (by rw [← e])).trans a1
    · rw [b2, List.map_map]
      refine List.map_congr_left fun i hi => ?_
      have hi' : i < i1.length := by
        have := b1.subset hi
        rw [a2, List.length_map] at this
        simpa using this
      rw [a2]
      simp [List.getD_eq_getElem?_getD, hi']

theorem reindex_map {idx : List ℕ} {l : List Pixel} (h : idx.Perm (List.range l.length)) (f : Pixel → Fl) :
    (idx.map fun i => l.getD i Pixel.zero).map f = reindex idx (l.map f) := by
  unfold reindex
  rw [List.map_map]
  refine List.map_congr_left fun i hi => ?_
  have hi' : i < l.length := by simpa using h.subset hi
  simp [List.getD_eq_getElem?_getD, hi']

theorem reindex_append {ia ib : List ℕ} {a b : List Fl} (ha : ia.Perm (List.range a.length)) :
    reindex (ia ++ ib.map fun i => i + a.length) (a ++ b) = reindex ia a ++ reindex ib b := by
  unfold reindex
  rw [List.map_append, List.map_map]
  congr 1
  · refine List.map_congr_left fun i hi => ?_
    have hi' : i < a.length := by simpa using ha.subset hi
    simp [List.getD_eq_getElem?_getD, List.getElem?_append_left hi']
  · refine List.map_congr_left fun i hi => ?_
    simp only [Function.comp, List.getD_eq_getElem?_getD]
    rw [List.getElem?_append_right (by omega), Nat.add_sub_cancel]

theorem range_append_perm {ia ib : List ℕ} {n m : ℕ} (ha : ia.Perm (List.range n)) (hb : ib.Perm (List.range m)) :
    (ia ++ ib.map fun i => i + n).Perm (List.range (n + m)) := by
  rw [List.range_add]
  refine ha.append ?_
  have : (fun x => n + x) = fun i => i + n := by funext i; omega
  rw [this]
  exact hb.map _

/-- Two spliced lists: the same before and after, in between the residuals in the new order. -/
def SplicedOk (idx : List ℕ) (N start : ℕ) (l l' : List Fl) (r r' : List Fl × ℕ) : Prop :=
  r.2 = start + N ∧ r'.2 = start + N ∧ ∃ mid : List Fl, mid.length = N ∧
    r.1 = l.take start ++ mid ++ l.drop (start + N) ∧ r'.1 = l'.take start ++ reindex idx mid ++ l'.drop (start + N)

def SplicedRel {σ : Type} (idx : List ℕ) (N start : ℕ) (l l' : List Fl) (x x' : σ × Except PyErr (List Fl × ℕ)) : Prop :=
  x'.1 = x.1 ∧
    match x.2, x'.2 with
    | .ok r, .ok r' => SplicedOk idx N start l l' r r'
    | .error e, .error e' => e = e'
    | _, _ => False

theorem reindex_length (idx : List ℕ) (l : List Fl) : (reindex idx l).length = idx.length := by simp [reindex]

theorem splicedOk_trans {ia ib : List ℕ} {n m start : ℕ} {l l' : List Fl} {r r' s s' : List Fl × ℕ}
    (ha : ia.Perm (List.range n)) (hb : ib.Perm (List.range m)) (hl : start + (n + m) ≤ l.length)
    (hl' : start + (n + m) ≤ l'.length) (h1 : SplicedOk ia n start l l' r r')
    (h2 : SplicedOk ib m (start + n) r.1 r'.1 s s') :
    SplicedOk (ia ++ ib.map fun i => i + n) (n + m) start l l' s s' := by
  obtain ⟨a1, a2, mid, a3, a4, a5⟩ := h1
  obtain ⟨b1, b2, mid2, b3, b4, b5⟩ := h2
  subst a3 b3
  have hia : ia.length = mid.length := by simpa using ha.length_eq
  have hib : ib.length = mid2.length := by simpa using hb.length_eq
  refine ⟨by omega, by omega, mid ++ mid2, by simp, ?_, ?_⟩
  · rw [b4, a4]
    exact splice l mid mid2 start hl
  · rw [b5, a5, reindex_append ha]
    have := splice l' (reindex ia mid) (reindex ib mid2) start (by rw [reindex_length, reindex_length, hia, hib]; exact hl')
    rw [reindex_length, reindex_length, hia, hib] at this
    exact this

theorem spliced_length {idx : List ℕ} {N start : ℕ} {l l' : List Fl} {r r' : List Fl × ℕ} (hi : idx.Perm (List.range N))
    (hl : start + N ≤ l.length) (hl' : start + N ≤ l'.length) (h : SplicedOk idx N start l l' r r') :
    r.1.length = l.length ∧ r'.1.length = l'.length := by
  obtain ⟨-, -, mid, h1, h2, h3⟩ := h
  have : idx.length = N := by simpa using hi.length_eq
  rw [h2, h3]
  simp only [List.length_append, List.length_take, List.length_drop, reindex_length, h1, this]
  omega

theorem perm_fillFdiff {px px' : List Pixel} {idx : List ℕ} (hi : idx.Perm (List.range px.length))
    (he : px' = idx.map fun i => px.getD i Pixel.zero) (gm : List Gauss) (l l' : List Fl) (start : ℕ)
    (hl : start + px.length ≤ l.length) (hl' : start + px.length ≤ l'.length) :
    (fillFdiffFl gm px' start l').1 = (fillFdiffFl gm px start l).1 ∧
    match (fillFdiffFl gm px start l).2, (fillFdiffFl gm px' start l').2 with
    | .ok r, .ok r' => SplicedOk idx px.length start l l' (r, start + px.length) (r', start + px.length)
    | .error e, .error e' => e = e'
    | _, _ => False := by
  have hpl : px'.length = px.length := by rw [he, List.length_map]; simpa using hi.length_eq
  unfold fillFdiffFl
  rcases setNormsIfNeeded gm with ⟨d, e | u⟩
  · exact ⟨rfl, rfl⟩
  · refine ⟨rfl, ?_⟩
    simp only
    refine ⟨rfl, rfl, (px.map (residual d)).map Fl.fin, by simp, ?_, ?_⟩
    · exact fdiffLoopFl_eq d start px 0 l (by omega)
    · have := fdiffLoopFl_eq d start px' 0 l' (by omega)
      rw [hpl] at this
      refine Eq.trans this ?_
      rw [he]
      congr 2
      have := reindex_map hi fun p => Fl.fin (residual d p)
      simp only [List.map_map] at this ⊢
      exact this

theorem perm_fdiffBand : ∀ {is is' : List Img}, List.Forall₂ PermImg is is' → ∃ idx : List ℕ,
    idx.Perm (List.range (is.map fun i => i.pixels.length).sum) ∧
    ∀ (gs : List (GMixObj × GMixObj)), is.length ≤ gs.length → ∀ (l l' : List Fl) (start : ℕ),
      start + (is.map fun i => i.pixels.length).sum ≤ l.length → start + (is.map fun i => i.pixels.length).sum ≤ l'.length →
      SplicedRel idx (is.map fun i => i.pixels.length).sum start l l' (fdiffBand is gs l start) (fdiffBand is' gs l' start)
  | _, _, .nil => by
    refine ⟨[], .refl _, ?_⟩
    intro gs _ l l' start _ _
    refine ⟨rfl, rfl, rfl, [], rfl, by simp, by simp [reindex]⟩
  | i :: is, i' :: is', .cons a as => by
    obtain ⟨idx2, h2, ih⟩ := perm_fdiffBand as
    obtain ⟨idx1, h1, he⟩ := perm_index Pixel.zero a.2
    refine ⟨idx1 ++ idx2.map fun k => k + i.pixels.length, ?_, ?_⟩
    · rw [List.map_cons, List.sum_cons]
      exact range_append_perm h1 h2
    · intro gs hgs l l' start hl hl'
      rcases gs with _ | ⟨g, gs⟩
      · simp at hgs
      rw [List.map_cons, List.sum_cons] at hl hl' ⊢
      obtain ⟨k1, k2⟩ := perm_fillFdiff h1 he g.2.data l l' start (by omega) (by omega)
      have hpl : i'.pixels.length = i.pixels.length := a.2.length_eq.symm
      unfold fdiffBand
      revert k1 k2
      rcases fillFdiffFl g.2.data i.pixels start l with ⟨d, e | r⟩ <;>
        rcases fillFdiffFl g.2.data i'.pixels start l' with ⟨d', e' | r'⟩ <;> intro k1 k2
      · simp only at k1 k2; subst k1 k2; exact ⟨rfl, rfl⟩
      · exact k2.elim
      · exact k2.elim
      · simp only at k1 k2
        subst k1
        simp only [hpl]
        obtain ⟨q1, q2⟩ := spliced_length h1 (by omega) (by omega) k2
        simp only at q1 q2
        obtain ⟨m1, m2⟩ := ih gs (by simpa using hgs) r r' (start + i.pixels.length) (by rw [q1]; omega) (by rw [q2]; omega)
        revert m1 m2
        rcases fdiffBand is gs r (start + i.pixels.length) with ⟨gs1, e | x⟩ <;>
          rcases fdiffBand is' gs r' (start + i.pixels.length) with ⟨gs2, e' | x'⟩ <;> intro m1 m2
        · simp only at m1 m2; subst m1 m2; exact ⟨rfl, rfl⟩
        · exact m2.elim
        · exact m2.elim
        · simp only at m1 m2
          subst m1
          exact ⟨rfl, splicedOk_trans h1 h2 hl hl' k2 m2⟩

theorem flatten_pix (is : List Img) (obs : List (List Img)) :
    (((is :: obs).flatten).map fun i => i.pixels.length).sum =
      (is.map fun i => i.pixels.length).sum + ((obs.flatten).map fun i => i.pixels.length).sum := by
  simp

theorem perm_fdiffAll : ∀ {obs obs' : List (List Img)}, PermImgs obs obs' → ∃ idx : List ℕ,
    idx.Perm (List.range ((obs.flatten).map fun i => i.pixels.length).sum) ∧
    ∀ (st : FMState), obs.length ≤ st.length → (∀ x ∈ obs.zip st, x.1.length ≤ x.2.length) → ∀ (l l' : List Fl) (start : ℕ),
      start + ((obs.flatten).map fun i => i.pixels.length).sum ≤ l.length →
      start + ((obs.flatten).map fun i => i.pixels.length).sum ≤ l'.length →
      SplicedRel idx ((obs.flatten).map fun i => i.pixels.length).sum start l l' (fdiffAll obs st l start)
        (fdiffAll obs' st l' start)
  | _, _, .nil => by
    refine ⟨[], .refl _, ?_⟩
    intro gs _ _ l l' start _ _
    refine ⟨rfl, rfl, rfl, [], rfl, by simp, by simp [reindex]⟩
  | is :: obs, is' :: obs', .cons a as => by
    obtain ⟨idx2, h2, ih⟩ := perm_fdiffAll as
    obtain ⟨idx1, h1, hb⟩ := perm_fdiffBand a
    refine ⟨idx1 ++ idx2.map fun k => k + (is.map fun i => i.pixels.length).sum, ?_, ?_⟩
    · rw [flatten_pix]
      exact range_append_perm h1 h2
    · intro st hst hz l l' start hl hl'
      rcases st with _ | ⟨gs, st⟩
      · simp at hst
      rw [flatten_pix] at hl hl' ⊢
      obtain ⟨k1, k2⟩ := hb gs (hz (is, gs) (by simp)) l l' start (by omega) (by omega)
      unfold fdiffAll
      revert k1 k2
      rcases fdiffBand is gs l start with ⟨d, e | ⟨r, rs⟩⟩ <;>
        rcases fdiffBand is' gs l' start with ⟨d', e' | ⟨r', rs'⟩⟩ <;> intro k1 k2
      · simp only at k1 k2; subst k1 k2; exact ⟨rfl, rfl⟩
      · exact k2.elim
      · exact k2.elim
      · simp only at k1 k2
        subst k1
        obtain ⟨q1, q2⟩ := spliced_length h1 (by omega) (by omega) k2
        have e1 : rs = start + (is.map fun i => i.pixels.length).sum := k2.1
        have e2 : rs' = start + (is.map fun i => i.pixels.length).sum := k2.2.1
        subst e1 e2
        simp only at q1 q2 ⊢
        obtain ⟨m1, m2⟩ := ih st (by simpa using hst) (fun x hx => hz x (by simp [hx])) r r' (start + (is.map fun i => i.pixels.length).sum) (by rw [q1]; omega) (by rw [q2]; omega)
        revert m1 m2
        rcases fdiffAll obs st r (start + (is.map fun i => i.pixels.length).sum) with ⟨gs1, e | x⟩ <;>
          rcases fdiffAll obs' st r' (start + (is.map fun i => i.pixels.length).sum) with ⟨gs2, e' | x'⟩ <;> intro m1 m2
        · simp only at m1 m2; subst m1 m2; exact ⟨rfl, rfl⟩
        · exact m2.elim
        · exact m2.elim
        · simp only at m1 m2
          subst m1
          exact ⟨rfl, splicedOk_trans h1 h2 hl hl' k2 m2⟩

theorem fillBand_shape (dopsf : Bool) (bp : List ℝ) : ∀ (is : List Img) (gs gs' : List (GMixObj × GMixObj)) (u : Unit),
    fillBand dopsf bp is gs = (gs', .ok u) → is.length ≤ gs'.length
  | [], _, _, _, _ => by simp
  | _ :: _, [], _, _, h => by simp [fillBand] at h
  | i :: is, g :: gs, gs', u, h => by
    unfold fillBand at h
    rcases h0 : fillOne dopsf bp i g with ⟨g', e | v⟩ <;> rw [h0] at h
    · simp at h
    · simp only at h
      rcases h2 : fillBand dopsf bp is gs with ⟨gs2, e | v⟩
      · rw [h2] at h; simp at h
      · rw [h2] at h
        simp only [Prod.mk.injEq] at h
        rw [← h.1]
        simpa using fillBand_shape dopsf bp is gs gs2 v h2

theorem fillAll_shape (kind : FMKind) (dopsf : Bool) (pars : List ℝ) : ∀ (obs : List (List Img)) (b : ℕ) (st st' : FMState)
    (u : Unit), fillAll kind dopsf pars b obs st = (st', .ok u) →
    obs.length ≤ st'.length ∧ ∀ x ∈ obs.zip st', x.1.length ≤ x.2.length
  | [], _, _, _, _, _ => by simp
  | _ :: _, _, [], _, _, h => by simp [fillAll] at h
  | is :: obs, b, gs :: st, st', u, h => by
    unfold fillAll at h
    rcases h0 : kind.bandPars pars b with e | bp <;> rw [h0] at h
    · simp at h
    · simp only at h
      rcases h1 : fillBand dopsf bp is gs with ⟨gs', e | v⟩
      · rw [h1] at h; simp at h
      · rw [h1] at h
        simp only at h
        rcases h2 : fillAll kind dopsf pars (b + 1) obs st with ⟨st2, e | v2⟩
        · rw [h2] at h; simp at h
        · rw [h2] at h
          simp only [Prod.mk.injEq] at h
          rw [← h.1]
          obtain ⟨k1, k2⟩ := fillAll_shape kind dopsf pars obs (b + 1) st st2 v2 h2
          refine ⟨by simpa using k1, ?_⟩
          intro x hx
          rw [List.zip_cons_cons, List.mem_cons] at hx
          rcases hx with rfl | hx
          · exact fillBand_shape dopsf bp is gs gs' v h1
          · exact k2 x hx

theorem reindex_const {idx : List ℕ} {N : ℕ} (h : idx.Perm (List.range N)) (x : Fl) :
    reindex idx (List.replicate N x) = List.replicate N x := by
  unfold reindex
  have hl : idx.length = N := by simpa using h.length_eq
  refine List.eq_replicate_iff.2 ⟨by simpa using hl, ?_⟩
  intro y hy
  obtain ⟨i, hi, rfl⟩ := List.mem_map.1 hy
  have hi' : i < N := by simpa using h.subset hi
  simp [List.getD_eq_getElem?_getD, hi']

theorem reindex_id (l : List Fl) : reindex (List.range l.length) l = l := by
  unfold reindex
  refine List.ext_getElem (by simp) fun i h1 h2 => ?_
  simp [h2]

theorem perm_totpix : ∀ {obs obs' : List (List Img)} (_ : PermImgs obs obs'),
    ((obs'.flatten).map fun i => i.pixels.length).sum = ((obs.flatten).map fun i => i.pixels.length).sum
  | _, _, .nil => rfl
  | is :: obs, is' :: obs', .cons a as => by
    rw [flatten_pix, flatten_pix, perm_totpix as]
    congr 1
    clear as
    induction a with
    | nil => rfl
    | cons h _ ih => simp only [List.map_cons, List.sum_cons, h.2.length_eq, ih]

/-- The residuals, when the prior writes `n` of them at all parameters and there is room for the pixels. -/
theorem perm_calcFdiff (kind : FMKind) (prior : Option JointPrior) (dopsf : Bool) {obs obs' : List (List Img)}
    (h : PermImgs obs obs') (n : ℕ) (hn : ∀ pars f g m, fillPriors prior pars f = .ok (g, m) → m = n)
    (hroom : n + FitModel.totpix ⟨kind, prior, obs, dopsf⟩ ≤ FitModel.fdiffSize ⟨kind, prior, obs, dopsf⟩) :
    ∃ idx : List ℕ, idx.Perm (List.range (FitModel.fdiffSize ⟨kind, prior, obs, dopsf⟩)) ∧
      idx.take n = List.range n ∧
      ∀ st pars, (calcFdiff ⟨kind, prior, obs', dopsf⟩ st pars).1 = (calcFdiff ⟨kind, prior, obs, dopsf⟩ st pars).1 ∧
        (calcFdiff ⟨kind, prior, obs', dopsf⟩ st pars).2 =
          (calcFdiff ⟨kind, prior, obs, dopsf⟩ st pars).2.map (reindex idx) := by
  have hs : FitModel.fdiffSize ⟨kind, prior, obs', dopsf⟩ = FitModel.fdiffSize ⟨kind, prior, obs, dopsf⟩ := by
    unfold FitModel.fdiffSize FitModel.totpix
    simp only [perm_totpix h, h.length_eq]
  obtain ⟨idx0, h1, h2⟩ := perm_fdiffAll h
  generalize hN : FitModel.fdiffSize ⟨kind, prior, obs, dopsf⟩ = N at *
  have ht : FitModel.totpix ⟨kind, prior, obs, dopsf⟩ = ((obs.flatten).map fun i => i.pixels.length).sum := rfl
  rw [ht] at hroom
  generalize hT : ((obs.flatten).map fun i => i.pixels.length).sum = T at *
  set idx := List.range n ++ ((idx0 ++ (List.range (N - n - T)).map fun i => i + T).map fun i => i + n) with hidx
  have hin : (idx0 ++ (List.range (N - n - T)).map fun i => i + T).Perm (List.range (T + (N - n - T))) :=
    range_append_perm h1 (.refl _)
  have hip : idx.Perm (List.range N) := by
    have := range_append_perm (List.Perm.refl (List.range n)) hin
    rw [show n + (T + (N - n - T)) = N by omega] at this
    exact this
  refine ⟨idx, hip, ?_, ?_⟩
  · rw [hidx, List.take_left' (by simp)]
  · intro st pars
    unfold calcFdiff
    have key : (calcFdiffTry ⟨kind, prior, obs', dopsf⟩ st pars).1 = (calcFdiffTry ⟨kind, prior, obs, dopsf⟩ st pars).1 ∧
        (calcFdiffTry ⟨kind, prior, obs', dopsf⟩ st pars).2 =
          (calcFdiffTry ⟨kind, prior, obs, dopsf⟩ st pars).2.map (reindex idx) := by
      unfold calcFdiffTry
      simp only [hs, hN, perm_fillAll kind dopsf pars h]
      rcases hf : fillAll kind dopsf pars 0 obs st with ⟨st1, e | u⟩
      · exact ⟨rfl, rfl⟩
      simp only
      rcases hp : fillPriors prior pars (List.replicate N (.fin 0)) with e | ⟨pre, m⟩
      · exact ⟨rfl, rfl⟩
      obtain rfl := hn _ _ _ _ hp
      obtain ⟨g1, -⟩ := fillPriors_frame prior pars _ _ _ hp
      rw [List.length_replicate] at g1
      obtain ⟨s1, s2⟩ := fillAll_shape kind dopsf pars obs 0 st st1 u hf
      obtain ⟨k1, k2⟩ := h2 st1 s1 s2 pre pre m (by omega) (by omega)
      revert k1 k2
      simp only
      rcases fdiffAll obs st1 pre m with ⟨gs1, e | ⟨x, xs⟩⟩ <;>
        rcases fdiffAll obs' st1 pre m with ⟨gs2, e' | ⟨x', xs'⟩⟩ <;> intro k1 k2
      · simp only at k1 k2; subst k1 k2; exact ⟨rfl, rfl⟩
      · exact k2.elim
      · exact k2.elim
      · simp only at k1 k2
        subst k1
        refine ⟨rfl, ?_⟩
        obtain ⟨-, -, mid, m1, m2, m3⟩ := k2
        simp only at m2 m3
        simp only [Except.map, Except.ok.injEq]
        rw [m3, m2, hidx, List.append_assoc, List.append_assoc]
        have l1 : (pre.take m).length = m := by rw [List.length_take]; omega
        have l2 : (pre.drop (m + T)).length = N - m - T := by rw [List.length_drop]; omega
        have r1 := reindex_append (ia := List.range m) (ib := idx0 ++ (List.range (N - m - T)).map fun i => i + T)
          (a := pre.take m) (b := mid ++ pre.drop (m + T)) (by rw [l1])
        rw [l1] at r1
        rw [r1]
        have r2 := reindex_append (ia := idx0) (ib := List.range (N - m - T)) (a := mid) (b := pre.drop (m + T)) (by rw [m1]; exact h1)
        rw [m1] at r2
        rw [r2]
        congr 1
        · have := reindex_id (pre.take m)
          rw [l1] at this
          exact this.symm
        · congr 1
          have := reindex_id (pre.drop (m + T))
          rw [l2] at this
          exact this.symm
    revert key
    simp only [hs, hN]
    rcases calcFdiffTry ⟨kind, prior, obs, dopsf⟩ st pars with ⟨s, e | l⟩ <;>
      rcases calcFdiffTry ⟨kind, prior, obs', dopsf⟩ st pars with ⟨s', e' | l'⟩ <;> rintro ⟨k1, k2⟩
    · simp only [Except.map, Except.error.injEq] at k1 k2
      subst k1 k2
      cases e' <;> first | exact ⟨rfl, rfl⟩ | exact ⟨rfl, by simp only [Except.map, reindex_const hip]⟩
    · simp [Except.map] at k2
    · simp [Except.map] at k2
    · simp only at k1 k2
      subst k1
      exact ⟨rfl, k2⟩

theorem newFit_obs {kind : FMKind} {prior : Option JointPrior} {obs : List (List Img)} {guess : List ℝ} {fm : FitModel} {st : FMState}
    (e : newFitModel kind prior obs guess = .ok (fm, st)) : fm.kind = kind ∧ fm.prior = prior ∧ fm.obs = obs := by
  unfold newFitModel at e
  obtain ⟨_, _, e⟩ := exBind_ok e
  obtain ⟨_, _, e⟩ := exBind_ok e
  split_ifs at e
  split at e
  · split at e
    · simp only [Except.ok.injEq, Prod.mk.injEq] at e; rw [← e.1]; exact ⟨rfl, rfl, rfl⟩
    · cases e
    · cases e
  · cases e

/-- C108: a model fit is set up with the same mixtures or the same exception.  At any parameters, after any history, the log
probability is the same, and the residuals of the prior are the same and those of the pixels are in another order, which is the
same at all parameters. -/
theorem C108_fit (kind : FMKind) (prior : Option JointPrior) (obs obs' : List (List Img)) (guess : List ℝ)
    (h : PermImgs obs obs') :
    (newFitModel kind prior obs' guess).map (fun x => x.2) = (newFitModel kind prior obs guess).map (fun x => x.2) ∧
    ∀ fm fm' st0 st0', newFitModel kind prior obs guess = .ok (fm, st0) → newFitModel kind prior obs' guess = .ok (fm', st0') →
      (∀ st pars, calcLnprob fm' st pars = calcLnprob fm st pars) ∧
      ((∀ p, prior = some p → Shaped p ∧ MadeFor kind p obs.length) →
        ∃ n idx, (∀ p, prior = some p → n = 3 + (layout p).length) ∧ (prior = none → n = 0) ∧
          idx.Perm (List.range fm.fdiffSize) ∧ idx.take n = List.range n ∧
          ∀ st pars, (calcFdiff fm' st pars).1 = (calcFdiff fm st pars).1 ∧
            (calcFdiff fm' st pars).2 = (calcFdiff fm st pars).2.map (reindex idx)) := by
  have hn := perm_new kind prior h guess
  constructor
  · rw [hn]
    rcases newFitModel kind prior obs guess with _ | _ <;> rfl
  · intro fm fm' st0 st0' e e'
    obtain ⟨-, -, -, -, ⟨npp, hnp⟩, -⟩ := new_shape e
    obtain ⟨hk, hpr, hfm⟩ := newFit_obs e
    rw [e] at hn
    rw [hn] at e'
    simp only [Except.map, Except.ok.injEq, Prod.mk.injEq] at e'
    obtain ⟨rfl, rfl⟩ := e'
    obtain ⟨k, p, o, d⟩ := fm
    simp only at hfm hk hpr ⊢
    subst hfm hk hpr
    refine ⟨fun st pars => perm_calcLnprob k p d h st pars, ?_⟩
    intro hok
    have hsize := fdiffSize_eq (fm := ⟨k, p, o, d⟩) hnp
    cases p with
    | none =>
      obtain ⟨idx, h1, h2, h3⟩ := perm_calcFdiff k none d h 0
        (by intro pars f g m hm; simp only [fillPriors, Except.ok.injEq, Prod.mk.injEq] at hm; exact hm.2.symm) (by omega)
      exact ⟨0, idx, by simp, fun _ => rfl, h1, h2, h3⟩
    | some p =>
      obtain ⟨hs, hm⟩ := hok p rfl
      have hw := written_count k p o.length npp hs hm hnp
      have hle : 3 + (layout p).length ≤ npp := by
        by_cases hx : ∀ name, k = .std name → name ∉ ["exp", "dev", "gauss", "turb"]
        · exact (hw.1 hx).ge
        · push Not at hx
          have := hw.2 hx
          omega
      obtain ⟨idx, h1, h2, h3⟩ := perm_calcFdiff k (some p) d h (3 + (layout p).length)
        (by intro pars f g m hm; exact (fillPriors_frame (some p) pars f g m hm).2.2.2 p rfl hs) (by omega)
      exact ⟨_, idx, by rintro q hq; cases hq; rfl, by simp, h1, h2, h3⟩

theorem psf_isModel (kind : FMKind) (prior : Option JointPrior) (dopsf : Bool) {obs obs' : List (List Img)}
    (h : List.Forall₂ (List.Forall₂ fun i i' : Img => i'.psf = i.psf) obs obs') (pars : List ℝ) (D : List (List (List Gauss)))
    (hD : IsModel ⟨kind, prior, obs, dopsf⟩ pars D) : IsModel ⟨kind, prior, obs', dopsf⟩ pars D := by
  obtain ⟨h1, h2⟩ := hD
  refine ⟨h1.trans h.length_eq, ?_⟩
  intro b is' ds hb hd
  simp only at hb h2 ⊢
  have hlt : b < obs'.length := by
    by_contra hc
    rw [List.getElem?_eq_none (by omega)] at hb
    cases hb
  have hlt0 : b < obs.length := by rw [h.length_eq]; exact hlt
  have hf := (List.forall₂_iff_get.1 h).2 b hlt0 hlt
  rw [List.getElem?_eq_getElem hlt] at hb
  simp only [Option.some.injEq] at hb
  obtain ⟨bp, k1, k2⟩ := h2 b _ ds (List.getElem?_eq_getElem hlt0) hd
  refine ⟨bp, k1, ?_⟩
  subst hb
  simp only [List.get_eq_getElem] at hf
  revert k2 hf
  generalize obs[b] = x
  generalize obs'[b] = y
  intro hf k2
  clear h h2 hd k1
  induction k2 generalizing y with
  | nil => cases hf; exact .nil
  | cons c _ ih =>
    cases hf with
    | cons a as =>
      refine .cons ?_ (ih _ as)
      unfold modelFor at c ⊢
      rw [a]
      exact c

theorem perm_flatten : ∀ {obs obs' : List (List Img)}, PermImgs obs obs' → List.Forall₂ PermImg obs.flatten obs'.flatten
  | _, _, .nil => .nil
  | _, _, .cons a as => by
    rw [List.flatten_cons, List.flatten_cons]
    exact List.rel_append a (perm_flatten as)

theorem perm_zipMap (F : List Gauss → Pixel → ℝ) : ∀ {is is' : List Img}, List.Forall₂ PermImg is is' → ∀ ds : List (List Gauss),
    ((is.zip ds).flatMap fun x => x.1.pixels.map (F x.2)).Perm ((is'.zip ds).flatMap fun x => x.1.pixels.map (F x.2))
  | _, _, .nil, _ => by simp
  | _, _, .cons _ _, [] => by simp
  | _, _, .cons a as, d :: ds => by
    simp only [List.zip_cons_cons, List.flatMap_cons]
    exact (a.2.map _).append (perm_zipMap F as ds)

/-- C108 (disagreement of the unchanged code): for the simple models with a prior, the slots the error estimate takes for the
data miss the residual of the first pixel (C41).  Which pixel that is depends on the layout: their sums of squares differ by the
difference of the squares of the two first residuals. -/
theorem C108_error_slots (name : String) (hname : name ∈ ["exp", "dev", "gauss", "turb"]) (p : JointPrior)
    (obs obs' : List (List Img)) (guess : List ℝ) (hobs : PermImgs obs obs')
    (hs : Shaped p) (hm : MadeFor (.std name) p obs.length)
    (fm : FitModel) (st : FMState) (h : newFitModel (.std name) (some p) obs guess = .ok (fm, st))
    (fm' : FitModel) (st' : FMState) (h' : newFitModel (.std name) (some p) obs' guess = .ok (fm', st'))
    (calls calls' : List Call) (pars : List ℝ) (hpars : pars.length = guess.length) (D : List (List (List Gauss)))
    (hD : IsModel fm pars D) (pre : List Fl) (n : ℕ)
    (hp : p.fillFdiff pars (List.replicate fm.fdiffSize (.fin 0)) = .ok (pre, n)) (hpix : 0 < fm.totpix) :
    FMKind.nPriorPars (.std name) (some p) obs.length = .ok (n + 1) ∧
    ∃ out out' a a' r r', (calcFdiff fm (runCalls fm st calls) pars).2 = .ok out ∧
      (calcFdiff fm' (runCalls fm' st' calls') pars).2 = .ok out' ∧
      residuals fm D = a :: r ∧ residuals fm' D = a' :: r' ∧
      out.drop (n + 1) = r.map Fl.fin ++ [.fin 0] ∧ out'.drop (n + 1) = r'.map Fl.fin ++ [.fin 0] ∧
      (r.map (· ^ 2)).sum - (r'.map (· ^ 2)).sum = a' ^ 2 - a ^ 2 := by
  obtain ⟨k1, out, k2, -, k4⟩ := C41_simple_loses_pixel name hname p obs guess hs hm fm st h calls pars hpars D hD pre n hp hpix
  have hl := residuals_length fm pars D hD
  obtain ⟨e1, e2, e3⟩ := newFit_obs h
  have hn := perm_new (.std name) (some p) hobs guess
  rw [h] at hn
  rw [hn] at h'
  have hnew := hn
  simp only [Except.map, Except.ok.injEq, Prod.mk.injEq] at h'
  obtain ⟨rfl, rfl⟩ := h'
  obtain ⟨k, q, o, d⟩ := fm
  simp only at e1 e2 e3
  subst e1 e2 e3
  have hD' : IsModel ⟨.std name, some p, obs', d⟩ pars D := psf_isModel (.std name) (some p) d
    (hobs.imp fun _ _ x => x.imp fun _ _ y => y.1) pars D hD
  have hsz : FitModel.fdiffSize ⟨.std name, some p, obs', d⟩ = FitModel.fdiffSize ⟨.std name, some p, o, d⟩ := by
    unfold FitModel.fdiffSize FitModel.totpix
    simp only [perm_totpix hobs, hobs.length_eq]
  obtain ⟨-, out', k2', -, k4'⟩ := C41_simple_loses_pixel name hname p obs' guess hs (by rw [← hobs.length_eq]; exact hm)
    ⟨.std name, some p, obs', d⟩ st hnew calls' pars hpars D hD' pre n (by rw [hsz]; exact hp)
    (by unfold FitModel.totpix at hpix ⊢; simp only [perm_totpix hobs]; exact hpix)
  have hperm : (residuals ⟨.std name, some p, o, d⟩ D).Perm (residuals ⟨.std name, some p, obs', d⟩ D) :=
    perm_zipMap (fun gm px => (gmixEvalFast gm px.v px.u px.area - px.val) * px.ierr) (perm_flatten hobs) D.flatten
  rcases hr : residuals ⟨.std name, some p, o, d⟩ D with _ | ⟨a, r⟩
  · rw [hr] at hl; simp at hl; omega
  rcases hr' : residuals ⟨.std name, some p, obs', d⟩ D with _ | ⟨a', r'⟩
  · rw [hr, hr'] at hperm; exact absurd hperm.eq_nil (by simp)
  rw [hr, hr'] at hperm
  rw [hr] at k4
  rw [hr'] at k4'
  refine ⟨k1, out, out', a, a', r, r', k2, k2', rfl, rfl, k4, k4', ?_⟩
  have := (hperm.map (· ^ 2)).sum_eq
  simp only [List.map_cons, List.sum_cons] at this
  linarith

/-! ### Fluxes with mixtures -/

theorem unitImage_zip (doPsf nz : Bool) (g : GMixObj) {α : Type} :
    ∃ f : Coord → ℝ, ∀ (coords : List Coord) (l : List α),
      (unitImage doPsf nz g coords).zip l = (coords.zip l).map fun x => (f x.1, x.2) := by
  unfold unitImage imageOf
  split_ifs
  · refine ⟨fun c => (g.data.map fun g => g.p * kern g c).sum, fun coords l => ?_⟩
    rw [List.zip_map_left]
    rfl
  · refine ⟨fun c => (g.data.map fun g => g.p * kern g c).sum / Flux g.data, fun coords l => ?_⟩
    rw [List.map_map, List.zip_map_left]
    rfl

/-- C108: fluxes with mixtures are the same. -/
theorem C108_flux (obs obs' : List PFObs) (doPsf nz : Bool) (hne : obs ≠ []) (hp : List.Forall₂ PermFlux obs obs')
    (h : ∀ o ∈ obs, ∃ s g, pfSource doPsf o = .ok s ∧ s.gmix = some g ∧ Renderable g ∧
      o.coords.length = o.image.length ∧ o.weight.length = o.image.length) :
    psfFlux obs' doPsf nz = psfFlux obs doPsf nz ∧ ∃ r, psfFlux obs doPsf nz = .ok r := by
  have hts : ∃ gs, List.Forall₂ (fun o g => (∃ s, pfSource doPsf o = .ok s ∧ s.gmix = some g) ∧ Renderable g ∧
      o.coords.length = o.image.length ∧ o.weight.length = o.image.length) obs gs := by
    clear hp hne
    induction obs with
    | nil => exact ⟨[], .nil⟩
    | cons o obs ih =>
      obtain ⟨ts, hts⟩ := ih fun x hx => h x (List.mem_cons_of_mem _ hx)
      obtain ⟨s, t, h1, h2, h3, h4, h5⟩ := h o List.mem_cons_self
      exact ⟨t :: ts, .cons ⟨⟨s, h1, h2⟩, h3, h4, h5⟩ hts⟩
  obtain ⟨gs, hgs⟩ := hts
  have hgs' : List.Forall₂ (fun o g => (∃ s, pfSource doPsf o = .ok s ∧ s.gmix = some g) ∧ Renderable g ∧
      o.coords.length = o.image.length ∧ o.weight.length = o.image.length) obs' gs := by
    clear hne h
    induction hp generalizing gs with
    | nil => cases hgs; exact .nil
    | cons a _ ih =>
      cases hgs with
      | cons b bs =>
        obtain ⟨a1, a2, a3, a4, a5, -⟩ := a
        refine .cons ⟨?_, b.2.1, a4, a5⟩ (ih _ bs)
        obtain ⟨s, b1, b2⟩ := b.1
        refine ⟨s, ?_, b2⟩
        unfold pfSource at b1 ⊢
        rw [a1, a2]
        exact b1
  obtain ⟨r, hr, ho⟩ := C46_mixtures obs gs doPsf nz hne hgs
  obtain ⟨r', hr', ho'⟩ := C46_mixtures obs' gs doPsf nz (by rintro rfl; cases hp; exact hne rfl) hgs'
  have hpx : (pixelsOf obs ((obs.zip gs).map fun og => unitImage doPsf nz og.2 og.1.coords)).Perm
      (pixelsOf obs' ((obs'.zip gs).map fun og => unitImage doPsf nz og.2 og.1.coords)) := by
    clear ho ho' hr hr' hgs hgs' hne h
    unfold pixelsOf
    induction hp generalizing gs with
    | nil => simp
    | @cons o o' os os' a _ ih =>
      rcases gs with _ | ⟨g, gs⟩
      · simp
      · simp only [List.zip_cons_cons, List.map_cons, List.flatMap_cons]
        refine List.Perm.append ?_ (ih gs)
        obtain ⟨f, hf⟩ := unitImage_zip (α := ℝ × ℝ) doPsf nz g
        rw [hf, hf]
        exact a.2.2.2.2.2.map _
  have hnp : (obs'.map PFObs.npixels).sum = (obs.map PFObs.npixels).sum := by
    clear ho ho' hr hr' hgs hgs' hne h hpx
    induction hp with
    | nil => rfl
    | cons a _ ih => simp only [List.map_cons, List.sum_cons, a.2.2.1, ih]
  rw [hnp] at ho'
  have := outcomeUnique hpx ho ho'
  rw [hr, hr', this]
  exact ⟨rfl, _, rfl⟩

/-! ### Examples -/

/-- A layout with its Jacobian, at which `C108_layouts` applies. -/
example : JacMade (Jacobian.finishInit 3 4 1 0 0 1) := rfl

/-- The fit of `ex_fit` with the pixels of one image in another order. -/
example (x y : Pixel) (b c : List Pixel) (prior : Option JointPrior) :
    PermImgs [[⟨[x, y], .ok exPsf⟩, ⟨b, .ok exPsf⟩], [⟨c, .ok exPsf⟩]] [[⟨[y, x], .ok exPsf⟩, ⟨b, .ok exPsf⟩], [⟨c, .ok exPsf⟩]] ∧
    ∃ fm st, newFitModel (.std "gauss") prior [[⟨[x, y], .ok exPsf⟩, ⟨b, .ok exPsf⟩], [⟨c, .ok exPsf⟩]] [0, 0, 0, 0, 4, 1, 1] =
      .ok (fm, st) := by
  refine ⟨.cons (.cons ⟨rfl, .swap _ _ _⟩ (.cons ⟨rfl, .refl _⟩ .nil)) (.cons (.cons ⟨rfl, .refl _⟩ .nil) .nil), ?_⟩
  obtain ⟨st, D, h1, -⟩ := ex_fit prior [x, y] b c
  exact ⟨_, st, h1⟩

/-- The two sums of `C108_error_slots` do differ: for the fit of `ex_fit` there are two pixels such that exchanging them, which
leaves the sky as it is, changes the sum of squares of the slots. -/
example (b c : List Pixel) : ∃ (x y : Pixel) (fm fm' : FitModel) (st st' : FMState) (D : List (List (List Gauss))) (a a' : ℝ)
    (r r' : List ℝ),
    newFitModel (.std "gauss") (some exPrior) [[⟨[x, y], .ok exPsf⟩, ⟨b, .ok exPsf⟩], [⟨c, .ok exPsf⟩]] [0, 0, 0, 0, 4, 1, 1] =
      .ok (fm, st) ∧
    newFitModel (.std "gauss") (some exPrior) [[⟨[y, x], .ok exPsf⟩, ⟨b, .ok exPsf⟩], [⟨c, .ok exPsf⟩]] [0, 0, 0, 0, 4, 1, 1] =
      .ok (fm', st') ∧
    IsModel fm [0, 0, 0, 0, 1, 2, 3] D ∧ residuals fm D = a :: r ∧ residuals fm' D = a' :: r' ∧ a' ^ 2 - a ^ 2 ≠ 0 := by
  obtain ⟨-, D, -, hD0⟩ := ex_fit (some exPrior) [] b c
  have hpsf : ∀ a : List Pixel, List.Forall₂ (List.Forall₂ fun i i' : Img => i'.psf = i.psf)
      [[⟨[], .ok exPsf⟩, ⟨b, .ok exPsf⟩], [⟨c, .ok exPsf⟩]] [[⟨a, .ok exPsf⟩, ⟨b, .ok exPsf⟩], [⟨c, .ok exPsf⟩]] :=
    fun a => .cons (.cons rfl (.cons rfl .nil)) (.cons (.cons rfl .nil) .nil)
  obtain ⟨d, ds, hd⟩ : ∃ d ds, D.flatten = d :: ds := by
    obtain ⟨hl, h⟩ := hD0
    rcases D with _ | ⟨d0, D⟩
    · simp at hl
    obtain ⟨bp, -, hf⟩ := h 0 _ d0 rfl rfl
    cases hf with
    | cons _ _ => exact ⟨_, _, rfl⟩
  set m := gmixEvalFast d 0 0 1 with hm
  obtain ⟨st, -, h1, -⟩ := ex_fit (some exPrior) [⟨0, 0, 1, m, 1⟩, ⟨0, 0, 1, m + 1, 1⟩] b c
  obtain ⟨st', -, h2, -⟩ := ex_fit (some exPrior) [⟨0, 0, 1, m + 1, 1⟩, ⟨0, 0, 1, m, 1⟩] b c
  have hres : ∀ (x y : Pixel), ∃ r, residuals ⟨.std "gauss", some exPrior, [[⟨[x, y], .ok exPsf⟩, ⟨b, .ok exPsf⟩], [⟨c, .ok exPsf⟩]], true⟩ D =
      (gmixEvalFast d x.v x.u x.area - x.val) * x.ierr :: r := by
    intro x y
    unfold residuals pairs
    simp only [List.flatten_cons, List.cons_append, hd, List.zip_cons_cons, List.flatMap_cons, List.map_cons]
    exact ⟨_, rfl⟩
  obtain ⟨r, hr⟩ := hres ⟨0, 0, 1, m, 1⟩ ⟨0, 0, 1, m + 1, 1⟩
  obtain ⟨r', hr'⟩ := hres ⟨0, 0, 1, m + 1, 1⟩ ⟨0, 0, 1, m, 1⟩
  refine ⟨_, _, _, _, st, st', D, _, _, r, r', h1, h2, psf_isModel _ _ _ (hpsf _) _ _ hD0, hr, hr', ?_⟩
  simp only [← hm]
  ring_nf
  norm_num

end

end Ngmix.Props
