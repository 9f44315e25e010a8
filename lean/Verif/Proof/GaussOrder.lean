import Verif.Proof.EMUnit

/-!
# Lemmas: EM with the gaussians of the guess, or of the psf, in another order
-/

namespace Ngmix.Proof.GaussOrder

open Ngmix Ngmix.Spec Ngmix.Props Ngmix.Proof.EM Ngmix.Proof.EMUnit

noncomputable section

/-! ### Sums over gaussians -/

theorem perm_map_sum {α : Type} {l l' : List α} (h : l.Perm l') (f : α → ℝ) : (l.map f).sum = (l'.map f).sum :=
  (h.map f).sum_eq

theorem predicted_perm {l l' : List Gauss} (h : l.Perm l') (px : Pixel) : predicted l px = predicted l' px :=
  perm_map_sum h _

theorem evalFast_perm {l l' : List Gauss} (h : l.Perm l') (v u a : ℝ) : gmixEvalFast l v u a = gmixEvalFast l' v u a := by
  unfold gmixEvalFast
  exact h.foldl_eq' (fun x _ y _ z => by ring) _

theorem eval_perm {l l' : List Gauss} (h : l.Perm l') (v u a : ℝ) : gmixEval l v u a = gmixEval l' v u a := by
  unfold gmixEval
  refine h.foldl_eq' (fun x _ y _ z => ?_) _
  rcases z with _ | z <;> rcases gaussEval x v u a with _ | b <;> rcases gaussEval y v u a with _ | c <;>
    simp [add_comm, add_left_comm]

theorem cen_perm {l l' : List Gauss} (h : l.Perm l') : gmixGetCen l = gmixGetCen l' := by
  unfold gmixGetCen
  rw [h.foldl_eq' (fun x _ y _ z => by
    refine Prod.ext ?_ (Prod.ext ?_ ?_) <;> simp only <;> ring) (0, 0, 0)]

theorem emMoms_perm {l l' : List Gauss} (h : l.Perm l') : emGetMoms l = emGetMoms l' := by
  unfold emGetMoms
  rw [cen_perm h]
  congr 1
  funext c
  rw [h.foldl_eq' (fun x _ y _ z => by
    refine Prod.ext ?_ (Prod.ext ?_ ?_) <;> simp only <;> ring) (0, 0, 0)]

theorem psum_perm {l l' : List Gauss} (h : l.Perm l') : psum l = psum l' := perm_map_sum h _

theorem fl_add_right_comm (a b c : Fl) : a + b + c = a + c + b := by
  rcases a with _ | _ | _ | a <;> rcases b with _ | _ | _ | b <;> rcases c with _ | _ | _ | c <;>
    first | rfl | (simp only [Fl.fin_add]; congr 1; ring)

/-! ### Rows: a gaussian, its gaussians after convolution, its sums -/

/-- A gaussian of the mixture with what belongs to it. -/
structure Row where
  g : Gauss
  blk : List Gauss
  s : EMSums

/-- The same, the convolved gaussians in another order. -/
def RowEq (r r' : Row) : Prop := r.g = r'.g ∧ r.blk.Perm r'.blk ∧ r.s = r'.s

/-- The same rows in another order. -/
def SameRows (rs rs' : List Row) : Prop := ∃ m, List.Forall₂ RowEq rs m ∧ m.Perm rs'

theorem rows_map {rs rs' : List Row} (h : SameRows rs rs') {f f' : Row → Row} (hf : ∀ r r', RowEq r r' → RowEq (f r) (f' r')) :
    SameRows (rs.map f) (rs'.map f') := by
  obtain ⟨m, h1, h2⟩ := h
  refine ⟨m.map f', ?_, h2.map f'⟩
  rw [List.forall₂_map_left_iff, List.forall₂_map_right_iff]
  exact h1.imp fun _ _ h => hf _ _ h

theorem rows_perm {rs rs' : List Row} (h : SameRows rs rs') {β : Type} {f : Row → β}
    (hf : ∀ r r', RowEq r r' → f r = f r') : (rs.map f).Perm (rs'.map f) := by
  obtain ⟨m, h1, h2⟩ := h
  refine List.Perm.trans (List.Perm.of_eq ?_) (h2.map f)
  induction h1 generalizing rs' with
  | nil => rfl
  | cons a _ ih => rw [List.map_cons, List.map_cons, hf _ _ a, ih (List.Perm.refl _)]

theorem rows_blk {rs rs' : List Row} (h : SameRows rs rs') : (rs.flatMap Row.blk).Perm (rs'.flatMap Row.blk) := by
  obtain ⟨m, h1, h2⟩ := h
  refine List.Perm.trans ?_ (h2.flatMap_right Row.blk)
  clear h2
  induction h1 with
  | nil => exact List.Perm.refl _
  | cons a _ ih =>
    rw [List.flatMap_cons, List.flatMap_cons]
    exact a.2.1.append ih

theorem rows_all {rs rs' : List Row} (h : SameRows rs rs') {P : Row → Prop} (hP : ∀ r r', RowEq r r' → (P r ↔ P r')) :
    (∀ r ∈ rs, P r) ↔ ∀ r ∈ rs', P r := by
  obtain ⟨m, h1, h2⟩ := h
  have : (∀ r ∈ rs, P r) ↔ ∀ r ∈ m, P r := by
    clear h2
    induction h1 with
    | nil => rfl
    | cons a _ ih => rw [List.forall_mem_cons, List.forall_mem_cons, hP _ _ a, ih]
  rw [this]
  exact ⟨fun h r hr => h r (h2.mem_iff.2 hr), fun h r hr => h r (h2.mem_iff.1 hr)⟩

/-! ### One pixel -/

/-- A gaussian with the logarithms the loop uses. -/
def withLogs (g : Gauss) : Gauss × Fl × Fl := (g, logFl (.fin g.p), logFl (.fin g.det))

theorem zip_logs (cv : List Gauss) : cv.zip (logtauLogdet cv) = cv.map withLogs := by
  unfold logtauLogdet
  induction cv with
  | nil => rfl
  | cons g cv ih => rw [List.map_cons, List.zip_cons_cons, ih]; rfl

/-- What a gaussian adds to the log likelihood of a pixel. -/
def logTerm (px : Pixel) (gt : Gauss × Fl × Fl) : Fl :=
  .fin (gaussEvalFast gt.1 px.v px.u px.area) * (gt.2.1 - .fin 0.5 * gt.2.2 - .fin 0.5 * emChi2 gt.1 px)

theorem foldl_logs (px : Pixel) : ∀ (l : List (Gauss × Fl × Fl)) (a : EMSums × ℝ × Fl),
    (l.foldl (scratchGauss px) a).2.2 = l.foldl (fun L gt => L + logTerm px gt) a.2.2 := by
  intro l
  induction l with
  | nil => intro a; rfl
  | cons g l ih => intro a; rw [List.foldl_cons, List.foldl_cons, ih]; rfl

theorem scratch_rows (n : ℕ) (px : Pixel) : ∀ (rs : List Row) (gsum : ℝ) (logL : Fl), (∀ r ∈ rs, r.blk.length = n) →
    scratchAll n px (rs.map Row.s) ((rs.flatMap Row.blk).map withLogs) gsum logL =
      (rs.map fun r => setScratch px r.s r.blk, gsum + predicted (rs.flatMap Row.blk) px,
        ((rs.flatMap Row.blk).map withLogs).foldl (fun L gt => L + logTerm px gt) logL) := by
  intro rs
  induction rs with
  | nil => intro gsum logL _; simp [scratchAll, predicted]
  | cons r rs ih =>
    intro gsum logL hn
    have hr : (r.blk.map withLogs).length = n := by rw [List.length_map]; exact hn r (by simp)
    simp only [List.map_cons, List.flatMap_cons, List.map_append, scratchAll]
    rw [List.take_left' hr, List.drop_left' hr]
    have e2 := foldl_logs px (r.blk.map withLogs) (resetScratch r.s, gsum, logL)
    obtain ⟨l', e1⟩ := foldl_scratch px (r.blk.map withLogs) (resetScratch r.s) gsum logL
    rw [e1] at e2
    simp only at e2
    rw [e1, e2]
    have ef : (r.blk.map withLogs).map Prod.fst = r.blk := by
      rw [List.map_map]
      exact (List.map_congr_left fun g _ => rfl).trans (List.map_id _)
    simp only [ef]
    rw [ih _ _ fun r hr => hn r (by simp [hr]), List.foldl_append, predicted_append, add_assoc]
    simp only [setScratch, resetScratch, zero_add]

theorem setScratch_perm (px : Pixel) (s : EMSums) {b b' : List Gauss} (h : b.Perm b') : setScratch px s b = setScratch px s b' := by
  unfold setScratch
  simp only [predicted_perm h px, perm_map_sum h]

theorem doScratch_rows (n : ℕ) (px : Pixel) {rs rs' : List Row} (h : SameRows rs rs') (hn : ∀ r ∈ rs, r.blk.length = n)
    (hn' : ∀ r ∈ rs', r.blk.length = n) :
    (doScratchSums n px (rs.map Row.s) ((rs.flatMap Row.blk).map withLogs)).1 = rs.map (fun r => setScratch px r.s r.blk) ∧
    (doScratchSums n px (rs'.map Row.s) ((rs'.flatMap Row.blk).map withLogs)).1 = rs'.map (fun r => setScratch px r.s r.blk) ∧
    (doScratchSums n px (rs.map Row.s) ((rs.flatMap Row.blk).map withLogs)).2 =
      (doScratchSums n px (rs'.map Row.s) ((rs'.flatMap Row.blk).map withLogs)).2 := by
  unfold doScratchSums
  rw [scratch_rows n px rs _ _ hn, scratch_rows n px rs' _ _ hn']
  refine ⟨rfl, rfl, ?_⟩
  have e1 := predicted_perm (rows_blk h) px
  have e2 := ((rows_blk h).map withLogs).foldl_eq' (f := fun L gt => L + logTerm px gt)
    (fun x _ y _ z => fl_add_right_comm _ _ _) (.fin 0)
  simp only
  rw [e1, e2]

/-- The row after a pixel. -/
def rowStep (px : Pixel) (gtot : ℝ) (r : Row) : Row :=
  { r with s := ((doSums px gtot [setScratch px r.s r.blk]).headD r.s) }

theorem doSums_rows (px : Pixel) (gtot : ℝ) (rs : List Row) :
    doSums px gtot (rs.map fun r => setScratch px r.s r.blk) = (rs.map (rowStep px gtot)).map Row.s := by
  unfold doSums
  rw [List.map_map, List.map_map]
  rfl

theorem pixel_rows (n : ℕ) (sky : ℝ) : ∀ (pxs : List Pixel) (rs rs' : List Row) (e : Fl) (sk : ℝ), SameRows rs rs' →
    (∀ r ∈ rs, r.blk.length = n) → (∀ r ∈ rs', r.blk.length = n) →
    SameOutcome (fun a a' => ∃ R R', SameRows R R' ∧ a.1 = R.map Row.s ∧ a'.1 = R'.map Row.s ∧ a.2 = a'.2 ∧
        R.map Row.g = rs.map Row.g ∧ R'.map Row.g = rs'.map Row.g)
      (pixelLoop n ((rs.flatMap Row.blk).map withLogs) sky pxs (rs.map Row.s, e, sk))
      (pixelLoop n ((rs'.flatMap Row.blk).map withLogs) sky pxs (rs'.map Row.s, e, sk)) := by
  intro pxs
  induction pxs with
  | nil => intro rs rs' e sk h _ _; exact ⟨rs, rs', h, rfl, rfl, rfl, rfl, rfl⟩
  | cons px pxs ih =>
    intro rs rs' e sk h hn hn'
    obtain ⟨e1, e2, e3⟩ := doScratch_rows n px h hn hn'
    simp only [pixelLoop]
    rw [e1, e2, e3]
    generalize (doScratchSums n px (rs'.map Row.s) ((rs'.flatMap Row.blk).map withLogs)).2 = q
    by_cases h0 : q.1 + sky = 0
    · rw [if_pos h0, if_pos h0]; exact rfl
    · rw [if_neg h0, if_neg h0, doSums_rows, doSums_rows]
      have hb : ∀ l : List Row, (l.map (rowStep px (q.1 + sky))).flatMap Row.blk = l.flatMap Row.blk := by
        intro l; rw [List.flatMap_map]; rfl
      have hg : ∀ l : List Row, (l.map (rowStep px (q.1 + sky))).map Row.g = l.map Row.g := by
        intro l; rw [List.map_map]; rfl
      have := ih (rs.map (rowStep px (q.1 + sky))) (rs'.map (rowStep px (q.1 + sky))) (e + q.2) (sk + sky * px.val / (q.1 + sky))
        (rows_map h fun r r' hr => ⟨hr.1, hr.2.1, by
          simp only [rowStep]
          rw [setScratch_perm px r.s hr.2.1, hr.2.2]⟩)
        (by intro r hr; obtain ⟨x, hx, rfl⟩ := List.mem_map.1 hr; exact hn x hx)
        (by intro r hr; obtain ⟨x, hx, rfl⟩ := List.mem_map.1 hr; exact hn' x hx)
      rwa [hb, hb, hg, hg] at this

/-! ### The new mixture -/

/-- The new gaussian of a row. -/
def newG (kind : EMKind) (m : ℝ × ℝ × ℝ) (r : Row) : Gauss :=
  match setGaussFromSums kind m r.g r.s with
  | .ok g => g
  | .error _ => r.g

theorem setGauss_cases (kind : EMKind) (m : ℝ × ℝ × ℝ) (r : Row) :
    setGaussFromSums kind m r.g r.s = .ok (newG kind m r) ∨ setGaussFromSums kind m r.g r.s = .error .zeroDiv := by
  unfold newG
  rcases h : setGaussFromSums kind m r.g r.s with e | g
  · right
    congr 1
    cases kind <;> simp only [setGaussFromSums] at h
    all_goals first
      | (split_ifs at h; cases h; rfl)
      | cases h
  · left; rfl

theorem setLoop_rows (kind : EMKind) (m : ℝ × ℝ × ℝ) : ∀ rs : List Row,
    ((∀ r ∈ rs, setGaussFromSums kind m r.g r.s = .ok (newG kind m r)) →
      setFromSumsLoop kind m (rs.map Row.g) (rs.map Row.s) = .ok (rs.map (newG kind m))) ∧
    ((¬ ∀ r ∈ rs, setGaussFromSums kind m r.g r.s = .ok (newG kind m r)) →
      setFromSumsLoop kind m (rs.map Row.g) (rs.map Row.s) = .error .zeroDiv) := by
  intro rs
  induction rs with
  | nil => exact ⟨fun _ => rfl, fun h => absurd (by simp) h⟩
  | cons r rs ih =>
    simp only [List.map_cons, setFromSumsLoop, List.forall_mem_cons]
    constructor
    · rintro ⟨h1, h2⟩
      rw [h1, ih.1 h2]; rfl
    · intro h
      rcases setGauss_cases kind m r with h1 | h1
      · rw [h1, ih.2 fun h2 => h ⟨h1, h2⟩]; rfl
      · rw [h1]; rfl

/-- A gaussian convolved with a gaussian of the psf. -/
def convG (c : ℝ × ℝ × ℝ) (o q : Gauss) : Gauss :=
  gauss2dSet (o.p * q.p * (1 / c.2.2)) (o.row + (q.row - c.1)) (o.col + (q.col - c.2.1))
    (o.irr + q.irr) (o.irc + q.irc) (o.icc + q.icc)

theorem convolve_eq (gm psf : List Gauss) :
    gmixConvolve gm psf = (gmixGetCen psf).map fun c => gm.flatMap fun o => psf.map (convG c o) := rfl

/-- A gaussian with its norms. -/
def normed (g : Gauss) : Gauss := (gauss2dSetNorm g).1

theorem norms_all : ∀ cv : List Gauss,
    ((∀ g ∈ cv, (gauss2dSetNorm g).2 = .ok ()) → gmixSetNorms cv = (cv.map normed, .ok ())) ∧
    ((¬ ∀ g ∈ cv, (gauss2dSetNorm g).2 = .ok ()) → ∃ l, gmixSetNorms cv = (l, .error .gmixRange)) := by
  intro cv
  induction cv with
  | nil => exact ⟨fun _ => rfl, fun h => absurd (by simp) h⟩
  | cons g cv ih =>
    simp only [List.forall_mem_cons, gmixSetNorms]
    constructor
    · rintro ⟨h1, h2⟩
      rcases hg : gauss2dSetNorm g with ⟨g', e | u⟩
      · rw [hg] at h1; cases h1
      · rw [ih.1 h2]
        simp [normed, hg]
    · intro h
      rcases hg : gauss2dSetNorm g with ⟨g', e | u⟩
      · refine ⟨g' :: cv, ?_⟩
        have : e = .gmixRange := by
          unfold gauss2dSetNorm at hg
          simp only at hg
          split_ifs at hg <;> simp only [Prod.mk.injEq, Except.error.injEq, reduceCtorEq, and_false] at hg
          · exact hg.2.symm
          · exact hg.2.symm
        rw [this]
      · obtain ⟨l, hl⟩ := ih.2 fun h2 => h ⟨by rw [hg], h2⟩
        exact ⟨g' :: l, by rw [hl]⟩

/-- Mixture and convolved mixture made of rows. -/
def Made (rs : List Row) (gm cv : List Gauss) : Prop := gm = rs.map Row.g ∧ cv = rs.flatMap Row.blk

theorem conv_rows (q q' : List Gauss) (hq : q.Perm q') (rs rs' : List Row) (h : SameRows rs rs') (f : Row → Gauss)
    (hf : ∀ r r', RowEq r r' → f r = f r') :
    SameOutcome (fun cv cv' => ∃ R R', SameRows R R' ∧ Made R (rs.map f) cv ∧ Made R' (rs'.map f) cv' ∧
        (∀ r ∈ R, r.blk.length = q.length) ∧ ∀ r ∈ R', r.blk.length = q'.length)
      (gmixConvolve (rs.map f) q) (gmixConvolve (rs'.map f) q') := by
  rw [convolve_eq, convolve_eq, ← cen_perm hq]
  rcases gmixGetCen q with e | c
  · exact rfl
  · refine ⟨rs.map fun r => ⟨f r, q.map (convG c (f r)), r.s⟩, rs'.map fun r => ⟨f r, q'.map (convG c (f r)), r.s⟩,
      rows_map h fun r r' hr => ⟨hf _ _ hr, ?_, hr.2.2⟩, ⟨?_, ?_⟩, ⟨?_, ?_⟩, ?_, ?_⟩
    · simp only
      rw [hf _ _ hr]
      exact hq.map _
    · rw [List.map_map]; rfl
    · simp only [List.flatMap_map]
    · rw [List.map_map]; rfl
    · simp only [List.flatMap_map]
    · intro r hr; obtain ⟨x, hx, rfl⟩ := List.mem_map.1 hr; simp
    · intro r hr; obtain ⟨x, hx, rfl⟩ := List.mem_map.1 hr; simp

theorem norms_rows {R R' : List Row} (h : SameRows R R') :
    ((∃ l, gmixSetNorms (R.flatMap Row.blk) = (l, .error .gmixRange)) ∧
      ∃ l, gmixSetNorms (R'.flatMap Row.blk) = (l, .error .gmixRange)) ∨
    ∃ S S', SameRows S S' ∧ gmixSetNorms (R.flatMap Row.blk) = (S.flatMap Row.blk, .ok ()) ∧
      gmixSetNorms (R'.flatMap Row.blk) = (S'.flatMap Row.blk, .ok ()) ∧ S.map Row.g = R.map Row.g ∧
      S'.map Row.g = R'.map Row.g ∧ (∀ n, (∀ r ∈ R, r.blk.length = n) → ∀ r ∈ S, r.blk.length = n) ∧
      ∀ n, (∀ r ∈ R', r.blk.length = n) → ∀ r ∈ S', r.blk.length = n := by
  have hp := rows_blk h
  by_cases ha : ∀ g ∈ R.flatMap Row.blk, (gauss2dSetNorm g).2 = .ok ()
  · right
    have ha' : ∀ g ∈ R'.flatMap Row.blk, (gauss2dSetNorm g).2 = .ok () := fun g hg => ha g (hp.mem_iff.2 hg)
    have hm : ∀ l : List Row, (l.flatMap Row.blk).map normed =
        (l.map fun r => (⟨r.g, r.blk.map normed, r.s⟩ : Row)).flatMap Row.blk := by
      intro l; rw [List.map_flatMap, List.flatMap_map]
    refine ⟨R.map fun r => ⟨r.g, r.blk.map normed, r.s⟩, R'.map fun r => ⟨r.g, r.blk.map normed, r.s⟩,
      rows_map h fun r r' hr => ⟨hr.1, hr.2.1.map _, hr.2.2⟩, ?_, ?_, ?_, ?_, ?_, ?_⟩
    · rw [(norms_all _).1 ha, hm]
    · rw [(norms_all _).1 ha', hm]
    · rw [List.map_map]; rfl
    · rw [List.map_map]; rfl
    · intro n hn r hr; obtain ⟨x, hx, rfl⟩ := List.mem_map.1 hr; simpa using hn x hx
    · intro n hn r hr; obtain ⟨x, hx, rfl⟩ := List.mem_map.1 hr; simpa using hn x hx
  · left
    exact ⟨(norms_all _).2 ha, (norms_all _).2 fun h' => ha fun g hg => h' g (hp.mem_iff.1 hg)⟩

/-- Mixtures and convolved mixtures with corresponding gaussians. -/
def MixRel (n : ℕ) (a a' : List Gauss × List Gauss) : Prop := ∃ R R', SameRows R R' ∧ Made R a.1 a.2 ∧ Made R' a'.1 a'.2 ∧
  (∀ r ∈ R, r.blk.length = n) ∧ ∀ r ∈ R', r.blk.length = n

theorem setFromSums_rows (kind : EMKind) {q q' : List Gauss} (hq : q.Perm q') {rs rs' : List Row} (h : SameRows rs rs') :
    SameOutcome (fun a a' => MixRel q.length a a' ∧ a.1.length = rs.length ∧ a'.1.length = rs'.length)
      (setFromSums kind (rs.map Row.g) q (rs.map Row.s))
      (setFromSums kind (rs'.map Row.g) q' (rs'.map Row.s)) := by
  unfold setFromSums
  have hm : SameOutcome (fun m m' => m = m') (match kind with | .free => emGetMoms q | .fixcen => emGetMoms q | _ => .ok (0, 0, 0))
      (match kind with | .free => emGetMoms q' | .fixcen => emGetMoms q' | _ => .ok (0, 0, 0)) := by
    rw [emMoms_perm hq]
    generalize (match kind with | .free => emGetMoms q' | .fixcen => emGetMoms q' | _ => .ok (0, 0, 0)) = x
    rcases x with e | m <;> exact rfl
  refine so_bind hm fun m m' _ hmm => ?_
  subst hmm
  have hnew : ∀ r r', RowEq r r' → newG kind m r = newG kind m r' := by
    intro r r' hr
    unfold newG
    rw [hr.1, hr.2.2]
  by_cases ha : ∀ r ∈ rs, setGaussFromSums kind m r.g r.s = .ok (newG kind m r)
  · have ha' := (rows_all h (P := fun r => setGaussFromSums kind m r.g r.s = .ok (newG kind m r))
      fun r r' hr => by rw [hnew r r' hr, hr.1, hr.2.2]).1 ha
    rw [(setLoop_rows kind m rs).1 ha, (setLoop_rows kind m rs').1 ha']
    simp only [Except.bind]
    have := conv_rows q q' hq rs rs' h (newG kind m) hnew
    rcases e : gmixConvolve (rs.map (newG kind m)) q with er | cv <;>
      rcases e' : gmixConvolve (rs'.map (newG kind m)) q' with er' | cv' <;> rw [e, e'] at this
    · exact this
    · exact this.elim
    · exact this.elim
    · obtain ⟨R, R', h1, ⟨h2, rfl⟩, ⟨h3, rfl⟩, h4, h5⟩ := this
      simp only
      rcases norms_rows h1 with ⟨⟨l, e1⟩, l', e2⟩ | ⟨S, S', g1, g2, g3, g4, g5, g6, g7⟩
      · rw [e1, e2]; exact rfl
      · rw [g2, g3]
        exact ⟨⟨S, S', g1, ⟨by rw [g4, ← h2], rfl⟩, ⟨by rw [g5, ← h3], rfl⟩, g6 _ h4,
          g7 _ fun r hr => by rw [h5 r hr, hq.length_eq]⟩, by simp, by simp⟩
  · have ha' : ¬ ∀ r ∈ rs', setGaussFromSums kind m r.g r.s = .ok (newG kind m r) := fun h' => ha
      ((rows_all h (P := fun r => setGaussFromSums kind m r.g r.s = .ok (newG kind m r))
      fun r r' hr => by rw [hnew r r' hr, hr.1, hr.2.2]).2 h')
    rw [(setLoop_rows kind m rs).2 ha, (setLoop_rows kind m rs').2 ha']
    exact rfl

/-! ### The loop -/

/-- The states of the two runs. -/
def StateOrd (n : ℕ) (st st' : EMState) : Prop :=
  MixRel n (st.gmix, st.conv) (st'.gmix, st'.conv) ∧ st.sums.length = st.gmix.length ∧ st'.sums.length = st'.gmix.length ∧
  st.pixels = st'.pixels ∧ st.sky = st'.sky ∧ st.last = st'.last ∧ st.frac = st'.frac

theorem made_perm {n : ℕ} {a a' : List Gauss × List Gauss} (h : MixRel n a a') : a.1.Perm a'.1 ∧ a.2.Perm a'.2 := by
  obtain ⟨R, R', h1, ⟨h2, h3⟩, ⟨h4, h5⟩, -⟩ := h
  rw [h2, h3, h4, h5]
  exact ⟨rows_perm h1 fun _ _ h => h.1, rows_blk h1⟩

theorem fill_perm {cv cv' : List Gauss} (h : cv.Perm cv') (sky : ℝ) (pxs : List Pixel) :
    fillZeroWeight cv sky pxs = fillZeroWeight cv' sky pxs := by
  unfold fillZeroWeight
  simp only [evalFast_perm h]

theorem emCore_ord (kind : EMKind) (vary fill : Bool) {q q' : List Gauss} (hq : q.Perm q') {st st' : EMState}
    (h : StateOrd q.length st st') :
    SameOutcome (fun c c' => StateOrd q.length c.1 c'.1 ∧ c.2 = c'.2) (emCore kind vary q fill st) (emCore kind vary q' fill st') := by
  obtain ⟨h1, h2, h3, h4, h5, h6, h7⟩ := h
  have hp := made_perm h1
  obtain ⟨R, R', r1, ⟨r2, r3⟩, ⟨r4, r5⟩, r6, r7⟩ := h1
  simp only at r2 r3 r4 r5
  unfold emCore
  dsimp only
  rw [fill_perm hp.2, h4, h5, ← hq.length_eq, zip_logs, zip_logs]
  generalize (if fill then fillZeroWeight st'.conv st'.sky st'.pixels else st'.pixels) = pxs
  have hc : ∀ (l : List EMSums) (rs : List Row), l.length = (rs.map Row.g).length →
      clearSums l = (rs.map fun r => (⟨r.g, r.blk, EMSums.zero⟩ : Row)).map Row.s := by
    intro l rs hl
    unfold clearSums
    rw [List.map_map]
    refine List.ext_getElem (by simpa using hl) fun i _ _ => ?_
    simp [EMSums.zero]
  have hb : ∀ rs : List Row, rs.flatMap Row.blk = (rs.map fun r => (⟨r.g, r.blk, EMSums.zero⟩ : Row)).flatMap Row.blk := by
    intro rs; rw [List.flatMap_map]
  have hg : ∀ rs : List Row, (rs.map fun r => (⟨r.g, r.blk, EMSums.zero⟩ : Row)).map Row.g = rs.map Row.g := by
    intro rs; rw [List.map_map]; rfl
  rw [hc st.sums R (by rw [← r2]; exact h2), hc st'.sums R' (by rw [← r4]; exact h3), r3, r5, hb R, hb R']
  have hpl := pixel_rows q.length st'.sky pxs (R.map fun r => (⟨r.g, r.blk, EMSums.zero⟩ : Row))
    (R'.map fun r => (⟨r.g, r.blk, EMSums.zero⟩ : Row)) (.fin 0) 0 (rows_map r1 fun r r' hr => ⟨hr.1, hr.2.1, rfl⟩)
    (by intro r hr; obtain ⟨x, hx, rfl⟩ := List.mem_map.1 hr; exact r6 x hx)
    (by intro r hr; obtain ⟨x, hx, rfl⟩ := List.mem_map.1 hr; exact r7 x hx)
  refine so_bind hpl fun a a' _ ha => ?_
  obtain ⟨S, S', s1, s2, s3, s4, s5, s6⟩ := ha
  rw [hg] at s5 s6
  have hss := setFromSums_rows kind hq s1
  rw [s5, s6, ← r2, ← r4, ← s2, ← s3] at hss
  refine so_bind hss fun gm gm' _ hgm => ?_
  rw [s4]
  have hsky : SameOutcome (fun s s' => s = s') (emNewSky vary pxs.length a'.2.2 st'.sky) (emNewSky vary pxs.length a'.2.2 st'.sky) := by
    rcases emNewSky vary pxs.length a'.2.2 st'.sky with e | s <;> exact rfl
  obtain ⟨hgm, hl, hl'⟩ := hgm
  have hgp := made_perm hgm
  refine so_map hsky fun s s' hs => ⟨⟨hgm, ?_, ?_, rfl, hs, h6, h7⟩, ?_⟩
  · simp only
    rw [hl, s2, List.length_map]
  · simp only
    rw [hl', s3, List.length_map]
  · cases kind <;> (simp only [emCur]); all_goals first | rfl | rw [psum_perm hgp.1]

theorem emTest_ord (n : ℕ) (kind : EMKind) (conf : EMConf) (k : ℤ) {st st' : EMState} (h : StateOrd n st st') (c : Fl) :
    SameOutcome (fun r r' : EMState × Bool => StateOrd n r.1 r'.1 ∧ r.2 = r'.2) (emTest kind conf k st c)
      (emTest kind conf k st' c) := by
  obtain ⟨h1, h2, h3, h4, h5, h6, h7⟩ := h
  unfold emTest
  rw [h6]
  by_cases hn : k ≥ conf.miniter
  · rw [if_pos hn, if_pos hn]
    rcases emFrac kind c st'.last with e | f
    · exact rfl
    · simp only [Except.map]
      by_cases hlt : Fl.lt f (.fin conf.tol)
      · rw [if_pos hlt, if_pos hlt]; exact ⟨⟨h1, h2, h3, h4, h5, rfl, rfl⟩, rfl⟩
      · rw [if_neg hlt, if_neg hlt]; exact ⟨⟨h1, h2, h3, h4, h5, rfl, rfl⟩, rfl⟩
  · rw [if_neg hn, if_neg hn]
    exact ⟨⟨h1, h2, h3, h4, h5, rfl, h7⟩, rfl⟩

theorem emLoop_ord (kind : EMKind) (conf : EMConf) (fill : Bool) {q q' : List Gauss} (hq : q.Perm q') :
    ∀ (n i : ℕ) {st st' : EMState}, StateOrd q.length st st' →
    SameOutcome (fun r r' : EMState × ℕ => StateOrd q.length r.1 r'.1 ∧ r.2 = r'.2)
      (emLoop kind conf q fill n i st) (emLoop kind conf q' fill n i st') := by
  intro n
  induction n with
  | zero => intro i st st' h; exact ⟨h, rfl⟩
  | succ n ih =>
    intro i st st' h
    simp only [emLoop, emIter_core]
    have hit : SameOutcome (fun r r' : EMState × Bool => StateOrd q.length r.1 r'.1 ∧ r.2 = r'.2)
        ((emCore kind conf.varySky q fill st).bind fun c => emTest kind conf ((i : ℤ) + 1) c.1 c.2)
        ((emCore kind conf.varySky q' fill st').bind fun c => emTest kind conf ((i : ℤ) + 1) c.1 c.2) := by
      refine so_bind (emCore_ord kind conf.varySky fill hq h) fun c c' _ hcc => ?_
      rw [hcc.2]
      exact emTest_ord _ kind conf _ hcc.1 _
    refine so_bind hit fun r r' _ hr => ?_
    rw [hr.2]
    cases r'.2
    · simp only [Bool.false_eq_true, if_false]
      exact ih (i + 1) hr.1
    · simp only [if_true]
      exact ⟨hr.1, rfl⟩

/-- The runner on the gaussians of guess and psf in another order. -/
theorem emRun_ord (kind : EMKind) (conf : EMConf) (pixels : List Pixel) (fill : Bool) {gm gm' q q' cv cv' : List Gauss}
    (hg : gm.Perm gm') (hq : q.Perm q') (hc : gmixConvolve gm q = .ok cv) (hc' : gmixConvolve gm' q' = .ok cv') :
    SameOutcome (fun r r' : EMRun => r.numiter = r'.numiter ∧ r.frac = r'.frac ∧ r.sky = r'.sky ∧ r.gmix.Perm r'.gmix ∧
        r.conv.Perm r'.conv ∧ r.pixels = r'.pixels)
      (emRun kind conf pixels gm q cv fill) (emRun kind conf pixels gm' q' cv' fill) := by
  have hrows : SameRows (gm.map fun g => ⟨g, [], EMSums.zero⟩) (gm'.map fun g => ⟨g, [], EMSums.zero⟩) := by
    refine ⟨_, ?_, hg.map _⟩
    rw [List.forall₂_map_left_iff, List.forall₂_map_right_iff]
    exact List.forall₂_same.2 fun g _ => ⟨rfl, List.Perm.refl _, rfl⟩
  have hid : ∀ l : List Gauss, (l.map fun g => (⟨g, [], EMSums.zero⟩ : Row)).map Row.g = l := by
    intro l
    rw [List.map_map]
    exact (List.map_congr_left fun g _ => rfl).trans (List.map_id _)
  have hcv := conv_rows q q' hq _ _ hrows Row.g fun r r' hr => hr.1
  rw [hid, hid, hc, hc'] at hcv
  obtain ⟨R, R', h1, ⟨h2, rfl⟩, ⟨h3, rfl⟩, h4, h5⟩ := hcv
  rcases norms_rows h1 with ⟨⟨l, e1⟩, l', e2⟩ | ⟨S, S', g1, g2, g3, g4, g5, g6, g7⟩
  · unfold emRun
    rw [e1, e2]
    exact rfl
  · by_cases hm : conf.maxiter ≤ 0
    · unfold emRun
      rw [g2, g3]
      simp only
      rw [if_pos hm, if_pos hm]
      exact rfl
    · rw [emRun_start kind conf pixels gm q _ _ fill g2 hm, emRun_start kind conf pixels gm' q' _ _ fill g3 hm]
      have hst : StateOrd q.length (startState kind pixels gm (S.flatMap Row.blk) conf.sky)
          (startState kind pixels gm' (S'.flatMap Row.blk) conf.sky) := by
        refine ⟨⟨S, S', g1, ⟨by rw [g4, ← h2]; rfl, rfl⟩, ⟨by rw [g5, ← h3]; rfl, rfl⟩, g6 _ h4,
          g7 _ fun r hr => by rw [h5 r hr, hq.length_eq]⟩, by simp [startState], by simp [startState], rfl, rfl, ?_, rfl⟩
        cases kind <;> simp only [startState] <;> first | rfl | rw [psum_perm hg]
      refine so_map (emLoop_ord kind conf fill hq _ 0 hst) fun r r' hr => ?_
      obtain ⟨⟨k1, k2, k3, k4, k5, k6, k7⟩, hn⟩ := hr
      have := made_perm k1
      exact ⟨hn, k7, k5, this.1.map _, this.2, k4⟩

end

end Ngmix.Proof.GaussOrder
