import Verif.Spec.KObs
import Verif.Proof.ExceptLemmas

/-!
# C79: k space observations
-/

namespace Ngmix.Props

open Ngmix Ngmix.Spec

noncomputable section

theorem kCen_eq (d : ℕ) : kCen d = ((d / 2 : ℕ) : ℝ) := by
  unfold kCen
  rcases Nat.even_or_odd' d with ⟨m, rfl | rfl⟩
  · rw [if_pos (by omega), Nat.mul_div_cancel_left m (by omega)]; push_cast; norm_num; ring
  · rw [if_neg (by omega), show (2 * m + 1) / 2 = m by omega]; push_cast; norm_num

theorem kJac_ok (g : Grid) : ∃ j, kSetJacobian g = .ok j ∧ j.row0 = ((g.nrow / 2 : ℕ) : ℝ) ∧
    j.col0 = ((g.ncol / 2 : ℕ) : ℝ) ∧ j.dvdrow = g.scale ∧ j.dudcol = g.scale ∧ j.dvdcol = 0 ∧ j.dudrow = 0 := by
  rw [← kCen_eq, ← kCen_eq]
  exact ⟨_, rfl, rfl, rfl, rfl, rfl, rfl, rfl⟩

theorem kWt_ok {k : KImg} {a : KWtArg} {w : WImg} (h : kSetWeight k a = .ok w) :
    (w.nrow = k.grid.nrow ∧ w.ncol = k.grid.ncol) ∧
    (a = .none ∧ w.data = List.replicate k.grid.size 1 ∨ a = .image w) := by
  cases a with
  | none =>
    simp only [kSetWeight, Except.ok.injEq] at h
    subst h
    exact ⟨⟨rfl, rfl⟩, .inl ⟨rfl, by norm_num⟩⟩
  | other => simp [kSetWeight] at h
  | image v =>
    unfold kSetWeight at h
    by_cases hc : (v.nrow, v.ncol) ≠ (k.grid.nrow, k.grid.ncol)
    · simp only [if_pos hc] at h; cases h
    · simp only [if_neg hc] at h
      cases h
      exact ⟨by simpa using hc, .inr rfl⟩

theorem kPsf_cases (k : KImg) (old : Option KPsf) (a : KPsfArg) :
    (kSetPsf k old a).1 = (match a with | .kobs p => some p | _ => none) ∧
    ((kSetPsf k old a).2 = .ok () ↔ (a = .none ∨ ∃ p, a = .kobs p ∧ p.kimage.grid.nrow = k.grid.nrow ∧
      p.kimage.grid.ncol = k.grid.ncol ∧
      |p.kimage.grid.scale - k.grid.scale| ≤ 1e-8 + 1e-5 * |k.grid.scale|)) := by
  cases a with
  | none => cases old <;> simp [kSetPsf]
  | other => cases old <;> simp [kSetPsf]
  | kobs p =>
    unfold kSetPsf npAllclose
    by_cases hc : (p.kimage.grid.nrow, p.kimage.grid.ncol) ≠ (k.grid.nrow, k.grid.ncol)
    · simp only [if_pos hc]
      refine ⟨trivial, by simp, ?_⟩
      rintro (h | ⟨q, h, h1, h2, -⟩)
      · cases h
      · cases h; exact absurd (by rw [h1, h2]) hc
    · simp only [if_neg hc]
      have hc' := not_not.mp hc
      simp only [Prod.mk.injEq] at hc'
      by_cases hs : |p.kimage.grid.scale - k.grid.scale| ≤ 1e-8 + 1e-5 * |k.grid.scale|
      · simp only [if_pos hs]
        exact ⟨trivial, fun _ => .inr ⟨p, rfl, hc'.1, hc'.2, hs⟩, fun _ => trivial⟩
      · simp only [if_neg hs]
        refine ⟨trivial, by simp, ?_⟩
        rintro (h | ⟨q, h, -, -, h3⟩)
        · cases h
        · cases h; exact absurd h3 hs

/-- C79: a k space observation can be made exactly of acceptable arguments. -/
theorem C79_construct (fresh : ℕ) (kimage : KImgArg) (weight : KWtArg) (psf : KPsfArg) (m : KMetaArg) :
    (∃ o, newKObs fresh kimage weight psf m = .ok o) ↔ KAcceptable kimage weight psf m := by
  constructor
  · rintro ⟨o, h⟩
    cases kimage with
    | other => simp [newKObs, kSetImage, Except.bind] at h
    | real => simp [newKObs, kSetImage, Except.bind] at h
    | complex k =>
      simp only [newKObs, kSetImage, Except.bind] at h
      rcases hw : kSetWeight k weight with e | w
      · rw [hw] at h; cases h
      rw [hw] at h
      obtain ⟨hp1, hp2⟩ := kPsf_cases k none psf
      rcases hp : kSetPsf k none psf with ⟨p, e | u⟩
      · rw [hp] at h; cases h
      rw [hp] at h hp2
      obtain ⟨hw1, hw2⟩ := kWt_ok hw
      refine ⟨k, rfl, ?_, hp2.mp rfl, ?_⟩
      · rcases hw2 with ⟨hw2, -⟩ | hw2
        · exact .inl hw2
        · exact .inr ⟨w, hw2, hw1⟩
      · rintro rfl
        obtain ⟨j, hj, -⟩ := kJac_ok k.grid
        simp [hj, kSetMeta, Except.map] at h
  · rintro ⟨k, rfl, hw, hp, hm⟩
    obtain ⟨hp1, hp2⟩ := kPsf_cases k none psf
    obtain ⟨j, hj, -⟩ := kJac_ok k.grid
    have hw' : ∃ w, kSetWeight k weight = .ok w := by
      rcases hw with rfl | ⟨w, rfl, h1, h2⟩
      · exact ⟨_, rfl⟩
      · exact ⟨w, by rw [kSetWeight, if_neg (by rw [h1, h2]; simp)]⟩
    obtain ⟨w, hw'⟩ := hw'
    have hp' := hp2.mpr hp
    have hm' : ∃ a, kSetMeta fresh m = .ok a := by
      cases m with
      | none => exact ⟨_, rfl⟩
      | other => exact absurd rfl hm
      | dict a => exact ⟨_, rfl⟩
    obtain ⟨a, hm'⟩ := hm'
    refine ⟨⟨k, w, (kSetPsf k none psf).1, j, a⟩, ?_⟩
    simp only [newKObs, kSetImage, Except.bind, hw']
    rcases hpp : kSetPsf k none psf with ⟨p, e | u⟩
    · rw [hpp] at hp'; cases hp'
    · simp [hj, hm', Except.map]

theorem newKObs_ok {fresh : ℕ} {kimage : KImgArg} {weight : KWtArg} {psf : KPsfArg} {m : KMetaArg} {o : KObs}
    (h : newKObs fresh kimage weight psf m = .ok o) :
    kimage = .complex o.kimage ∧ kSetWeight o.kimage weight = .ok o.weight ∧
    kSetPsf o.kimage none psf = (o.psf, .ok ()) ∧ kSetJacobian o.kimage.grid = .ok o.jacobian ∧
    kSetMeta fresh m = .ok o.meta_ := by
  cases kimage with
  | other => simp [newKObs, kSetImage, Except.bind] at h
  | real => simp [newKObs, kSetImage, Except.bind] at h
  | complex k =>
    simp only [newKObs, kSetImage, Except.bind] at h
    rcases hw : kSetWeight k weight with e | w
    · rw [hw] at h; cases h
    rcases hp : kSetPsf k none psf with ⟨p, e | u⟩
    · rw [hw, hp] at h; cases h
    rcases hj : kSetJacobian k.grid with e | j
    · rw [hw, hp, hj] at h; cases h
    rcases hm : kSetMeta fresh m with e | a
    · rw [hw, hp, hj, hm] at h; cases h
    rw [hw, hp, hj, hm] at h
    simp only [Except.map, Except.ok.injEq] at h
    subst h
    exact ⟨rfl, hw, hp, hj, rfl⟩

theorem centered_of {o : KObs} (h : kSetJacobian o.kimage.grid = .ok o.jacobian) : KCentered o := by
  obtain ⟨j, hj, h1, h2, h3, h4, h5, h6⟩ := kJac_ok o.kimage.grid
  rw [h] at hj
  cases hj
  refine ⟨?_, fun r c => ?_⟩
  · simp [Jacobian.getVU, h1, h2]
  · simp [Jacobian.getVU, h1, h2, h3, h4, h5, h6]

/-- C79: what the observation holds: the image, the weight or ones, the psf, the metadata dictionary itself; all
consistent, and the jacobian has the wave number zero at the center of the image. -/
theorem C79_contents (fresh : ℕ) (kimage : KImgArg) (weight : KWtArg) (psf : KPsfArg) (m : KMetaArg) (o : KObs)
    (h : newKObs fresh kimage weight psf m = .ok o) :
    kimage = .complex o.kimage ∧
    (weight = .none ∧ o.weight.data = List.replicate o.kimage.grid.size 1 ∨ weight = .image o.weight) ∧
    (psf = .none ∧ o.psf = none ∨ ∃ p, psf = .kobs p ∧ o.psf = some p) ∧
    (∀ a, m = .dict a → o.meta_ = a) ∧ (m = .none → o.meta_ = fresh) ∧
    KConsistent o ∧ KCentered o := by
  obtain ⟨h1, h2, h3, h4, h5⟩ := newKObs_ok h
  obtain ⟨w1, w2⟩ := kWt_ok h2
  obtain ⟨p1, p2⟩ := kPsf_cases o.kimage none psf
  rw [h3] at p1 p2
  have p3 := p2.mp rfl
  refine ⟨h1, w2, ?_, ?_, ?_, ⟨w1, ?_⟩, centered_of h4⟩
  · rcases p3 with rfl | ⟨p, rfl, -⟩
    · exact .inl ⟨rfl, p1⟩
    · exact .inr ⟨p, rfl, p1⟩
  · rintro a rfl
    simpa [kSetMeta] using h5.symm
  · rintro rfl
    simpa [kSetMeta] using h5.symm
  · intro p hp
    rcases p3 with rfl | ⟨q, rfl, hq⟩
    · rw [hp] at p1; cases p1
    · rw [hp] at p1; cases p1; exact hq

/-- C79: which exception is raised: the image is looked at first, then the weight, the psf and the metadata. -/
theorem C79_refused (fresh : ℕ) (kimage : KImgArg) (weight : KWtArg) (psf : KPsfArg) (m : KMetaArg) (e : PyErr)
    (h : newKObs fresh kimage weight psf m = .error e) :
    ((∀ k, kimage ≠ .complex k) ∧ e = .value) ∨
    (∃ k, kimage = .complex k ∧
      ((weight = .other ∧ e = .assertion) ∨
       (∃ w, weight = .image w ∧ ¬(w.nrow = k.grid.nrow ∧ w.ncol = k.grid.ncol) ∧ e = .value) ∨
       (psf = .other ∧ e = .assertion) ∨
       (∃ p, psf = .kobs p ∧ ¬(p.kimage.grid.nrow = k.grid.nrow ∧ p.kimage.grid.ncol = k.grid.ncol) ∧ e = .value) ∨
       (∃ p, psf = .kobs p ∧
          ¬ |p.kimage.grid.scale - k.grid.scale| ≤ 1e-8 + 1e-5 * |k.grid.scale| ∧ e = .assertion) ∨
       (m = .other ∧ e = .type))) := by
  cases kimage with
  | other => left; simp [newKObs, kSetImage, Except.bind] at h; exact ⟨by simp, h.symm⟩
  | real => left; simp [newKObs, kSetImage, Except.bind] at h; exact ⟨by simp, h.symm⟩
  | complex k =>
    right
    refine ⟨k, rfl, ?_⟩
    simp only [newKObs, kSetImage, Except.bind] at h
    rcases hw : kSetWeight k weight with e' | w
    · rw [hw] at h
      simp only [Except.error.injEq] at h
      subst h
      cases weight with
      | none => simp [kSetWeight] at hw
      | other => left; simp [kSetWeight] at hw; exact ⟨rfl, hw.symm⟩
      | image w =>
        right; left
        unfold kSetWeight at hw
        by_cases hc : (w.nrow, w.ncol) ≠ (k.grid.nrow, k.grid.ncol)
        · simp only [if_pos hc, Except.error.injEq] at hw
          exact ⟨w, rfl, by simpa using hc, hw.symm⟩
        · simp only [if_neg hc] at hw; cases hw
    rw [hw] at h
    rcases hp : kSetPsf k none psf with ⟨p, e' | u⟩
    · rw [hp] at h
      simp only [Except.error.injEq] at h
      subst h
      cases psf with
      | none => simp [kSetPsf] at hp
      | other => simp [kSetPsf] at hp; exact .inr (.inr (.inl ⟨rfl, hp.2.symm⟩))
      | kobs q =>
        unfold kSetPsf npAllclose at hp
        by_cases hc : (q.kimage.grid.nrow, q.kimage.grid.ncol) ≠ (k.grid.nrow, k.grid.ncol)
        · simp only [if_pos hc, Prod.mk.injEq, Except.error.injEq] at hp
          exact .inr (.inr (.inr (.inl ⟨q, rfl, by simpa using hc, hp.2.symm⟩)))
        · simp only [if_neg hc] at hp
          by_cases hs : |q.kimage.grid.scale - k.grid.scale| ≤ 1e-8 + 1e-5 * |k.grid.scale|
          · simp only [if_pos hs, Prod.mk.injEq] at hp; cases hp.2
          · simp only [if_neg hs, Prod.mk.injEq, Except.error.injEq] at hp
            exact .inr (.inr (.inr (.inr (.inl ⟨q, rfl, hs, hp.2.symm⟩))))
    rw [hp] at h
    obtain ⟨j, hj, -⟩ := kJac_ok k.grid
    rw [hj] at h
    cases m with
    | none => simp [kSetMeta, Except.map] at h
    | other =>
      simp only [kSetMeta, Except.map, Except.error.injEq] at h
      exact .inr (.inr (.inr (.inr (.inr ⟨rfl, h.symm⟩))))
    | dict a => simp [kSetMeta, Except.map] at h

/-- C79: `set_psf` accepts `None` and psfs with the pixels of the image.  It leaves in the object the psf it was
given, whether it accepts it or not (and none if that was not a k space observation): the earlier psf is always
lost, and nothing else changes. -/
theorem C79_set_psf (o : KObs) (a : KPsfArg) :
    ((o.setPsf a).2 = .ok () ↔ (a = .none ∨ ∃ p, a = .kobs p ∧ p.kimage.grid.nrow = o.kimage.grid.nrow ∧
      p.kimage.grid.ncol = o.kimage.grid.ncol ∧
      |p.kimage.grid.scale - o.kimage.grid.scale| ≤ 1e-8 + 1e-5 * |o.kimage.grid.scale|)) ∧
    ((∀ p, (o.setPsf a).1.psf = some p ↔ a = .kobs p)) ∧
    (o.setPsf a).1.kimage = o.kimage ∧ (o.setPsf a).1.weight = o.weight ∧ (o.setPsf a).1.meta_ = o.meta_ ∧
    (o.setPsf a).1.jacobian = o.jacobian := by
  obtain ⟨h1, h2⟩ := kPsf_cases o.kimage o.psf a
  refine ⟨h2, fun p => ?_, rfl, rfl, rfl, rfl⟩
  change (kSetPsf o.kimage o.psf a).1 = some p ↔ _
  rw [h1]
  cases a <;> simp

/-- The object after calls of `set_psf`, and the outcome of the last. -/
def kPsfCalls (o : KObs) (l : List KPsfArg) : KObs := l.foldl (fun o a => (o.setPsf a).1) o

/-- C79: after any calls of `set_psf` the object is consistent if the last one was accepted. -/
theorem C79_set_psf_history (o : KObs) (h : KConsistent o) (l : List KPsfArg) (a : KPsfArg)
    (ha : ((kPsfCalls o l).setPsf a).2 = .ok ()) : KConsistent ((kPsfCalls o l).setPsf a).1 := by
  have hk : ∀ (l : List KPsfArg) (o : KObs), (kPsfCalls o l).kimage = o.kimage ∧ (kPsfCalls o l).weight = o.weight := by
    intro l
    induction l with
    | nil => exact fun _ => ⟨rfl, rfl⟩
    | cons a l ih => exact fun o => ih (o.setPsf a).1
  obtain ⟨h1, h2, h3, h4, -⟩ := C79_set_psf (kPsfCalls o l) a
  obtain ⟨k1, k2⟩ := hk l o
  refine ⟨by rw [h4, h3, k1, k2]; exact h.weight, fun p hp => ?_⟩
  rw [h3]
  rcases h1.mp ha with rfl | ⟨q, rfl, hq⟩
  · cases (h2 p).mp hp
  · cases (h2 p).mp hp; exact hq

/-- C79: a refused psf stays: an object that refused a psf of another shape holds it. -/
theorem C79_refused_psf_kept (o : KObs) (p : KPsf) (h : p.kimage.grid.nrow ≠ o.kimage.grid.nrow) :
    (o.setPsf (.kobs p)).2 = .error .value ∧ (o.setPsf (.kobs p)).1.psf = some p ∧
      ¬ KConsistent (o.setPsf (.kobs p)).1 := by
  have hc : (p.kimage.grid.nrow, p.kimage.grid.ncol) ≠ (o.kimage.grid.nrow, o.kimage.grid.ncol) := by
    intro hc; exact h (Prod.mk.inj hc).1
  have h1 : o.setPsf (.kobs p) = ({ o with psf := some p }, .error .value) := by
    unfold KObs.setPsf kSetPsf
    simp only [if_pos hc]
  rw [h1]
  exact ⟨rfl, rfl, fun hk => h (hk.psf p rfl).1⟩

/-! ### `make_kobs` -/

theorem iiBest_first : ∀ (es : List (ℕ × ℝ)) (pre : List (ℕ × ℝ)) (b : ℕ × ℝ) (mid : List (ℕ × ℝ)),
    (∀ y ∈ pre, y.1 < b.1) → (∀ y ∈ mid, y.1 ≤ b.1) → FirstMax (pre ++ b :: mid ++ es) (iiBest b es) := by
  intro es
  induction es with
  | nil => intro pre b mid h1 h2; exact ⟨pre, mid, by simp [iiBest], h1, h2⟩
  | cons e es ih =>
    intro pre b mid h1 h2
    unfold iiBest
    by_cases hb : b.1 < e.1
    · rw [if_pos hb]
      have := ih (pre ++ b :: mid) e [] (by
        intro y hy
        rcases List.mem_append.mp hy with hy | hy
        · exact lt_trans (h1 y hy) hb
        · rcases List.mem_cons.mp hy with rfl | hy
          · exact hb
          · exact lt_of_le_of_lt (h2 y hy) hb) (by simp)
      simpa using this
    · rw [if_neg hb]
      have := ih pre b (mid ++ [e]) h1 (by
        intro y hy
        rcases List.mem_append.mp hy with hy | hy
        · exact h2 y hy
        · simp only [List.mem_singleton] at hy; subst hy; omega)
      simpa using this

theorem npMax_ok {w : List ℝ} {m : ℝ} (h : npMax w = .ok m) : IsGreatest {x | x ∈ w} m := by
  cases w with
  | nil => cases h
  | cons x xs =>
    simp only [npMax, Except.ok.injEq] at h
    subst h
    suffices H : ∀ (xs : List ℝ) (x : ℝ), (xs.foldl max x = x ∨ xs.foldl max x ∈ xs) ∧ x ≤ xs.foldl max x ∧
        ∀ y ∈ xs, y ≤ xs.foldl max x by
      obtain ⟨h1, h2, h3⟩ := H xs x
      refine ⟨?_, ?_⟩
      · rcases h1 with h1 | h1
        · rw [h1]; simp
        · exact List.mem_cons_of_mem _ h1
      · intro y hy
        rcases List.mem_cons.mp hy with rfl | hy
        · exact h2
        · exact h3 y hy
    intro xs
    induction xs with
    | nil => intro x; exact ⟨.inl rfl, le_rfl, by simp⟩
    | cons a as ih =>
      intro x
      obtain ⟨h1, h2, h3⟩ := ih (max x a)
      simp only [List.foldl_cons]
      refine ⟨?_, le_trans (le_max_left _ _) h2, ?_⟩
      · rcases h1 with h1 | h1
        · rw [h1]
          rcases max_choice x a with h | h
          · left; exact h
          · right; rw [h]; simp
        · right; exact List.mem_cons_of_mem _ h1
      · intro y hy
        rcases List.mem_cons.mp hy with rfl | hy
        · exact le_trans (le_max_right _ _) h2
        · exact h3 y hy

theorem kWeight_half {dim : ℕ} (hd : 0 < dim) {w : List ℝ} {W : WImg} (h : kWeight dim w = .ok W) :
    HalfMax w dim W := by
  unfold kWeight at h
  rcases hm : npMax w with e | m
  · rw [hm] at h; cases h
  rw [hm] at h
  simp only [Except.map, Except.ok.injEq] at h
  subst h
  refine ⟨rfl, rfl, m, _, npMax_ok hm, rfl, ?_⟩
  have : ((dim * dim : ℕ) : ℝ) ≠ 0 := by
    have : 0 < dim * dim := Nat.mul_pos hd hd
    exact_mod_cast this.ne'
  rw [List.sum_replicate, nsmul_eq_mul]
  generalize ((dim * dim : ℕ) : ℝ) = d at *
  norm_num
  field_simp

theorem kWeight_shape {dim : ℕ} {w : List ℝ} {W : WImg} (h : kWeight dim w = .ok W) :
    W.nrow = dim ∧ W.ncol = dim := by
  unfold kWeight at h
  rcases hm : npMax w with e | m
  · rw [hm] at h; cases h
  rw [hm] at h
  simp only [Except.map, Except.ok.injEq] at h
  subst h
  exact ⟨rfl, rfl⟩

variable {L : KLib}

theorem normalizedPsf_unit (im : List ℝ) : UnitSum im (normalizedPsf im) := by
  unfold normalizedPsf
  split_ifs with h
  · exact h
  · refine ⟨?_, (im.sum)⁻¹, List.map_congr_left fun x _ => by rw [div_eq_inv_mul]⟩
    simp only [div_eq_mul_inv, List.sum_map_mul_right, List.map_id']
    exact mul_inv_cancel₀ h

/-- The entry was made from its observation. -/
def EntryOk (e : IIEntry L) : Prop :=
  L.interp (some e.obs.image) e.obs.wcs = .ok e.ii ∧ e.dk = L.stepk e.ii ∧
  (e.obs.psf = none → e.psfII = none ∧ e.dim = 1 + L.goodSize e.ii) ∧
  ∀ p, e.obs.psf = some p → ∃ q n, e.psfII = some q ∧ UnitSum p.image n ∧ L.interp n p.wcs = .ok q ∧
    e.dim = 1 + L.goodSize q

theorem entry_ok {o : RObs} {e : IIEntry L} (h : iiEntry L o = .ok e) : e.obs = o ∧ EntryOk e := by
  unfold iiEntry at h
  rcases hi : L.interp (some o.image) o.wcs with x | ii
  · rw [hi] at h; cases h
  rw [hi] at h
  simp only [Except.bind] at h
  rcases hp : o.psf with _ | p
  · simp only [hp, Except.ok.injEq] at h
    subst h
    exact ⟨rfl, hi, rfl, fun _ => ⟨rfl, rfl⟩, fun p h => by rw [hp] at h; cases h⟩
  · simp only [hp] at h
    rcases hq : L.interp (normalizedPsf p.image) p.wcs with x | q
    · rw [hq] at h; cases h
    rw [hq] at h
    simp only [Except.map, Except.ok.injEq] at h
    subst h
    refine ⟨rfl, hi, rfl, fun h => (by rw [hp] at h; cases h), ?_⟩
    intro p' hp'
    rw [hp] at hp'
    cases hp'
    exact ⟨q, _, rfl, normalizedPsf_unit _, hq, rfl⟩

theorem iiBand_ok : ∀ (os : List RObs) (es : List (IIEntry L)), iiBand L os = .ok es →
    es.map IIEntry.obs = os ∧ ∀ e ∈ es, EntryOk e := by
  intro os
  induction os with
  | nil => intro es h; simp only [iiBand, Except.ok.injEq] at h; subst h; simp
  | cons o os ih =>
    intro es h
    simp only [iiBand] at h
    rcases he : iiEntry L o with x | e
    · rw [he] at h; cases h
    rcases hr : iiBand L os with x | r
    · rw [he, hr] at h; cases h
    rw [he, hr] at h
    simp only [Except.bind, Except.map, Except.ok.injEq] at h
    subst h
    obtain ⟨h1, h2⟩ := entry_ok he
    obtain ⟨h3, h4⟩ := ih r hr
    refine ⟨by simp [h1, h3], ?_⟩
    intro e' he'
    rcases List.mem_cons.mp he' with rfl | he'
    · exact h2
    · exact h4 e' he'

theorem iiAll_ok : ∀ (obs : List (List RObs)) (es : List (List (IIEntry L))), iiAll L obs = .ok es →
    es.map (List.map IIEntry.obs) = obs ∧ ∀ e ∈ es.flatten, EntryOk e := by
  intro obs
  induction obs with
  | nil => intro es h; simp only [iiAll, Except.ok.injEq] at h; subst h; simp
  | cons o os ih =>
    intro es h
    simp only [iiAll] at h
    rcases he : iiBand L o with x | e
    · rw [he] at h; cases h
    rcases hr : iiAll L os with x | r
    · rw [he, hr] at h; cases h
    rw [he, hr] at h
    simp only [Except.bind, Except.map, Except.ok.injEq] at h
    subst h
    obtain ⟨h1, h2⟩ := iiBand_ok o e he
    obtain ⟨h3, h4⟩ := ih r hr
    refine ⟨by simp [h1, h3], ?_⟩
    intro e' he'
    simp only [List.flatten_cons, List.mem_append] at he'
    rcases he' with he' | he'
    · exact h2 e' he'
    · exact h4 e' he'

theorem kobsPsf_ok {dim : ℕ} (hd : 0 < dim) {dk : ℝ} {fresh : ℕ} {mem mem' : MetaMem L} {q : L.II} {p : RPsf}
    {k : KPsf} (h : kobsPsf L dim dk fresh mem q p = (mem', .ok k)) :
    (∃ d, L.drawK q dim dk = .ok d ∧ k.kimage = ⟨⟨dim, dim, dk⟩, List.ofFn d⟩) ∧ HalfMax p.weight dim k.weight ∧
    k.meta_ = fresh ∧ (∀ a, a ≠ fresh → ∀ key, mem' a key = mem a key) := by
  unfold kobsPsf at h
  rcases hq : L.drawK q dim dk with x | d
  · simp only [hq, Prod.mk.injEq] at h; cases h.2
  simp only [hq] at h
  rcases hw : kWeight dim p.weight with x | w
  · simp only [hw, Prod.mk.injEq] at h; cases h.2
  simp only [hw] at h
  rcases hk : newKObs fresh (.complex ⟨⟨dim, dim, dk⟩, List.ofFn d⟩) (.image w) .none (.dict fresh) with x | k'
  · simp only [hk, Prod.mk.injEq] at h; cases h.2
  simp only [hk, Prod.mk.injEq, Except.ok.injEq] at h
  obtain ⟨h1, h2⟩ := h
  subst h2
  obtain ⟨c1, c2, -, c4, -⟩ := C79_contents _ _ _ _ _ _ hk
  simp only [KImgArg.complex.injEq] at c1
  have hw2 : k'.weight = w := by
    rcases c2 with ⟨c2, -⟩ | c2
    · cases c2
    · simpa using c2.symm
  refine ⟨⟨d, rfl, c1.symm⟩, by rw [hw2]; exact kWeight_half hd hw, c4 _ rfl, ?_⟩
  intro a ha key
  rw [← h1]
  simp [metaSet, ha]

theorem kobsOne_ok {dim : ℕ} (hd : 0 < dim) {dk : ℝ} {fresh : ℕ} {mem mem' : MetaMem L} {e : IIEntry L}
    (he : EntryOk e) {k : KObs} (h : kobsOne L dim dk fresh mem e = (mem', .ok k)) :
    KOf L dim dk e.obs k ∧ (∀ q, k.psf = some q → q.meta_ = fresh) ∧
    (∀ a key, a ≠ fresh → mem' a key = if a = e.obs.meta_ ∧ key = "scale" then some (.scale e.obs.wcs.scale)
      else if a = e.obs.meta_ ∧ key = "realspace_gsimage" then some (.gsimage e.obs.image) else mem a key) := by
  obtain ⟨e1, e2, e3, e4⟩ := he
  unfold kobsOne at h
  rcases hq : L.drawK e.ii dim dk with x | d
  · simp only [hq, Prod.mk.injEq] at h; cases h.2
  simp only [hq] at h
  rcases hw : kWeight dim e.obs.weight with x | w
  · simp only [hw, Prod.mk.injEq] at h; cases h.2
  simp only [hw] at h
  rcases hp : e.obs.psf with _ | p
  · obtain ⟨e5, -⟩ := e3 hp
    simp only [e5, Prod.mk.injEq] at h
    obtain ⟨h1, h2⟩ := h
    obtain ⟨c1, c2, c3, c4, c5, c6, c7⟩ := C79_contents _ _ _ _ _ _ h2
    simp only [KImgArg.complex.injEq] at c1
    have hw2 : k.weight = w := by
      rcases c2 with ⟨c2, -⟩ | c2
      · cases c2
      · simpa using c2.symm
    have hps : k.psf = none := by
      rcases c3 with ⟨-, c3⟩ | ⟨q, c3, -⟩
      · exact c3
      · cases c3
    refine ⟨⟨⟨e.ii, d, e1, hq, c1.symm⟩, by rw [hw2]; exact kWeight_half hd hw, fun _ => hps, ?_, c7, c4 _ rfl⟩, ?_, ?_⟩
    · intro p' hp'; rw [hp] at hp'; cases hp'
    · intro q hq'; rw [hps] at hq'; cases hq'
    · intro a key ha
      rw [← h1]
      rfl
  · obtain ⟨q, n, e5, e5n, e6, e7⟩ := e4 p hp
    simp only [e5, hp] at h
    rcases hk : kobsPsf L dim dk fresh mem q p with ⟨mem1, x | kp⟩
    · simp only [hk, Prod.mk.injEq] at h; cases h.2
    simp only [hk, Prod.mk.injEq] at h
    obtain ⟨h1, h2⟩ := h
    obtain ⟨⟨dp, p1, p2⟩, p3, p4, p5⟩ := kobsPsf_ok hd hk
    obtain ⟨c1, c2, c3, c4, c5, c6, c7⟩ := C79_contents _ _ _ _ _ _ h2
    simp only [KImgArg.complex.injEq] at c1
    have hw2 : k.weight = w := by
      rcases c2 with ⟨c2, -⟩ | c2
      · cases c2
      · simpa using c2.symm
    have hps : k.psf = some kp := by
      rcases c3 with ⟨c3, -⟩ | ⟨q', c3, c3'⟩
      · cases c3
      · simp only [KPsfArg.kobs.injEq] at c3; rw [c3', c3]
    refine ⟨⟨⟨e.ii, d, e1, hq, c1.symm⟩, by rw [hw2]; exact kWeight_half hd hw, fun h => ?_, ?_, c7, c4 _ rfl⟩, ?_, ?_⟩
    · rw [hp] at h; cases h
    · intro p' hp'
      rw [hp] at hp'
      cases hp'
      exact ⟨kp, n, q, dp, hps, e5n, e6, p1, p2, p3⟩
    · intro q' hq'
      rw [hps] at hq'
      cases hq'
      exact p4
    · intro a key ha
      rw [← h1]
      simp only [metaSet, p5 a ha]

/-- What `make_kobs` writes into a metadata dictionary for an observation. -/
def MetaWrites (obs : List RObs) (mem mem' : MetaMem L) (fresh : ℕ) : Prop :=
  (∀ a key, a < fresh → key ≠ "scale" → key ≠ "realspace_gsimage" → mem' a key = mem a key) ∧
  (∀ a, a < fresh → (∀ o ∈ obs, o.meta_ ≠ a) → ∀ key, mem' a key = mem a key) ∧
  (∀ pre o post, obs = pre ++ o :: post → (∀ x ∈ post, x.meta_ ≠ o.meta_) → o.meta_ < fresh →
    mem' o.meta_ "scale" = some (.scale o.wcs.scale) ∧
    mem' o.meta_ "realspace_gsimage" = some (.gsimage o.image))

theorem writes_cons {o : RObs} {obs : List RObs} {m0 m1 m2 : MetaMem L} {f1 fresh : ℕ} (hf : fresh ≤ f1)
    (h1 : ∀ a key, a ≠ f1 → m1 a key = if a = o.meta_ ∧ key = "scale" then some (.scale o.wcs.scale)
      else if a = o.meta_ ∧ key = "realspace_gsimage" then some (.gsimage o.image) else m0 a key)
    (h2 : MetaWrites obs m1 m2 fresh) : MetaWrites (o :: obs) m0 m2 fresh := by
  obtain ⟨w1, w2, w3⟩ := h2
  refine ⟨fun a key ha k1 k2 => ?_, fun a ha hn key => ?_, ?_⟩
  · rw [w1 a key ha k1 k2, h1 a key (by omega), if_neg (by simp [k1]), if_neg (by simp [k2])]
  · have : a ≠ o.meta_ := fun h => hn o (by simp) h.symm
    rw [w2 a ha (fun x hx => hn x (by simp [hx])) key, h1 a key (by omega), if_neg (by simp [this]),
      if_neg (by simp [this])]
  · intro pre x post hx hpost hlt
    cases pre with
    | nil =>
      simp only [List.nil_append, List.cons.injEq] at hx
      obtain ⟨rfl, rfl⟩ := hx
      rw [w2 o.meta_ hlt hpost, w2 o.meta_ hlt hpost, h1 _ _ (by omega), h1 _ _ (by omega)]
      simp
    | cons y pre =>
      simp only [List.cons_append, List.cons.injEq] at hx
      exact w3 pre x post hx.2 hpost hlt

theorem writes_append {a b : List RObs} {m0 m1 m2 : MetaMem L} {fresh : ℕ}
    (h1 : MetaWrites a m0 m1 fresh) (h2 : MetaWrites b m1 m2 fresh) : MetaWrites (a ++ b) m0 m2 fresh := by
  obtain ⟨v1, v2, v3⟩ := h1
  obtain ⟨w1, w2, w3⟩ := h2
  refine ⟨fun x key hx k1 k2 => by rw [w1 x key hx k1 k2, v1 x key hx k1 k2], fun x hx hn key => ?_, ?_⟩
  · rw [w2 x hx (fun o ho => hn o (by simp [ho])), v2 x hx (fun o ho => hn o (by simp [ho]))]
  · intro pre o post ho hpost hlt
    rcases List.append_eq_append_iff.mp ho with ⟨t, ht1, ht2⟩ | ⟨t, ht1, ht2⟩
    · exact w3 t o post ht2 hpost hlt
    · cases t with
      | nil => exact w3 [] o post (by simpa using ht2.symm) hpost hlt
      | cons y t =>
        simp only [List.cons_append, List.cons.injEq] at ht2
        obtain ⟨rfl, ht2⟩ := ht2
        rw [w2 o.meta_ hlt (fun x hx => hpost x (by rw [ht2]; simp [hx])),
          w2 o.meta_ hlt (fun x hx => hpost x (by rw [ht2]; simp [hx]))]
        exact v3 pre o t ht1 (fun x hx => hpost x (by rw [ht2]; simp [hx])) hlt

theorem kobsBand_ok {dim : ℕ} (hd : 0 < dim) {dk : ℝ} (f0 : ℕ) : ∀ (es : List (IIEntry L)) (fresh : ℕ)
    (mem mem' : MetaMem L) (ks : List KObs), f0 ≤ fresh → (∀ e ∈ es, EntryOk e) →
    kobsBand L dim dk fresh mem es = (mem', .ok ks) →
    List.Forall₂ (KOf L dim dk) (es.map IIEntry.obs) ks ∧
    (∀ k ∈ ks, ∀ q, k.psf = some q → f0 ≤ q.meta_) ∧
    MetaWrites (es.map IIEntry.obs) mem mem' f0 := by
  intro es
  induction es with
  | nil =>
    intro fresh mem mem' ks hf _ h
    simp only [kobsBand, Prod.mk.injEq, Except.ok.injEq] at h
    obtain ⟨rfl, rfl⟩ := h
    exact ⟨.nil, by simp, fun _ _ _ _ _ => rfl, fun _ _ _ _ => rfl, fun pre o post h => by simp at h⟩
  | cons e es ih =>
    intro fresh mem mem' ks hf he h
    simp only [kobsBand] at h
    rcases h1 : kobsOne L dim dk fresh mem e with ⟨m1, x | k⟩
    · simp only [h1, Prod.mk.injEq] at h; cases h.2
    simp only [h1] at h
    rcases h2 : kobsBand L dim dk (fresh + 1) m1 es with ⟨m2, x | r⟩
    · simp only [h2, Except.map, Prod.mk.injEq] at h; cases h.2
    simp only [h2, Except.map, Prod.mk.injEq, Except.ok.injEq] at h
    obtain ⟨rfl, rfl⟩ := h
    obtain ⟨a1, a2, a3⟩ := kobsOne_ok hd (he e (by simp)) h1
    obtain ⟨b1, b2, b3⟩ := ih (fresh + 1) m1 m2 r (by omega) (fun x hx => he x (by simp [hx])) h2
    refine ⟨.cons a1 b1, ?_, writes_cons hf a3 b3⟩
    intro k' hk' q hq
    rcases List.mem_cons.mp hk' with rfl | hk'
    · rw [a2 q hq]; exact hf
    · exact b2 k' hk' q hq

theorem kobsAll_ok {dim : ℕ} (hd : 0 < dim) {dk : ℝ} (f0 : ℕ) : ∀ (es : List (List (IIEntry L))) (fresh : ℕ)
    (mem mem' : MetaMem L) (ks : List (List KObs)), f0 ≤ fresh → (∀ e ∈ es.flatten, EntryOk e) →
    kobsAll L dim dk fresh mem es = (mem', .ok ks) →
    List.Forall₂ (List.Forall₂ (KOf L dim dk)) (es.map (List.map IIEntry.obs)) ks ∧
    (∀ k ∈ ks.flatten, ∀ q, k.psf = some q → f0 ≤ q.meta_) ∧
    MetaWrites (es.map (List.map IIEntry.obs)).flatten mem mem' f0 := by
  intro es
  induction es with
  | nil =>
    intro fresh mem mem' ks hf _ h
    simp only [kobsAll, Prod.mk.injEq, Except.ok.injEq] at h
    obtain ⟨rfl, rfl⟩ := h
    exact ⟨.nil, by simp, fun _ _ _ _ _ => rfl, fun _ _ _ _ => rfl, fun pre o post h => by simp at h⟩
  | cons e es ih =>
    intro fresh mem mem' ks hf he h
    simp only [kobsAll] at h
    rcases h1 : kobsBand L dim dk fresh mem e with ⟨m1, x | k⟩
    · simp only [h1, Prod.mk.injEq] at h; cases h.2
    simp only [h1] at h
    rcases h2 : kobsAll L dim dk (fresh + e.length) m1 es with ⟨m2, x | r⟩
    · simp only [h2, Except.map, Prod.mk.injEq] at h; cases h.2
    simp only [h2, Except.map, Prod.mk.injEq, Except.ok.injEq] at h
    obtain ⟨rfl, rfl⟩ := h
    obtain ⟨a1, a2, a3⟩ := kobsBand_ok hd f0 e fresh mem m1 k hf
      (fun x hx => he x (List.mem_flatten.mpr ⟨e, by simp, hx⟩)) h1
    obtain ⟨b1, b2, b3⟩ := ih (fresh + e.length) m1 m2 r (by omega)
      (fun x hx => he x (by simp only [List.flatten_cons, List.mem_append]; exact .inr hx)) h2
    refine ⟨.cons a1 b1, ?_, writes_append a3 b3⟩
    intro k' hk' q hq
    simp only [List.flatten_cons, List.mem_append] at hk'
    rcases hk' with hk' | hk'
    · exact a2 k' hk' q hq
    · exact b2 k' hk' q hq

theorem entry_wanted {e : IIEntry L} (h : EntryOk e) : KWanted L e.obs (e.dim, e.dk) := by
  obtain ⟨e1, e2, e3, e4⟩ := h
  rcases hp : e.obs.psf with _ | p
  · obtain ⟨-, hd⟩ := e3 hp
    rw [hd, e2]
    exact .noPsf e.ii hp e1
  · obtain ⟨q, n, -, hn, hq, hd⟩ := e4 p hp
    rw [hd, e2]
    exact .psf p n e.ii q hn hp e1 hq

theorem makeKobs_parts {fresh : ℕ} {mem mem' : MetaMem L} {obs : List (List RObs)} {ks : List (List KObs)}
    (h : makeKobs L fresh mem obs = (mem', .ok ks)) :
    ∃ es dim dk, iiAll L obs = .ok es ∧ FirstMax (es.flatten.map fun e => (e.dim, e.dk)) (dim, dk) ∧ 0 < dim ∧
      kobsAll L dim dk fresh mem es = (mem', .ok ks) := by
  unfold makeKobs makeIilist at h
  rcases he : iiAll L obs with x | es
  · simp only [he, Except.bind, Prod.mk.injEq] at h; cases h.2
  simp only [he, Except.bind] at h
  rcases hf : es.flatten.map fun e => (e.dim, e.dk) with _ | ⟨d, ds⟩
  · simp only [hf, Prod.mk.injEq] at h; cases h.2
  simp only [hf] at h
  have hb : FirstMax (d :: ds) (iiBest d ds) := by
    simpa using iiBest_first ds [] d [] (by simp) (by simp)
  refine ⟨es, (iiBest d ds).1, (iiBest d ds).2, rfl, by rw [hf]; exact hb, ?_, h⟩
  obtain ⟨pre, post, h1, -, -⟩ := hb
  have hm : iiBest d ds ∈ es.flatten.map fun e => (e.dim, e.dk) := by rw [hf, h1]; simp
  obtain ⟨e, he1, he2⟩ := List.mem_map.mp hm
  have hok := (iiAll_ok obs es he).2 e he1
  rw [← he2]
  obtain ⟨-, -, e3, e4⟩ := hok
  rcases hp : e.obs.psf with _ | p
  · have := (e3 hp).2
    simp only [this]; omega
  · obtain ⟨q, -, -, -, -, hq⟩ := e4 p hp
    simp only [hq]; omega

/-- C79: `make_kobs` makes one k space observation from each observation, in the same bands and order, all on the
same pixels: the size and spacing wanted by the first of the observations that want the largest size. -/
theorem C79_make_kobs (fresh : ℕ) (mem mem' : MetaMem L) (obs : List (List RObs)) (ks : List (List KObs))
    (h : makeKobs L fresh mem obs = (mem', .ok ks)) :
    ∃ dim dk, List.Forall₂ (List.Forall₂ (KOf L dim dk)) obs ks ∧
      ∃ wanted, List.Forall₂ (KWanted L) obs.flatten wanted ∧ FirstMax wanted (dim, dk) := by
  obtain ⟨es, dim, dk, h1, h2, h3, h4⟩ := makeKobs_parts h
  obtain ⟨a1, a2⟩ := iiAll_ok obs es h1
  obtain ⟨b1, -, -⟩ := kobsAll_ok h3 fresh es fresh mem mem' ks le_rfl a2 h4
  rw [a1] at b1
  refine ⟨dim, dk, b1, _, ?_, h2⟩
  rw [← a1, ← List.map_flatten, List.forall₂_map_left_iff, List.forall₂_map_right_iff, List.forall₂_same]
  exact fun e he => entry_wanted (a2 e he)

/-- C79: what `make_kobs` makes is consistent. -/
theorem C79_make_kobs_consistent (dim : ℕ) (dk : ℝ) (o : RObs) (k : KObs) (h : KOf L dim dk o k) : KConsistent k := by
  obtain ⟨⟨ii, d, -, -, hk⟩, ⟨hw1, hw2, -⟩, hn, hp, -, -⟩ := h
  refine ⟨by rw [hk]; exact ⟨hw1, hw2⟩, fun p hp' => ?_⟩
  rcases ho : o.psf with _ | q
  · rw [hn ho] at hp'; cases hp'
  · obtain ⟨q', -, -, d', h1, -, -, -, h2, -⟩ := hp q ho
    rw [h1] at hp'
    cases hp'
    rw [hk, h2]
    refine ⟨rfl, rfl, ?_⟩
    simp only [sub_self, abs_zero]
    positivity

/-- C79: `make_kobs` works on the metadata of the observations themselves: each holds afterwards the image and
scale of the last of the observations that share it, and no other dictionary and no other key is changed.  The
metadata of psfs is copied. -/
theorem C79_metadata (fresh : ℕ) (mem mem' : MetaMem L) (obs : List (List RObs)) (ks : List (List KObs))
    (h : makeKobs L fresh mem obs = (mem', .ok ks)) :
    (∀ a key, a < fresh → key ≠ "scale" → key ≠ "realspace_gsimage" → mem' a key = mem a key) ∧
    (∀ a, a < fresh → (∀ o ∈ obs.flatten, o.meta_ ≠ a) → ∀ key, mem' a key = mem a key) ∧
    (∀ pre o post, obs.flatten = pre ++ o :: post → (∀ x ∈ post, x.meta_ ≠ o.meta_) → o.meta_ < fresh →
      mem' o.meta_ "scale" = some (.scale o.wcs.scale) ∧
      mem' o.meta_ "realspace_gsimage" = some (.gsimage o.image)) ∧
    (∀ k ∈ ks.flatten, ∀ q, k.psf = some q → fresh ≤ q.meta_) := by
  obtain ⟨es, dim, dk, h1, h2, h3, h4⟩ := makeKobs_parts h
  obtain ⟨a1, a2⟩ := iiAll_ok obs es h1
  obtain ⟨-, b2, b3⟩ := kobsAll_ok h3 fresh es fresh mem mem' ks le_rfl a2 h4
  rw [a1] at b3
  exact ⟨b3.1, b3.2.1, b3.2.2, b2⟩

/-- C79: without observations there is nothing to convert. -/
theorem C79_empty (fresh : ℕ) (mem : MetaMem L) (obs : List (List RObs)) (h : obs.flatten = []) :
    makeKobs L fresh mem obs = (mem, .error .value) := by
  have hb : ∀ l : List (List RObs), l.flatten = [] → ∃ es, iiAll L l = .ok es ∧ es.flatten = [] := by
    intro l
    induction l with
    | nil => intro _; exact ⟨[], rfl, rfl⟩
    | cons a l ih =>
      intro hl
      simp only [List.flatten_cons, List.append_eq_nil_iff] at hl
      obtain ⟨es, h1, h2⟩ := ih hl.2
      refine ⟨[] :: es, ?_, by simpa using h2⟩
      rw [hl.1]
      simp [iiAll, iiBand, h1, Except.bind, Except.map]
  obtain ⟨es, h1, h2⟩ := hb obs h
  simp [makeKobs, makeIilist, h1, Except.bind, h2]

/-- C79: when GalSim raises no exception and no weight map is empty, `make_kobs` succeeds. -/
theorem C79_succeeds (fresh : ℕ) (mem : MetaMem L) (obs : List (List RObs)) (hne : obs.flatten ≠ [])
    (hi : ∀ im wcs, ∃ ii, L.interp im wcs = .ok ii) (hd : ∀ ii dim dk, ∃ d, L.drawK ii dim dk = .ok d)
    (hw : ∀ o ∈ obs.flatten, o.weight ≠ [] ∧ ∀ p, o.psf = some p → p.weight ≠ []) :
    ∃ ks, (makeKobs L fresh mem obs).2 = .ok ks := by
  have hwt : ∀ (dim : ℕ) (w : List ℝ), w ≠ [] → ∃ W, kWeight dim w = .ok W ∧ W.nrow = dim ∧ W.ncol = dim := by
    intro dim w hw
    cases w with
    | nil => exact absurd rfl hw
    | cons x xs => exact ⟨_, rfl, rfl, rfl⟩
  have hnew : ∀ (fresh dim : ℕ) (dk : ℝ) (d : List ℂ) (W : WImg) (p : KPsfArg) (a : ℕ), W.nrow = dim → W.ncol = dim →
      (p = .none ∨ ∃ q, p = .kobs q ∧ q.kimage.grid = ⟨dim, dim, dk⟩) →
      ∃ k, newKObs fresh (.complex ⟨⟨dim, dim, dk⟩, d⟩) (.image W) p (.dict a) = .ok k ∧
        k.kimage.grid = ⟨dim, dim, dk⟩ := by
    intro fresh dim dk d W p a h1 h2 hp
    have hok : KAcceptable (.complex ⟨⟨dim, dim, dk⟩, d⟩) (.image W) p (.dict a) := by
      refine ⟨_, rfl, .inr ⟨W, rfl, h1, h2⟩, ?_, by simp⟩
      rcases hp with hp | ⟨q, hp, hq⟩
      · exact .inl hp
      · refine .inr ⟨q, hp, ?_, ?_, ?_⟩ <;> rw [hq]
        simp only [sub_self, abs_zero]
        positivity
    obtain ⟨k, hk⟩ := (C79_construct fresh _ _ _ _).mpr hok
    have hc := (C79_contents _ _ _ _ _ _ hk).1
    simp only [KImgArg.complex.injEq] at hc
    exact ⟨k, hk, by rw [← hc]⟩
  have hentry : ∀ o : RObs, ∃ e, iiEntry L o = .ok e := by
    intro o
    obtain ⟨ii, h1⟩ := hi (some o.image) o.wcs
    rcases hp : o.psf with _ | p
    · exact ⟨_, by simp only [iiEntry, h1, Except.bind, hp]; rfl⟩
    · obtain ⟨q, h2⟩ := hi (normalizedPsf p.image) p.wcs
      exact ⟨_, by simp only [iiEntry, h1, Except.bind, hp, h2, Except.map]; rfl⟩
  have hband : ∀ os : List RObs, ∃ es, iiBand L os = .ok es := by
    intro os
    induction os with
    | nil => exact ⟨_, rfl⟩
    | cons o os ih =>
      obtain ⟨e, he⟩ := hentry o
      obtain ⟨es, hes⟩ := ih
      exact ⟨_, by simp only [iiBand, he, hes, Except.bind, Except.map]; rfl⟩
  have hall : ∀ os : List (List RObs), ∃ es, iiAll L os = .ok es := by
    intro os
    induction os with
    | nil => exact ⟨_, rfl⟩
    | cons o os ih =>
      obtain ⟨e, he⟩ := hband o
      obtain ⟨es, hes⟩ := ih
      exact ⟨_, by simp only [iiAll, he, hes, Except.bind, Except.map]; rfl⟩
  have hone : ∀ (dim : ℕ) (dk : ℝ) (fresh : ℕ) (mem : MetaMem L) (e : IIEntry L),
      (e.obs.weight ≠ [] ∧ ∀ p, e.obs.psf = some p → p.weight ≠ []) →
      ∃ m k, kobsOne L dim dk fresh mem e = (m, .ok k) := by
    intro dim dk fresh mem e ⟨hw1, hw2⟩
    obtain ⟨d, h1⟩ := hd e.ii dim dk
    obtain ⟨W, h2, h3, h4⟩ := hwt dim _ hw1
    unfold kobsOne
    simp only [h1, h2]
    rcases hq : e.psfII with _ | q
    · obtain ⟨k, hk, -⟩ := hnew fresh dim dk (List.ofFn d) W .none e.obs.meta_ h3 h4 (.inl rfl)
      exact ⟨_, k, by simp only [hk]; rfl⟩
    rcases hp : e.obs.psf with _ | p
    · obtain ⟨k, hk, -⟩ := hnew fresh dim dk (List.ofFn d) W .none e.obs.meta_ h3 h4 (.inl rfl)
      exact ⟨_, k, by simp only [hk]; rfl⟩
    obtain ⟨d', g1⟩ := hd q dim dk
    obtain ⟨W', g2, g3, g4⟩ := hwt dim _ (hw2 p hp)
    obtain ⟨kp, g5, g6⟩ := hnew fresh dim dk (List.ofFn d') W' .none fresh g3 g4 (.inl rfl)
    obtain ⟨k, hk, -⟩ := hnew fresh dim dk (List.ofFn d) W (.kobs ⟨kp.kimage, kp.weight, kp.meta_⟩) e.obs.meta_ h3 h4
      (.inr ⟨_, rfl, g6⟩)
    exact ⟨_, k, by simp only [kobsPsf, g1, g2, g5, hk]; rfl⟩
  have hkb : ∀ (dim : ℕ) (dk : ℝ) (es : List (IIEntry L)) (fresh : ℕ) (mem : MetaMem L),
      (∀ o ∈ es.map IIEntry.obs, o.weight ≠ [] ∧ ∀ p, o.psf = some p → p.weight ≠ []) →
      ∃ m ks, kobsBand L dim dk fresh mem es = (m, .ok ks) := by
    intro dim dk es
    induction es with
    | nil => intro _ mem _; exact ⟨_, _, rfl⟩
    | cons e es ih =>
      intro fresh mem hw
      obtain ⟨m1, k, h1⟩ := hone dim dk fresh mem e (hw e.obs (by simp))
      obtain ⟨m2, ks, h2⟩ := ih (fresh + 1) m1 (fun o ho => hw o (by rw [List.map_cons]; exact List.mem_cons_of_mem _ ho))
      exact ⟨m2, k :: ks, by simp only [kobsBand, h1, h2, Except.map]⟩
  have hka : ∀ (dim : ℕ) (dk : ℝ) (es : List (List (IIEntry L))) (fresh : ℕ) (mem : MetaMem L),
      (∀ o ∈ (es.map (List.map IIEntry.obs)).flatten, o.weight ≠ [] ∧ ∀ p, o.psf = some p → p.weight ≠ []) →
      ∃ m ks, kobsAll L dim dk fresh mem es = (m, .ok ks) := by
    intro dim dk es
    induction es with
    | nil => intro _ mem _; exact ⟨_, _, rfl⟩
    | cons e es ih =>
      intro fresh mem hw
      simp only [List.map_cons, List.flatten_cons, List.mem_append] at hw
      obtain ⟨m1, k, h1⟩ := hkb dim dk e fresh mem (fun o ho => hw o (.inl ho))
      obtain ⟨m2, ks, h2⟩ := ih (fresh + e.length) m1 (fun o ho => hw o (.inr ho))
      exact ⟨m2, k :: ks, by simp only [kobsAll, h1, h2, Except.map]⟩
  obtain ⟨es, hes⟩ := hall obs
  have ho := (iiAll_ok obs es hes).1
  rw [← ho] at hw hne
  rcases hf : es.flatten.map fun e => (e.dim, e.dk) with _ | ⟨d, ds⟩
  · exfalso
    apply hne
    rw [← List.map_flatten]
    simpa using hf
  obtain ⟨m, ks, hk⟩ := hka (iiBest d ds).1 (iiBest d ds).2 es fresh mem hw
  exact ⟨ks, by simp only [makeKobs, makeIilist, hes, Except.bind, hf, hk]⟩

/-! ### Concrete cases -/

/-- A library in which everything succeeds: an interpolated image is the image. -/
def toyKLib : KLib where
  II := List ℝ
  interp im _ := .ok (im.getD [])
  goodSize l := l.length
  stepk l := 1 / (l.length + 1 : ℝ)
  drawK l _ _ := .ok fun i => ((l[i.val]?.getD 0 : ℝ) : ℂ)

/-- An observation with a psf, and one without which shares its metadata. -/
def toyRObs : List (List RObs) :=
  [[⟨[1, 2, 3, 4], [1, 2, 2, 0], ⟨0, 0, 1, 0, 0, 1, 1, 1⟩, 0, some ⟨[1, 1], [3, 5], ⟨0, 0, 1, 0, 0, 1, 1, 1⟩, 1⟩⟩],
   [⟨[5, 6], [4, 4], ⟨0, 0, 2, 0, 0, 2, 4, 2⟩, 0, none⟩]]

example : ∃ ks, (makeKobs toyKLib 2 (fun _ _ => none) toyRObs).2 = .ok ks :=
  C79_succeeds 2 _ toyRObs (by simp [toyRObs]) (fun _ _ => ⟨_, rfl⟩) (fun _ _ _ => ⟨_, rfl⟩)
    (by intro o ho; simp only [toyRObs, List.flatten_cons, List.flatten_nil, List.cons_append, List.nil_append, List.append_nil, List.mem_cons,
          List.not_mem_nil, or_false] at ho
        rcases ho with rfl | rfl
        · exact ⟨by simp, by rintro p hp; cases hp; simp⟩
        · exact ⟨by simp, by rintro p hp; cases hp⟩)

/-- Both k space observations made of them hold the dictionary of address 0, whose scale is that of the second. -/
example : ∃ ks mem', makeKobs toyKLib 2 (fun _ _ => none) toyRObs = (mem', .ok ks) ∧
    mem' 0 "scale" = some (.scale 2) := by
  obtain ⟨ks, h⟩ := C79_succeeds (L := toyKLib) 2 (fun _ _ => none) toyRObs (by simp [toyRObs])
    (fun _ _ => ⟨_, rfl⟩) (fun _ _ _ => ⟨_, rfl⟩)
    (by intro o ho; simp only [toyRObs, List.flatten_cons, List.flatten_nil, List.cons_append, List.nil_append, List.append_nil, List.mem_cons,
          List.not_mem_nil, or_false] at ho
        rcases ho with rfl | rfl
        · exact ⟨by simp, by rintro p hp; cases hp; simp⟩
        · exact ⟨by simp, by rintro p hp; cases hp⟩)
  refine ⟨ks, (makeKobs toyKLib 2 (fun _ _ => none) toyRObs).1, by rw [← h], ?_⟩
  have h' : makeKobs toyKLib 2 (fun _ _ => none) toyRObs =
      ((makeKobs toyKLib 2 (fun _ _ => none) toyRObs).1, .ok ks) := by rw [← h]
  exact ((C79_metadata 2 _ _ toyRObs ks h').2.2.1 [toyRObs[0][0]] toyRObs[1][0] [] rfl (by simp)
    (by simp [toyRObs])).1

end

end Ngmix.Props
