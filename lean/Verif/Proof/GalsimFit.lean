import Verif.Spec.GalsimFit
import Verif.Proof.ExceptLemmas

/-!
# Galsim fits: the memory of the images

Evaluations depend on the memory only through the pixels of the images and the errors, which no evaluation changes.
-/

namespace Ngmix.Proof.GalsimFit

open Ngmix Ngmix.Spec

noncomputable section

variable (G : GSLib)

/-- The images of the fit are set up for these observations. -/
def KReady (ks : List KObs) (mem : KMem) : Prop :=
  ∀ k ∈ ks, (mem k.meta_).kmodel.grid = k.kimage.grid ∧ (mem k.meta_).ierr = kIerr k.weight

/-- Same pixels and errors everywhere. -/
def SameFrame (mem mem' : KMem) : Prop :=
  ∀ a, (mem' a).kmodel.grid = (mem a).kmodel.grid ∧ (mem' a).ierr = (mem a).ierr

theorem SameFrame.refl (mem : KMem) : SameFrame mem mem := fun _ => ⟨rfl, rfl⟩

theorem SameFrame.trans {a b c : KMem} (h1 : SameFrame a b) (h2 : SameFrame b c) : SameFrame a c :=
  fun x => ⟨(h2 x).1.trans (h1 x).1, (h2 x).2.trans (h1 x).2⟩

theorem KReady.frame {ks : List KObs} {mem mem' : KMem} (h : KReady ks mem) (hf : SameFrame mem mem') : KReady ks mem' :=
  fun k hk => ⟨(hf _).1.trans (h k hk).1, (hf _).2.trans (h k hk).2⟩

theorem setModel_frame (mem : KMem) (a : ℕ) (d : List ℂ) : SameFrame mem (mem.setModel a d) := by
  intro b
  unfold KMem.setModel
  by_cases h : b = a
  · subst h; simp
  · simp [h]

theorem setModel_other (mem : KMem) (a b : ℕ) (d : List ℂ) (h : b ≠ a) : mem.setModel a d b = mem b := by
  simp [KMem.setModel, h]

theorem setModel_same (mem : KMem) (a : ℕ) (d : List ℂ) : (mem.setModel a d a).kmodel.data = d := by
  simp [KMem.setModel]

/-- The image of a galaxy, times the psf. -/
def pureImg (gal : G.Obj) (k : KObs) : Except PyErr (List ℂ) :=
  (G.drawK gal k.kimage.grid).bind fun d =>
    match k.psf with
    | none => .ok (List.ofFn d)
    | some p => kMul k.kimage.grid (List.ofFn d) p.kimage

theorem drawOne_pure (gal : G.Obj) (k : KObs) (mem : KMem) (hr : (mem k.meta_).kmodel.grid = k.kimage.grid) :
    (drawOne G gal k mem).2 = (pureImg G gal k).map (fun _ => ()) ∧
    SameFrame mem (drawOne G gal k mem).1 ∧
    (∀ a, a ≠ k.meta_ → (drawOne G gal k mem).1 a = mem a) ∧
    ∀ m, pureImg G gal k = .ok m → ((drawOne G gal k mem).1 k.meta_).kmodel.data = m := by
  unfold drawOne pureImg
  dsimp only
  generalize mem k.meta_ = c at hr ⊢
  obtain ⟨⟨g, dat⟩, ie⟩ := c
  dsimp only at hr
  subst hr
  dsimp only
  rcases G.drawK gal k.kimage.grid with e | d
  · exact ⟨rfl, setModel_frame _ _ _, fun a ha => setModel_other _ _ _ _ ha, fun m hm => by simp [Except.bind] at hm⟩
  rcases k.psf with _ | p
  · exact ⟨rfl, setModel_frame _ _ _, fun a ha => setModel_other _ _ _ _ ha,
      fun m hm => by rw [setModel_same]; simpa [Except.bind] using hm⟩
  simp only [Except.bind]
  rcases kMul k.kimage.grid (List.ofFn d) p.kimage with e | d'
  · exact ⟨rfl, setModel_frame _ _ _, fun a ha => setModel_other _ _ _ _ ha, fun m hm => by simp at hm⟩
  · exact ⟨rfl, setModel_frame _ _ _, fun a ha => setModel_other _ _ _ _ ha,
      fun m hm => by rw [setModel_same]; simpa using hm⟩

/-- The images of a band. -/
def imgsBand (kind : GSKind) (bp : List ℝ) : List KObs → Except PyErr (List (List ℂ))
  | [] => .ok []
  | k :: ks => (gsModel G kind bp).bind fun gal => (pureImg G gal k).bind fun m =>
      (imgsBand kind bp ks).map fun ms => m :: ms

/-- The images of all the bands. -/
def imgsAll (kind : GSKind) (pars : List ℝ) : ℕ → List (List KObs) → Except PyErr (List (List (List ℂ)))
  | _, [] => .ok []
  | b, ks :: rest => (kind.bandPars pars b).bind fun bp => (imgsBand G kind bp ks).bind fun m =>
      (imgsAll kind pars (b + 1) rest).map fun ms => m :: ms

/-- The memory holds these images. -/
def Holds (mem : KMem) (ks : List KObs) (ms : List (List ℂ)) : Prop :=
  List.Forall₂ (fun k m => (mem k.meta_).kmodel.data = m) ks ms

theorem Holds.keep {mem mem' : KMem} {ks : List KObs} {ms : List (List ℂ)} (h : Holds mem ks ms)
    (hk : ∀ k ∈ ks, mem' k.meta_ = mem k.meta_) : Holds mem' ks ms := by
  induction h with
  | nil => exact .nil
  | cons h _ ih =>
    exact .cons (by rw [hk _ (by simp)]; exact h) (ih fun k hk' => hk k (by simp [hk']))

theorem fillKBand_pure (kind : GSKind) (bp : List ℝ) : ∀ (ks : List KObs) (mem : KMem), KReady ks mem →
    (fillKBand G kind bp ks mem).2 = (imgsBand G kind bp ks).map (fun _ => ()) ∧
    SameFrame mem (fillKBand G kind bp ks mem).1 ∧
    (∀ a, (∀ k ∈ ks, k.meta_ ≠ a) → (fillKBand G kind bp ks mem).1 a = mem a) ∧
    ((ks.map KObs.meta_).Nodup → ∀ ms, imgsBand G kind bp ks = .ok ms →
      Holds (fillKBand G kind bp ks mem).1 ks ms) := by
  intro ks
  induction ks with
  | nil =>
    intro mem _
    refine ⟨rfl, SameFrame.refl _, fun _ _ => rfl, fun _ ms h => ?_⟩
    simp only [imgsBand, Except.ok.injEq] at h
    subst h
    exact .nil
  | cons k ks ih =>
    intro mem hr
    unfold fillKBand imgsBand
    rcases hg : gsModel G kind bp with e | gal
    · simp only [Except.bind]
      exact ⟨rfl, SameFrame.refl _, fun _ _ => trivial, by simp⟩
    obtain ⟨d1, d2, d3, d4⟩ := drawOne_pure G gal k mem (hr k (by simp)).1
    rcases hd : drawOne G gal k mem with ⟨mem1, e | u⟩
    · simp only [Except.bind, hd]
      rw [hd] at d1 d2 d3
      rcases hi : pureImg G gal k with e' | m
      · rw [hi] at d1
        simp only [Except.map, Except.error.injEq] at d1
        subst d1
        exact ⟨rfl, d2, fun a ha => d3 a (fun h => ha k (by simp) h.symm), by simp⟩
      · rw [hi] at d1; simp [Except.map] at d1
    · rw [hd] at d1 d2 d3 d4
      rcases hi : pureImg G gal k with e' | m
      · rw [hi] at d1; simp [Except.map] at d1
      have hr1 : KReady ks mem1 := KReady.frame (fun k' hk' => hr k' (by simp [hk'])) d2
      obtain ⟨f1, f2, f3, f4⟩ := ih mem1 hr1
      simp only [Except.bind, hd, hi]
      refine ⟨?_, d2.trans f2, ?_, ?_⟩
      · rw [f1]; cases imgsBand G kind bp ks <;> rfl
      · intro a ha
        rw [f3 a (fun k' hk' => ha k' (by simp [hk']))]
        exact d3 a (fun h => ha k (by simp) h.symm)
      · intro hn ms hms
        simp only [List.map_cons, List.nodup_cons] at hn
        obtain ⟨ms', h1, h2⟩ := exMap_ok hms
        subst h2
        refine .cons ?_ (f4 hn.2 ms' h1)
        rw [f3 k.meta_ (fun k' hk' h => hn.1 (by rw [← h]; exact List.mem_map_of_mem hk'))]
        exact d4 m hi

theorem fillKAll_pure (kind : GSKind) (pars : List ℝ) : ∀ (kobs : List (List KObs)) (b : ℕ) (mem : KMem),
    KReady kobs.flatten mem →
    (fillKAll G kind pars b kobs mem).2 = (imgsAll G kind pars b kobs).map (fun _ => ()) ∧
    SameFrame mem (fillKAll G kind pars b kobs mem).1 ∧
    (∀ a, (∀ k ∈ kobs.flatten, k.meta_ ≠ a) → (fillKAll G kind pars b kobs mem).1 a = mem a) ∧
    ((kobs.flatten.map KObs.meta_).Nodup → ∀ ms, imgsAll G kind pars b kobs = .ok ms →
      Holds (fillKAll G kind pars b kobs mem).1 kobs.flatten ms.flatten) := by
  intro kobs
  induction kobs with
  | nil =>
    intro b mem _
    refine ⟨rfl, SameFrame.refl _, fun _ _ => rfl, fun _ ms h => ?_⟩
    simp only [imgsAll, Except.ok.injEq] at h
    subst h
    exact .nil
  | cons ks rest ih =>
    intro b mem hr
    unfold fillKAll imgsAll
    rcases hb : kind.bandPars pars b with e | bp
    · simp only [Except.bind]
      exact ⟨rfl, SameFrame.refl _, fun _ _ => trivial, by simp⟩
    have hr0 : KReady ks mem := fun k hk => hr k (by simp [hk])
    obtain ⟨d1, d2, d3, d4⟩ := fillKBand_pure G kind bp ks mem hr0
    rcases hd : fillKBand G kind bp ks mem with ⟨mem1, e | u⟩
    · simp only [Except.bind, hd]
      rw [hd] at d1 d2 d3
      rcases hi : imgsBand G kind bp ks with e' | m
      · rw [hi] at d1
        simp only [Except.map, Except.error.injEq] at d1
        subst d1
        exact ⟨rfl, d2, fun a ha => d3 a (fun k hk => ha k (by simp [hk])), by simp⟩
      · rw [hi] at d1; simp [Except.map] at d1
    · rw [hd] at d1 d2 d3 d4
      rcases hi : imgsBand G kind bp ks with e' | m
      · rw [hi] at d1; simp [Except.map] at d1
      have hr1 : KReady rest.flatten mem1 :=
        KReady.frame (fun k' hk' => hr k' (by simp only [List.flatten_cons, List.mem_append]; exact .inr hk')) d2
      obtain ⟨f1, f2, f3, f4⟩ := ih (b + 1) mem1 hr1
      simp only [Except.bind, hd, hi]
      refine ⟨?_, d2.trans f2, ?_, ?_⟩
      · rw [f1]; cases imgsAll G kind pars (b + 1) rest <;> rfl
      · intro a ha
        rw [f3 a (fun k' hk' => ha k' (by simp only [List.flatten_cons, List.mem_append]; exact .inr hk'))]
        exact d3 a (fun k' hk' => ha k' (by simp [hk']))
      · intro hn ms hms
        rw [List.flatten_cons, List.map_append, List.nodup_append] at hn
        obtain ⟨hn1, hn2, hn3⟩ := hn
        obtain ⟨ms', h1, h2⟩ := exMap_ok hms
        subst h2
        rw [List.flatten_cons, List.flatten_cons]
        refine List.rel_append (Holds.keep (d4 hn1 m hi) ?_) (f4 hn2 ms' h1)
        intro k hk
        exact f3 k.meta_ fun k' hk' h => hn3 k.meta_ (List.mem_map_of_mem hk) k'.meta_ (List.mem_map_of_mem hk') h.symm

/-! ### Residuals -/

theorem kIerr_eq (w : WImg) : kIerr w = w.data.map invErr := rfl

/-- The length of a model image. -/
theorem pureImg_length {gal : G.Obj} {k : KObs} {m : List ℂ} (hk : KSized k) (h : pureImg G gal k = .ok m) :
    m.length = k.kimage.grid.size := by
  unfold pureImg at h
  rcases hd : G.drawK gal k.kimage.grid with e | d
  · rw [hd] at h; simp [Except.bind] at h
  rw [hd] at h
  simp only [Except.bind] at h
  rcases hp : k.psf with _ | p
  · rw [hp] at h
    simp only [Except.ok.injEq] at h
    subst h
    simp
  · rw [hp] at h
    simp only at h
    unfold kMul at h
    obtain ⟨h1, h2, h3⟩ := hk.psf p hp
    rw [if_neg (by rw [h1, h2]; simp)] at h
    simp only [Except.ok.injEq] at h
    subst h
    simp [h3]

theorem imgsBand_length {kind : GSKind} {bp : List ℝ} : ∀ (ks : List KObs) (ms : List (List ℂ)),
    (∀ k ∈ ks, KSized k) → imgsBand G kind bp ks = .ok ms →
    List.Forall₂ (fun k (m : List ℂ) => m.length = k.kimage.grid.size) ks ms := by
  intro ks
  induction ks with
  | nil => intro ms _ h; simp only [imgsBand, Except.ok.injEq] at h; subst h; exact .nil
  | cons k ks ih =>
    intro ms hk h
    unfold imgsBand at h
    obtain ⟨gal, hg, h⟩ := exBind_ok h
    obtain ⟨m, hm, h⟩ := exBind_ok h
    obtain ⟨ms', h1, rfl⟩ := exMap_ok h
    exact .cons (pureImg_length G (hk k (by simp)) hm) (ih ms' (fun k' hk' => hk k' (by simp [hk'])) h1)

theorem imgsAll_length {kind : GSKind} {pars : List ℝ} : ∀ (kobs : List (List KObs)) (b : ℕ) (ms : List (List (List ℂ))),
    (∀ k ∈ kobs.flatten, KSized k) → imgsAll G kind pars b kobs = .ok ms →
    List.Forall₂ (fun k (m : List ℂ) => m.length = k.kimage.grid.size) kobs.flatten ms.flatten := by
  intro kobs
  induction kobs with
  | nil => intro b ms _ h; simp only [imgsAll, Except.ok.injEq] at h; subst h; exact .nil
  | cons ks rest ih =>
    intro b ms hk h
    unfold imgsAll at h
    obtain ⟨bp, hg, h⟩ := exBind_ok h
    obtain ⟨m, hm, h⟩ := exBind_ok h
    obtain ⟨ms', h1, rfl⟩ := exMap_ok h
    rw [List.flatten_cons, List.flatten_cons]
    exact List.rel_append (imgsBand_length G ks m (fun k hk' => hk k (by simp [hk'])) hm)
      (ih (b + 1) ms' (fun k' hk' => hk k' (by simp only [List.flatten_cons, List.mem_append]; exact .inr hk')) h1)

theorem kResid_length {m : List ℂ} {k : KObs} (hk : KSized k) (hm : m.length = k.kimage.grid.size) :
    (kResid m k).length = 2 * k.kimage.grid.size := by
  unfold kResid
  simp [hm, hk.image, hk.weight]
  omega

theorem resid_parts (m d : List ℂ) (w : List ℝ) (part : ℂ → ℝ) (hp : ∀ x y, part (x - y) = part x - part y) :
    List.zipWith (fun (z : ℂ) e => Fl.fin (part z * e)) (List.zipWith (fun x y => x - y) m d) (w.map invErr) =
      ((m.zip (d.zip w)).map fun x => (part x.1 - part x.2.1) * invErr x.2.2).map Fl.fin := by
  induction m generalizing d w with
  | nil => simp
  | cons a m ih =>
    cases d with
    | nil => simp
    | cons b d =>
      cases w with
      | nil => simp
      | cons c w => simp [ih, hp]

theorem slice_ok (fdiff : List Fl) (start : ℕ) (v : List Fl) (h : start + v.length ≤ fdiff.length) :
    sliceWrite fdiff start v = .ok (fdiff.take start ++ v ++ fdiff.drop (start + v.length)) := by
  unfold sliceWrite
  rw [if_pos h]

theorem slice_two (fdiff : List Fl) (start : ℕ) (v w : List Fl) (h : start + (v.length + w.length) ≤ fdiff.length) :
    (sliceWrite fdiff start v).bind (fun f => sliceWrite f (start + v.length) w) =
      .ok (fdiff.take start ++ (v ++ w) ++ fdiff.drop (start + (v.length + w.length))) := by
  rw [slice_ok _ _ _ (by omega)]
  simp only [Except.bind]
  have hl : (fdiff.take start).length = start := by rw [List.length_take]; omega
  rw [slice_ok _ _ _ (by simp only [List.length_append, hl, List.length_drop]; omega)]
  congr 1
  have h1 : (fdiff.take start ++ v ++ fdiff.drop (start + v.length)).take (start + v.length) = fdiff.take start ++ v := by
    rw [List.take_append_of_le_length (by simp [hl])]
    rw [List.take_of_length_le (by simp [hl])]
  have h2 : (fdiff.take start ++ v ++ fdiff.drop (start + v.length)).drop (start + v.length + w.length) =
      fdiff.drop (start + (v.length + w.length)) := by
    rw [List.drop_append, List.drop_of_length_le (by simp [hl]), List.nil_append, List.drop_drop]
    congr 1
    simp only [List.length_append, hl]
    omega
  rw [h1, h2]
  simp

theorem residOne_eq (mem : KMem) (k : KObs) (m : List ℂ) (hk : KSized k) (hg : (mem k.meta_).kmodel.grid = k.kimage.grid)
    (hi : (mem k.meta_).ierr = kIerr k.weight) (hm : (mem k.meta_).kmodel.data = m)
    (hl : m.length = k.kimage.grid.size) (fdiff : List Fl) (start : ℕ)
    (h : start + 2 * k.kimage.grid.size ≤ fdiff.length) :
    residOne mem k fdiff start = .ok (fdiff.take start ++ (kResid m k).map Fl.fin ++
      fdiff.drop (start + 2 * k.kimage.grid.size), start + 2 * k.kimage.grid.size) := by
  unfold residOne
  simp only [hg]
  rw [if_neg (by simp), hi, hm, kIerr_eq, resid_parts _ _ _ Complex.re (fun x y => rfl),
    resid_parts _ _ _ Complex.im (fun x y => rfl)]
  have hs : (List.zipWith (fun x y => x - y) m k.kimage.data).length = k.kimage.grid.size := by
    simp [hl, hk.image]
  rw [hs]
  set re := ((m.zip (k.kimage.data.zip k.weight.data)).map fun x => (x.1.re - x.2.1.re) * invErr x.2.2).map Fl.fin with hre
  set im := ((m.zip (k.kimage.data.zip k.weight.data)).map fun x => (x.1.im - x.2.1.im) * invErr x.2.2).map Fl.fin with him
  have hlr : re.length = k.kimage.grid.size := by simp [hre, hl, hk.image, hk.weight]
  have hli : im.length = k.kimage.grid.size := by simp [him, hl, hk.image, hk.weight]
  have h2 := slice_two fdiff start re im (by omega)
  rw [hlr, hli] at h2
  obtain ⟨f1, h3, h4⟩ := exBind_ok h2
  rw [h3]
  simp only [Except.bind]
  rw [h4]
  simp only [Except.map]
  have : (kResid m k).map Fl.fin = re ++ im := by simp [kResid, hre, him]
  rw [this]
  congr 2
  · rw [show k.kimage.grid.size + k.kimage.grid.size = 2 * k.kimage.grid.size by omega]
  · omega

theorem residAll_eq (mem : KMem) : ∀ (ks : List KObs) (ms : List (List ℂ)) (fdiff : List Fl) (start : ℕ),
    (∀ k ∈ ks, KSized k) → KReady ks mem → Holds mem ks ms →
    List.Forall₂ (fun k (m : List ℂ) => m.length = k.kimage.grid.size) ks ms →
    start + 2 * (ks.map fun k => k.kimage.grid.size).sum ≤ fdiff.length →
    residAll mem ks fdiff start = .ok (fdiff.take start ++ (kResids ms ks).map Fl.fin ++
      fdiff.drop (start + 2 * (ks.map fun k => k.kimage.grid.size).sum),
      start + 2 * (ks.map fun k => k.kimage.grid.size).sum) := by
  intro ks
  induction ks with
  | nil =>
    intro ms fdiff start _ _ hh _ _
    cases hh
    simp [residAll, kResids]
  | cons k ks ih =>
    intro ms fdiff start hk hr hh hl h
    cases hh with
    | cons h1 hh =>
    cases hl with
    | cons l1 hl =>
    rename_i m ms'
    simp only [List.map_cons, List.sum_cons] at h ⊢
    unfold residAll
    have hk1 := hk k (by simp)
    rw [residOne_eq mem k m hk1 (hr k (by simp)).1 (hr k (by simp)).2 h1 l1 fdiff start (by omega)]
    simp only [Except.bind]
    have hlen : (kResid m k).length = 2 * k.kimage.grid.size := kResid_length hk1 l1
    have htake : (fdiff.take start).length = start := by rw [List.length_take]; omega
    rw [ih ms' _ _ (fun k' hk' => hk k' (by simp [hk'])) (fun k' hk' => hr k' (by simp [hk'])) hh hl (by
      simp only [List.length_append, List.length_map, hlen, htake, List.length_drop]; omega)]
    congr 2
    · have e1 : (fdiff.take start ++ (kResid m k).map Fl.fin ++ fdiff.drop (start + 2 * k.kimage.grid.size)).take
          (start + 2 * k.kimage.grid.size) = fdiff.take start ++ (kResid m k).map Fl.fin := by
        rw [List.take_append_of_le_length (by simp [htake, hlen]), List.take_of_length_le (by simp [htake, hlen])]
      have e2 : (fdiff.take start ++ (kResid m k).map Fl.fin ++ fdiff.drop (start + 2 * k.kimage.grid.size)).drop
          (start + 2 * k.kimage.grid.size + 2 * (ks.map fun k => k.kimage.grid.size).sum) =
          fdiff.drop (start + 2 * (k.kimage.grid.size + (ks.map fun k => k.kimage.grid.size).sum)) := by
        rw [List.drop_append, List.drop_of_length_le (by simp [htake, hlen]), List.nil_append, List.drop_drop]
        congr 1
        simp only [List.length_append, htake, List.length_map, hlen]
        omega
      rw [e1, e2]
      simp [kResids]
    · omega

/-! ### Evaluations -/

/-- `calc_fdiff` as a function of the parameters. -/
theorem gsFdiff_frame (f : GSFit) (mem : KMem) (pars : List ℝ) (hr : KReady f.kobs.flatten mem) :
    SameFrame mem (gsFdiff G f mem pars).1 := by
  obtain ⟨-, d2, -, -⟩ := fillKAll_pure G f.kind pars f.kobs 0 mem hr
  have h1 : (gsFdiff G f mem pars).1 = (fillKAll G f.kind pars 0 f.kobs mem).1 := by
    unfold gsFdiff gsFdiffTry fillModels
    rcases hx : fillKAll G f.kind pars 0 f.kobs mem with ⟨m1, e | u⟩
    · cases e <;> rfl
    · simp only [rtToRange]
      generalize (fillPriors f.prior pars (List.replicate f.fdiffSize (.fin 0))).bind _ = r
      rcases r with e | r
      · cases e <;> rfl
      · rfl
  rw [h1]
  exact d2

/-- The residuals as a function of the parameters: images, priors, residuals. -/
theorem gsFdiff_value (f : GSFit) (mem : KMem) (pars : List ℝ) (hr : KReady f.kobs.flatten mem) (ho : OwnMeta f.kobs) :
    (∀ e, imgsAll G f.kind pars 0 f.kobs = .error e →
      (gsFdiff G f mem pars).2 = if e = .runtime ∨ e = .gmixRange then .ok (List.replicate f.fdiffSize .ninf)
        else .error e) ∧
    (∀ ms, imgsAll G f.kind pars 0 f.kobs = .ok ms →
      (∀ e, fillPriors f.prior pars (List.replicate f.fdiffSize (.fin 0)) = .error e →
        (gsFdiff G f mem pars).2 = if e = .gmixRange then .ok (List.replicate f.fdiffSize .ninf) else .error e) ∧
      (∀ pri start, fillPriors f.prior pars (List.replicate f.fdiffSize (.fin 0)) = .ok (pri, start) →
        ∃ mem1, KReady f.kobs.flatten mem1 ∧ Holds mem1 f.kobs.flatten ms.flatten ∧
          (gsFdiff G f mem pars).2 = match (residAll mem1 f.kobs.flatten pri start).map (fun r => r.1) with
            | .error .gmixRange => .ok (List.replicate f.fdiffSize .ninf)
            | r => r)) := by
  obtain ⟨d1, d2, d3, d4⟩ := fillKAll_pure G f.kind pars f.kobs 0 mem hr
  unfold gsFdiff gsFdiffTry fillModels
  rcases hx : fillKAll G f.kind pars 0 f.kobs mem with ⟨m1, e | u⟩
  · rw [hx] at d1
    rcases hi : imgsAll G f.kind pars 0 f.kobs with e' | ms
    · rw [hi] at d1
      simp only [Except.map, Except.error.injEq] at d1
      subst d1
      refine ⟨fun e' he' => ?_, by simp⟩
      simp only [Except.error.injEq] at he'
      subst he'
      cases e <;> simp [rtToRange]
    · rw [hi] at d1; simp [Except.map] at d1
  · rw [hx] at d1 d2 d4
    rcases hi : imgsAll G f.kind pars 0 f.kobs with e' | ms
    · rw [hi] at d1; simp [Except.map] at d1
    refine ⟨by simp, fun ms' hms => ?_⟩
    simp only [Except.ok.injEq] at hms
    subst hms
    refine ⟨fun e he => ?_, fun pri start hp => ?_⟩
    · simp only [rtToRange, he, Except.bind]
      cases e <;> rfl
    · refine ⟨m1, hr.frame d2, d4 ho ms hi, ?_⟩
      simp only [rtToRange, hp, Except.bind]
      generalize (residAll m1 f.kobs.flatten pri start).map (fun r => r.1) = r
      rcases r with e | r
      · cases e <;> rfl
      · rfl

theorem residAll_holds (mem mem' : KMem) : ∀ (ks : List KObs) (ms : List (List ℂ)) (fdiff : List Fl) (start : ℕ),
    KReady ks mem → KReady ks mem' → Holds mem ks ms → Holds mem' ks ms →
    residAll mem ks fdiff start = residAll mem' ks fdiff start := by
  intro ks
  induction ks with
  | nil => intros; rfl
  | cons k ks ih =>
    intro ms fdiff start h1 h2 h3 h4
    cases h3 with
    | cons a1 a2 =>
    cases h4 with
    | cons b1 b2 =>
    have e1 : residOne mem k fdiff start = residOne mem' k fdiff start := by
      unfold residOne
      simp only [(h1 k (by simp)).1, (h1 k (by simp)).2, (h2 k (by simp)).1, (h2 k (by simp)).2, a1, b1]
    unfold residAll
    rw [e1]
    congr 1
    funext r
    exact ih _ _ _ (fun k' hk' => h1 k' (by simp [hk'])) (fun k' hk' => h2 k' (by simp [hk'])) a2 b2

/-- The residuals do not depend on the memory. -/
theorem gsFdiff_pure (f : GSFit) (mem mem' : KMem) (pars : List ℝ) (hr : KReady f.kobs.flatten mem)
    (hr' : KReady f.kobs.flatten mem') (ho : OwnMeta f.kobs) :
    (gsFdiff G f mem pars).2 = (gsFdiff G f mem' pars).2 := by
  obtain ⟨a1, a2⟩ := gsFdiff_value G f mem pars hr ho
  obtain ⟨b1, b2⟩ := gsFdiff_value G f mem' pars hr' ho
  rcases hi : imgsAll G f.kind pars 0 f.kobs with e | ms
  · rw [a1 e hi, b1 e hi]
  · obtain ⟨a3, a4⟩ := a2 ms hi
    obtain ⟨b3, b4⟩ := b2 ms hi
    rcases hp : fillPriors f.prior pars (List.replicate f.fdiffSize (.fin 0)) with e | ⟨pri, start⟩
    · rw [a3 e hp, b3 e hp]
    · obtain ⟨m1, p1, p2, p3⟩ := a4 pri start hp
      obtain ⟨m2, q1, q2, q3⟩ := b4 pri start hp
      rw [p3, q3, residAll_holds m1 m2 _ _ pri start p1 q1 p2 q2]

/-! ### The constructor -/

theorem init_other : ∀ (ks : List KObs) (mem : KMem) (a : ℕ), (∀ k ∈ ks, k.meta_ ≠ a) → initImages ks mem a = mem a := by
  intro ks
  induction ks with
  | nil => intros; rfl
  | cons k ks ih =>
    intro mem a h
    unfold initImages
    rw [ih _ _ fun k' hk' => h k' (by simp [hk'])]
    rw [if_neg fun h' => h k (by simp) h'.symm]

theorem init_ready : ∀ (ks : List KObs) (mem : KMem), (ks.map KObs.meta_).Nodup → KReady ks (initImages ks mem) := by
  intro ks
  induction ks with
  | nil => intro mem _ k hk; cases hk
  | cons k ks ih =>
    intro mem hn k' hk'
    simp only [List.map_cons, List.nodup_cons] at hn
    unfold initImages
    rcases List.mem_cons.mp hk' with rfl | hk'
    · rw [init_other _ _ _ fun k'' hk'' h => hn.1 (by rw [← h]; exact List.mem_map_of_mem hk'')]
      simp
    · exact ih _ hn.2 k' hk'

theorem new_parts {kind : GSKind} {prior : Option JointPrior} {kobs : List (List KObs)} {guess : List ℝ}
    {mem mem' : KMem} {f : GSFit} (h : newGSFit G kind prior kobs guess mem = (mem', .ok f)) :
    f = ⟨kind, prior, kobs⟩ ∧ mem' = initImages kobs.flatten mem ∧ guess.length = f.npars := by
  unfold newGSFit at h
  extract_lets known f0 mem1 at h
  split at h
  · injection h with h1 h2
    cases h2
  split at h
  · injection h with h1 h2
    cases h2
  rename_i hl
  injection h with h1 h2
  obtain ⟨u, -, h3⟩ := exMap_ok h2
  subst h3
  exact ⟨rfl, h1.symm, not_not.mp hl⟩

theorem new_ready {kind : GSKind} {prior : Option JointPrior} {kobs : List (List KObs)} {guess : List ℝ}
    {mem mem' : KMem} {f : GSFit} (h : newGSFit G kind prior kobs guess mem = (mem', .ok f)) (ho : OwnMeta kobs) :
    KReady f.kobs.flatten mem' ∧ OwnMeta f.kobs := by
  obtain ⟨rfl, rfl, -⟩ := new_parts G h
  exact ⟨init_ready _ _ ho, ho⟩

/-! ### `calc_s2n_r` -/

theorem drawOne_grid (gal : G.Obj) (k : KObs) (mem : KMem) (hr : (mem k.meta_).kmodel.grid = k.kimage.grid) :
    ((drawOne G gal k mem).1 k.meta_).kmodel.grid = k.kimage.grid := by
  rw [((drawOne_pure G gal k mem hr).2.1 _).1, hr]

theorem power_sums (m : List ℂ) (w : List ℝ) :
    ((List.zipWith (fun (z : ℂ) w => (⟨z.re * z.re * w, z.im * z.im * w⟩ : ℂ)) m w).map Complex.re).sum +
    ((List.zipWith (fun (z : ℂ) w => (⟨z.re * z.re * w, z.im * z.im * w⟩ : ℂ)) m w).map Complex.im).sum =
    ((m.zip w).map fun x => x.2 * (x.1.re ^ 2 + x.1.im ^ 2)).sum := by
  induction m generalizing w with
  | nil => simp
  | cons a m ih =>
    cases w with
    | nil => simp
    | cons b w =>
      simp only [List.zipWith_cons_cons, List.map_cons, List.sum_cons, List.zip_cons_cons]
      rw [← ih w]
      ring

/-- Total weighted power. -/
def totPower (ms : List (List ℂ)) (ks : List KObs) : ℝ := ((ms.zip ks).map fun x => kPower x.1 x.2).sum

theorem s2nOne_frame (kind : GSKind) (bp : List ℝ) (k : KObs) (mem : KMem) (acc : ℝ)
    (hr : (mem k.meta_).kmodel.grid = k.kimage.grid) : SameFrame mem (s2nOne G kind bp k mem acc).1 := by
  unfold s2nOne
  rcases gsModel G kind (roundPars bp) with e | gal
  · exact SameFrame.refl _
  obtain ⟨-, d2, -, -⟩ := drawOne_pure G gal k mem hr
  rcases hd : drawOne G gal k mem with ⟨mem1, e | u⟩
  · rw [hd] at d2
    simp only [hd]
    exact d2
  · rw [hd] at d2
    simp only [hd]
    split
    · exact d2
    · exact d2.trans (setModel_frame _ _ _)

theorem s2nOne_value (kind : GSKind) (bp : List ℝ) (k : KObs) (mem : KMem) (acc : ℝ)
    (hr : (mem k.meta_).kmodel.grid = k.kimage.grid) (hk : KSized k) :
    (s2nOne G kind bp k mem acc).2 = (gsModel G kind (roundPars bp)).bind fun gal =>
      (pureImg G gal k).map fun m => acc + kPower m k := by
  unfold s2nOne
  rcases gsModel G kind (roundPars bp) with e | gal
  · rfl
  obtain ⟨d1, d2, -, d4⟩ := drawOne_pure G gal k mem hr
  have d5 := drawOne_grid G gal k mem hr
  rcases hd : drawOne G gal k mem with ⟨mem1, e | u⟩
  · rw [hd] at d1
    simp only [hd, Except.bind]
    rcases hi : pureImg G gal k with e' | m
    · rw [hi] at d1; simpa [Except.map] using d1
    · rw [hi] at d1; simp [Except.map] at d1
  · rw [hd] at d1 d4 d5
    rcases hi : pureImg G gal k with e' | m
    · rw [hi] at d1; simp [Except.map] at d1
    have d6 := d4 m hi
    dsimp only at d5 d6
    simp only [hd, Except.bind, hi, Except.map]
    rw [if_neg (by rw [d5, hk.wshape.1, hk.wshape.2]; simp)]
    simp only [Except.ok.injEq]
    rw [d6, add_assoc, power_sums]
    rfl

theorem s2nKBand_pure (kind : GSKind) (bp : List ℝ) : ∀ (ks : List KObs) (mem : KMem) (acc : ℝ), KReady ks mem →
    SameFrame mem (s2nKBand G kind bp ks mem acc).1 ∧
    ((∀ k ∈ ks, KSized k) → (s2nKBand G kind bp ks mem acc).2 =
      (imgsBand G kind (roundPars bp) ks).map fun ms => acc + totPower ms ks) := by
  intro ks
  induction ks with
  | nil => intro mem acc _; exact ⟨SameFrame.refl _, fun _ => by simp [s2nKBand, imgsBand, Except.map, totPower]⟩
  | cons k ks ih =>
    intro mem acc hr
    have f1 := s2nOne_frame G kind bp k mem acc (hr k (by simp)).1
    have v1 := s2nOne_value G kind bp k mem acc (hr k (by simp)).1
    unfold s2nKBand imgsBand
    rcases hd : s2nOne G kind bp k mem acc with ⟨mem1, e | a⟩
    · rw [hd] at f1 v1
      simp only [hd]
      refine ⟨f1, fun hk => ?_⟩
      have v2 := v1 (hk k (by simp))
      rcases hg : gsModel G kind (roundPars bp) with e' | gal <;> rw [hg] at v2
      · simpa [Except.bind, Except.map] using v2
      · simp only [Except.bind] at v2 ⊢
        rcases hi : pureImg G gal k with e' | m <;> rw [hi] at v2
        · simpa [Except.map] using v2
        · simp [Except.map] at v2
    · rw [hd] at f1 v1
      simp only [hd]
      obtain ⟨f2, v2⟩ := ih mem1 a (KReady.frame (fun k' hk' => hr k' (by simp [hk'])) f1)
      refine ⟨f1.trans f2, fun hk => ?_⟩
      have v3 := v1 (hk k (by simp))
      rw [v2 fun k' hk' => hk k' (by simp [hk'])]
      rcases hg : gsModel G kind (roundPars bp) with e' | gal <;> rw [hg] at v3
      · simp [Except.bind] at v3
      · simp only [Except.bind] at v3 ⊢
        rcases hi : pureImg G gal k with e' | m <;> rw [hi] at v3
        · simp [Except.map] at v3
        · simp only [Except.map, Except.ok.injEq] at v3 ⊢
          subst v3
          rcases imgsBand G kind (roundPars bp) ks with e' | ms
          · rfl
          · simp only [totPower, List.zip_cons_cons, List.map_cons, List.sum_cons, add_assoc]

theorem bandPars_round (kind : GSKind) (pars : List ℝ) (b : ℕ) :
    kind.bandPars (roundPars pars) b = (kind.bandPars pars b).map roundPars := by
  have key : ∀ n, takeBand (n + 5) (roundPars pars) b = (takeBand (n + 5) pars b).map roundPars := by
    intro n
    match pars with
    | [] => simp [takeBand, roundPars, Except.map]
    | [_] => simp [takeBand, roundPars, Except.map]
    | [_, _] => simp [takeBand, roundPars, Except.map]
    | [_, _, _] => simp [takeBand, roundPars, Except.map]
    | c1 :: c2 :: g1 :: g2 :: l =>
      unfold takeBand roundPars
      simp only [List.length_cons]
      by_cases h : l.length + 1 + 1 + 1 + 1 < n + 5
      · simp only [if_pos h]
        split <;> rfl
      · simp only [if_neg h]
        have e : ∀ x y : ℝ, (c1 :: c2 :: x :: y :: l)[n + 5 + b]? = l[n + 1 + b]? := by
          intro x y
          rw [show n + 5 + b = (n + 1 + b) + 4 by omega]
          rfl
        rw [e, e]
        rcases l[n + 1 + b]? with _ | F
        · rfl
        · rfl
  cases kind with
  | simple name => exact key 0
  | spergel => exact key 1
  | moffat => exact key 1

theorem s2nKAll_pure (kind : GSKind) (pars : List ℝ) : ∀ (kobs : List (List KObs)) (b : ℕ) (mem : KMem) (acc : ℝ),
    KReady kobs.flatten mem →
    SameFrame mem (s2nKAll G kind pars b kobs mem acc).1 ∧
    ((∀ k ∈ kobs.flatten, KSized k) → (s2nKAll G kind pars b kobs mem acc).2 =
      (imgsAll G kind (roundPars pars) b kobs).map fun ms => acc + ((ms.zip kobs).map fun x => totPower x.1 x.2).sum) := by
  intro kobs
  induction kobs with
  | nil => intro b mem acc _; exact ⟨SameFrame.refl _, fun _ => by simp [s2nKAll, imgsAll, Except.map]⟩
  | cons ks rest ih =>
    intro b mem acc hr
    have hr0 : KReady ks mem := fun k hk => hr k (by simp [hk])
    unfold s2nKAll imgsAll
    rw [bandPars_round]
    rcases kind.bandPars pars b with e | bp
    · exact ⟨SameFrame.refl _, fun _ => rfl⟩
    obtain ⟨f1, v1⟩ := s2nKBand_pure G kind bp ks mem acc hr0
    rcases hd : s2nKBand G kind bp ks mem acc with ⟨mem1, e | a⟩
    · rw [hd] at f1 v1
      simp only [hd]
      refine ⟨f1, fun hk => ?_⟩
      have v2 := v1 fun k hk' => hk k (by simp [hk'])
      simp only [Except.bind, Except.map]
      rcases hi : imgsBand G kind (roundPars bp) ks with e' | m
      · rw [hi] at v2; simpa [Except.map] using v2
      · rw [hi] at v2; simp [Except.map] at v2
    · rw [hd] at f1 v1
      simp only [hd]
      obtain ⟨f2, v2⟩ := ih (b + 1) mem1 a (KReady.frame (fun k' hk' => hr k' (by
        simp only [List.flatten_cons, List.mem_append]; exact .inr hk')) f1)
      refine ⟨f1.trans f2, fun hk => ?_⟩
      have v3 := v1 fun k hk' => hk k (by simp [hk'])
      rw [v2 fun k' hk' => hk k' (by simp only [List.flatten_cons, List.mem_append]; exact .inr hk')]
      simp only [Except.bind, Except.map]
      rcases hi : imgsBand G kind (roundPars bp) ks with e' | m
      · rw [hi] at v3; simp [Except.map] at v3
      · rw [hi] at v3
        simp only [Except.map, Except.ok.injEq] at v3 ⊢
        subst v3
        rcases imgsAll G kind (roundPars pars) (b + 1) rest with e' | ms
        · rfl
        · simp only [List.zip_cons_cons, List.map_cons, List.sum_cons, add_assoc]

/-- The signal to noise ratio leaves pixels and errors alone. -/
theorem calcS2nR_frame (f : GSFit) (mem : KMem) (pars : List ℝ) (hr : KReady f.kobs.flatten mem) :
    SameFrame mem (calcS2nR G f mem pars).1 := (s2nKAll_pure G f.kind pars f.kobs 0 mem 0.0 hr).1

/-! ### The images are those of the specification -/

theorem rtToRange_ok {α : Type} (x : Except PyErr α) (a : α) : rtToRange x = .ok a ↔ x = .ok a := by
  rcases x with e | y
  · cases e <;> simp [rtToRange]
  · simp [rtToRange]

theorem valToRange_ok {α : Type} (x : Except PyErr α) (a : α) : valToRange x = .ok a ↔ x = .ok a := by
  rcases x with e | y
  · cases e <;> simp [valToRange]
  · simp [valToRange]

theorem bind_iff {α β : Type} (x : Except PyErr α) (f : α → Except PyErr β) (b : β) :
    x.bind f = .ok b ↔ ∃ a, x = .ok a ∧ f a = .ok b := by
  rcases x with e | a <;> simp [Except.bind]

theorem takeBand_ok {n : ℕ} {pars bp : List ℝ} {b : ℕ} (h : takeBand n pars b = .ok bp) :
    n ≤ pars.length ∧ ∃ F, pars[n + b]? = some F ∧ bp = pars.take n ++ [F] := by
  unfold takeBand at h
  by_cases hl : pars.length < n
  · rw [if_pos hl] at h
    split at h <;> cases h
  · rw [if_neg hl] at h
    rcases hF : pars[n + b]? with _ | F
    · rw [hF] at h; cases h
    · rw [hF] at h
      simp only [Except.ok.injEq] at h
      exact ⟨by omega, F, rfl, h.symm⟩

theorem galaxy_iff {kind : GSKind} {pars bp : List ℝ} {b : ℕ} (h : kind.bandPars pars b = .ok bp) (gal : G.Obj) :
    gsModel G kind bp = .ok gal ↔ Galaxy G kind pars b gal := by
  obtain ⟨hl, F, hF, rfl⟩ := takeBand_ok h
  cases kind with
  | simple name =>
    simp only [GSKind.lead] at hl hF ⊢
    match pars with
    | [] | [_] | [_, _] | [_, _, _] | [_, _, _, _] => simp at hl
    | c1 :: c2 :: g1 :: g2 :: r :: fl =>
      have hF' : fl[b]? = some F := by
        rw [← hF, show 5 + b = b + 5 by omega]; rfl
      have hx : (c1 :: c2 :: g1 :: g2 :: r :: fl).take 5 ++ [F] = [c1, c2, g1, g2, r, F] := rfl
      rw [hx]
      simp only [gsModel, gsRound, bind_iff, valToRange_ok]
      constructor
      · rintro ⟨o1, h1, o2, h2, h3⟩
        by_cases hr : r < 0.0001
        · rw [if_pos hr] at h1; cases h1
        · rw [if_neg hr, rtToRange_ok] at h1
          exact .simple name c1 c2 g1 g2 r F fl b o1 o2 gal hF' (not_lt.mp hr) h1 h2 h3
      · intro hG
        cases hG with
        | simple _ _ _ _ _ _ F' _ _ o1 o2 _ hF2 hr h1 h2 h3 =>
          rw [hF'] at hF2
          cases hF2
          exact ⟨o1, by rw [if_neg (not_lt.mpr hr), rtToRange_ok]; exact h1, o2, h2, h3⟩
  | spergel =>
    simp only [GSKind.lead] at hl hF ⊢
    match pars with
    | [] | [_] | [_, _] | [_, _, _] | [_, _, _, _] | [_, _, _, _, _] => simp at hl
    | c1 :: c2 :: g1 :: g2 :: r :: nu :: fl =>
      have hF' : fl[b]? = some F := by
        rw [← hF, show 6 + b = b + 6 by omega]; rfl
      have hx : (c1 :: c2 :: g1 :: g2 :: r :: nu :: fl).take 6 ++ [F] = [c1, c2, g1, g2, r, nu, F] := rfl
      rw [hx]
      simp only [gsModel, gsRound, bind_iff, valToRange_ok, rtToRange_ok]
      constructor
      · rintro ⟨o1, h1, o2, h2, h3⟩
        exact .spergel c1 c2 g1 g2 r nu F fl b o1 o2 gal hF' h1 h2 h3
      · intro hG
        cases hG with
        | spergel _ _ _ _ _ _ F' _ _ o1 o2 _ hF2 h1 h2 h3 =>
          rw [hF'] at hF2
          cases hF2
          exact ⟨o1, h1, o2, h2, h3⟩
  | moffat =>
    simp only [GSKind.lead] at hl hF ⊢
    match pars with
    | [] | [_] | [_, _] | [_, _, _] | [_, _, _, _] | [_, _, _, _, _] => simp at hl
    | c1 :: c2 :: g1 :: g2 :: r :: nu :: fl =>
      have hF' : fl[b]? = some F := by
        rw [← hF, show 6 + b = b + 6 by omega]; rfl
      have hx : (c1 :: c2 :: g1 :: g2 :: r :: nu :: fl).take 6 ++ [F] = [c1, c2, g1, g2, r, nu, F] := rfl
      rw [hx]
      simp only [gsModel, gsRound, bind_iff, valToRange_ok, rtToRange_ok]
      constructor
      · rintro ⟨o1, h1, o2, h2, h3⟩
        exact .moffat c1 c2 g1 g2 r nu F fl b o1 o2 gal hF' h1 h2 h3
      · intro hG
        cases hG with
        | moffat _ _ _ _ _ _ F' _ _ o1 o2 _ hF2 h1 h2 h3 =>
          rw [hF'] at hF2
          cases hF2
          exact ⟨o1, h1, o2, h2, h3⟩

theorem pureImg_iff (gal : G.Obj) (k : KObs) (hk : KSized k) (m : List ℂ) :
    pureImg G gal k = .ok m ↔ ∃ d, G.drawK gal k.kimage.grid = .ok d ∧ (k.psf = none → m = List.ofFn d) ∧
      ∀ p, k.psf = some p → m = ((List.ofFn d).zip p.kimage.data).map fun x => x.1 * x.2 := by
  unfold pureImg
  rw [bind_iff]
  refine exists_congr fun d => and_congr_right fun _ => ?_
  rcases hp : k.psf with _ | p
  · simp [eq_comm]
  · obtain ⟨h1, h2, -⟩ := hk.psf p hp
    simp only [kMul, h1, h2, ne_eq, not_true_eq_false, if_false, Except.ok.injEq, reduceCtorEq, false_implies, true_and,
      Option.some.injEq, forall_eq']
    rw [List.zip_eq_zipWith, List.map_zipWith]
    exact eq_comm

theorem imgsBand_iff {kind : GSKind} {pars bp : List ℝ} {b : ℕ} (h : kind.bandPars pars b = .ok bp) :
    ∀ (ks : List KObs) (ms : List (List ℂ)), (∀ k ∈ ks, KSized k) →
    (imgsBand G kind bp ks = .ok ms ↔ List.Forall₂ (ModelImage G kind pars b) ks ms) := by
  intro ks
  induction ks with
  | nil =>
    intro ms _
    simp [imgsBand, eq_comm]
  | cons k ks ih =>
    intro ms hk
    unfold imgsBand
    constructor
    · intro hi
      obtain ⟨gal, hg, hi⟩ := exBind_ok hi
      obtain ⟨m, hm, hi⟩ := exBind_ok hi
      obtain ⟨ms', h1, rfl⟩ := exMap_ok hi
      obtain ⟨d, hd⟩ := (pureImg_iff G gal k (hk k (by simp)) m).mp hm
      exact .cons ⟨gal, d, (galaxy_iff G h gal).mp hg, hd⟩ ((ih ms' fun k' hk' => hk k' (by simp [hk'])).mp h1)
    · intro hi
      cases hi with
      | cons hm hms =>
        obtain ⟨gal, d, hg, hd⟩ := hm
        rw [(galaxy_iff G h gal).mpr hg]
        simp only [Except.bind]
        rw [(pureImg_iff G gal k (hk k (by simp)) _).mpr ⟨d, hd⟩]
        simp only
        rw [(ih _ fun k' hk' => hk k' (by simp [hk'])).mpr hms]
        rfl

theorem takeBand_some {n : ℕ} {pars : List ℝ} {b : ℕ} (h : n + b < pars.length) : ∃ bp, takeBand n pars b = .ok bp := by
  unfold takeBand
  rw [if_neg (by omega), List.getElem?_eq_getElem h]
  exact ⟨_, rfl⟩

/-- For parameters of the right number the images are those of the specification. -/
theorem imgsAll_iff {kind : GSKind} {pars : List ℝ} : ∀ (kobs : List (List KObs)) (b : ℕ) (ms : List (List (List ℂ))),
    kind.lead + (b + kobs.length) ≤ pars.length → (∀ k ∈ kobs.flatten, KSized k) →
    (imgsAll G kind pars b kobs = .ok ms ↔ ModelImages G kind pars b kobs ms) := by
  intro kobs
  induction kobs with
  | nil =>
    intro b ms _ _
    simp [imgsAll, ModelImages, eq_comm]
  | cons ks rest ih =>
    intro b ms hl hk
    simp only [List.length_cons] at hl
    obtain ⟨bp, hbp⟩ := takeBand_some (n := kind.lead) (pars := pars) (b := b) (by omega)
    have hb := imgsBand_iff G (kind := kind) hbp ks
    have hr := ih (b + 1)
    unfold imgsAll ModelImages
    have hbp' : kind.bandPars pars b = .ok bp := hbp
    rw [hbp']
    simp only [Except.bind]
    constructor
    · intro hi
      obtain ⟨m, hm, hi⟩ := exBind_ok hi
      obtain ⟨ms', h1, rfl⟩ := exMap_ok hi
      exact ⟨m, ms', rfl, (hb m fun k hk' => hk k (by simp [hk'])).mp hm,
        (hr ms' (by omega) fun k hk' => hk k (by simp only [List.flatten_cons, List.mem_append]; exact .inr hk')).mp h1⟩
    · rintro ⟨m, ms', rfl, h1, h2⟩
      rw [(hb m fun k hk' => hk k (by simp [hk'])).mpr h1]
      simp only
      rw [(hr ms' (by omega) fun k hk' => hk k (by
        simp only [List.flatten_cons, List.mem_append]; exact .inr hk')).mpr h2]
      rfl

/-- The exceptions of the images when GalSim raises only its own. -/
theorem imgsAll_err {kind : GSKind} {pars : List ℝ} (hG : GalsimErrs G) : ∀ (kobs : List (List KObs)) (b : ℕ) (e : PyErr),
    kind.lead + (b + kobs.length) ≤ pars.length →
    imgsAll G kind pars b kobs = .error e → e = .runtime ∨ e = .gmixRange := by
  have hgs : ∀ (b : ℕ) bp e, kind.bandPars pars b = .ok bp → gsModel G kind bp = .error e → e = .runtime ∨ e = .gmixRange := by
    intro b bp e hbp he
    obtain ⟨hl, F, hF, rfl⟩ := takeBand_ok hbp
    have hround : ∀ (x : Option ℝ) (r F : ℝ) e, rtToRange (G.round kind x r F) = .error e → e = .gmixRange := by
      intro x r F e h
      rcases ho : G.round kind x r F with e' | o
      · have := hG.round _ _ _ _ _ ho
        subst this
        rw [ho] at h
        simpa [rtToRange] using h.symm
      · rw [ho] at h; simp [rtToRange] at h
    have hrest : ∀ (o : G.Obj) (g1 g2 c1 c2 : ℝ) e,
        ((valToRange (G.shear o g1 g2)).bind fun m => G.shift m c1 c2) = .error e → e = .runtime ∨ e = .gmixRange := by
      intro o g1 g2 c1 c2 e h
      rcases ho : G.shear o g1 g2 with e' | o'
      · rw [ho] at h
        rcases hG.shear _ _ _ _ ho with rfl | rfl
        · simp only [valToRange, Except.bind, Except.error.injEq] at h; exact .inr h.symm
        · simp only [valToRange, Except.bind, Except.error.injEq] at h; exact .inl h.symm
      · rw [ho] at h
        simp only [valToRange, Except.bind] at h
        exact .inl (hG.shift _ _ _ _ h)
    have hsplit : ∀ (x : Except PyErr G.Obj) (f : G.Obj → Except PyErr G.Obj) e, x.bind f = .error e →
        x = .error e ∨ ∃ o, f o = .error e := by
      intro x f e h
      rcases x with e' | o
      · left; simpa [Except.bind] using h
      · exact .inr ⟨o, h⟩
    cases kind with
    | simple name =>
      simp only [GSKind.lead] at hl hF he
      match pars with
      | [] | [_] | [_, _] | [_, _, _] | [_, _, _, _] => simp at hl
      | c1 :: c2 :: g1 :: g2 :: r :: fl =>
        have hx : (c1 :: c2 :: g1 :: g2 :: r :: fl).take 5 ++ [F] = [c1, c2, g1, g2, r, F] := rfl
        rw [hx] at he
        rcases hsplit _ _ _ he with h | ⟨o, h⟩
        · simp only [gsRound] at h
          split at h
          · right; simpa using h.symm
          · exact .inr (hround _ _ _ _ h)
        · exact hrest _ _ _ _ _ _ h
    | spergel =>
      simp only [GSKind.lead] at hl hF he
      match pars with
      | [] | [_] | [_, _] | [_, _, _] | [_, _, _, _] | [_, _, _, _, _] => simp at hl
      | c1 :: c2 :: g1 :: g2 :: r :: nu :: fl =>
        have hx : (c1 :: c2 :: g1 :: g2 :: r :: nu :: fl).take 6 ++ [F] = [c1, c2, g1, g2, r, nu, F] := rfl
        rw [hx] at he
        rcases hsplit _ _ _ he with h | ⟨o, h⟩
        · exact .inr (hround _ _ _ _ h)
        · exact hrest _ _ _ _ _ _ h
    | moffat =>
      simp only [GSKind.lead] at hl hF he
      match pars with
      | [] | [_] | [_, _] | [_, _, _] | [_, _, _, _] | [_, _, _, _, _] => simp at hl
      | c1 :: c2 :: g1 :: g2 :: r :: nu :: fl =>
        have hx : (c1 :: c2 :: g1 :: g2 :: r :: nu :: fl).take 6 ++ [F] = [c1, c2, g1, g2, r, nu, F] := rfl
        rw [hx] at he
        rcases hsplit _ _ _ he with h | ⟨o, h⟩
        · exact .inr (hround _ _ _ _ h)
        · exact hrest _ _ _ _ _ _ h
  have himg : ∀ gal k e, pureImg G gal k = .error e → e = .runtime := by
    intro gal k e h
    unfold pureImg at h
    rcases hd : G.drawK gal k.kimage.grid with e' | d
    · rw [hd] at h
      simp only [Except.bind, Except.error.injEq] at h
      subst h
      exact hG.draw _ _ _ hd
    · rw [hd] at h
      simp only [Except.bind] at h
      rcases hp : k.psf with _ | p
      · rw [hp] at h; simp at h
      · rw [hp] at h
        simp only [kMul] at h
        split at h
        · simpa using h.symm
        · simp at h
  have hband : ∀ (b : ℕ) bp, kind.bandPars pars b = .ok bp → ∀ ks e, imgsBand G kind bp ks = .error e →
      e = .runtime ∨ e = .gmixRange := by
    intro b bp hbp ks
    induction ks with
    | nil => intro e h; simp [imgsBand] at h
    | cons k ks ih =>
      intro e h
      unfold imgsBand at h
      rcases hg : gsModel G kind bp with e' | gal
      · rw [hg] at h
        simp only [Except.bind, Except.error.injEq] at h
        subst h
        exact hgs b bp _ hbp hg
      · rw [hg] at h
        simp only [Except.bind] at h
        rcases hi : pureImg G gal k with e' | m
        · rw [hi] at h
          simp only [Except.error.injEq] at h
          subst h
          exact .inl (himg _ _ _ hi)
        · rw [hi] at h
          simp only at h
          rcases hr : imgsBand G kind bp ks with e' | ms
          · rw [hr] at h
            simp only [Except.map, Except.error.injEq] at h
            subst h
            exact ih _ hr
          · rw [hr] at h; simp [Except.map] at h
  intro kobs
  induction kobs with
  | nil => intro b e _ h; simp [imgsAll] at h
  | cons ks rest ih =>
    intro b e hl h
    simp only [List.length_cons] at hl
    obtain ⟨bp, hbp⟩ := takeBand_some (n := kind.lead) (pars := pars) (b := b) (by omega)
    have hbp' : kind.bandPars pars b = .ok bp := hbp
    unfold imgsAll at h
    rw [hbp'] at h
    simp only [Except.bind] at h
    rcases hi : imgsBand G kind bp ks with e' | m
    · rw [hi] at h
      simp only [Except.error.injEq] at h
      subst h
      exact hband b bp hbp' _ _ hi
    · rw [hi] at h
      simp only at h
      rcases hr : imgsAll G kind pars (b + 1) rest with e' | ms
      · rw [hr] at h
        simp only [Except.map, Except.error.injEq] at h
        subst h
        exact ih _ _ (by omega) hr
      · rw [hr] at h; simp [Except.map] at h

end

end Ngmix.Proof.GalsimFit
