import Verif.Model.Meds
import Verif.Props.Jacobian
import Verif.Props.Simobs

/-!
# MEDS cutouts (C87)
-/

namespace Ngmix.Props

open Ngmix Ngmix.Spec

theorem kw6 (a b c d e f : ℝ) :
    let kw := Kw.ofList [("row", a), ("col", b), ("dudrow", c), ("dudcol", d), ("dvdrow", e), ("dvdcol", f)]
    ∃ j, Jacobian.new kw = .ok j ∧ JacWF j ∧ j.row0 = a ∧ j.col0 = b ∧ j.dvdrow = e ∧
      j.dvdcol = f ∧ j.dudrow = c ∧ j.dudcol = d :=
  C15_rowcol_construction _ _ _ _ _ _ _ (by rfl) rfl (by rfl) (by rfl) (by rfl) (by rfl) (by rfl) (by rfl)

/-- C87: the geometry of a cutout.  The centre of the file's jacobian is the origin of the tangent plane;
one row further changes `(v, u)` by `(dvdrow, dudrow)`, one column further by `(dvdcol, dudcol)`. -/
theorem C87_geometry {Img : Type} (f : MedsFile Img) (iobj icut : ℕ) :
    (∀ e, f.jac iobj icut = .error e → ngmixJacobian f iobj icut = .error e) ∧
    (∀ jd, f.jac iobj icut = .ok jd → ∃ j, ngmixJacobian f iobj icut = .ok j ∧ JacWF j ∧
      ∀ row col, j.getVU row col =
        (jd.dvdrow * (row - jd.row0) + jd.dvdcol * (col - jd.col0),
         jd.dudrow * (row - jd.row0) + jd.dudcol * (col - jd.col0))) := by
  unfold ngmixJacobian
  constructor
  · intro e h; rw [h]; rfl
  · intro jd h
    obtain ⟨j, h1, h2, h3, h4, h5, h6, h7, h8⟩ :=
      kw6 jd.row0 jd.col0 jd.dudrow jd.dudcol jd.dvdrow jd.dvdcol
    refine ⟨j, by rw [h]; exact h1, h2, ?_⟩
    intro row col
    unfold Jacobian.getVU
    simp only [h3, h4, h5, h6, h7, h8]

theorem foldl_max_spec (xs : List ℝ) (x : ℝ) :
    xs.foldl max x ∈ x :: xs ∧ ∀ y ∈ x :: xs, y ≤ xs.foldl max x := by
  induction xs generalizing x with
  | nil => simp
  | cons a xs ih =>
    obtain ⟨h1, h2⟩ := ih (max x a)
    rw [List.foldl_cons]
    constructor
    · rcases List.mem_cons.1 h1 with h | h
      · rw [h]
        rcases max_choice x a with h | h <;> rw [h] <;> simp
      · exact List.mem_cons_of_mem _ (List.mem_cons_of_mem _ h)
    · have hm := h2 (max x a) List.mem_cons_self
      intro y hy
      rcases List.mem_cons.1 hy with rfl | hy
      · exact (le_max_left _ _).trans hm
      · rcases List.mem_cons.1 hy with rfl | hy
        · exact (le_max_right _ _).trans hm
        · exact h2 y (List.mem_cons_of_mem _ hy)

/-- C87: the psf of a cutout.  The image is the file's; the weight map is constant, that of a noise of one
thousandth of the peak (infinite when the peak is zero); the geometry is that of the cutout with
its own centre. -/
theorem C87_psf {Img : Type} (f : MedsFile Img) (iobj icut : ℕ) (im : List ℝ) (jd : MedsJac) (peak : ℝ)
    (hi : f.psf iobj icut = .ok im) (hj : f.jac iobj icut = .ok jd)
    (hp : peak ∈ im ∧ ∀ y ∈ im, y ≤ peak) :
    ∃ o, psfObs f iobj icut = .ok o ∧ o.image = im ∧ o.weight.length = im.length ∧
      (peak ≠ 0 → ∀ w ∈ o.weight, w = .fin (1 / (peak / 1000) ^ 2) ∧ 0 < 1 / (peak / 1000) ^ 2) ∧
      (peak = 0 → ∀ w ∈ o.weight, w = .pinf) ∧ JacWF o.jacobian ∧
      ∀ row col, o.jacobian.getVU row col =
        (jd.dvdrow * (row - f.psfRow iobj icut) + jd.dvdcol * (col - f.psfCol iobj icut),
         jd.dudrow * (row - f.psfRow iobj icut) + jd.dudcol * (col - f.psfCol iobj icut)) := by
  obtain ⟨j, h1, h2, h3, h4, h5, h6, h7, h8⟩ :=
    kw6 jd.row0 jd.col0 jd.dudrow jd.dudcol jd.dvdrow jd.dvdcol
  have hjac : ngmixJacobian f iobj icut = .ok j := by unfold ngmixJacobian; rw [hj]; exact h1
  have hmax : arrMax im = .ok peak := by
    cases im with
    | nil => simp at hp
    | cons x xs =>
      obtain ⟨m1, m2⟩ := foldl_max_spec xs x
      exact congrArg Except.ok (le_antisymm (hp.2 _ m1) (m2 _ hp.1))
  have hset := (C15_set_cen j (Kw.ofList [("row", f.psfRow iobj icut), ("col", f.psfCol iobj icut)])).1
    (f.psfRow iobj icut) (f.psfCol iobj icut) rfl rfl
  have hwf := (C15_set_cen j (Kw.ofList [("row", f.psfRow iobj icut), ("col", f.psfCol iobj icut)])).2.2.2.2 h2
  rw [hset] at hwf
  refine ⟨⟨im, im.map fun x => (.fin (x * 0) : Fl) + .fin 1 / .fin ((peak / 1000) ^ 2), _⟩, ?_, rfl, by simp, ?_, ?_,
    hwf.1, ?_⟩
  · unfold psfObs
    rw [hi]
    show (arrMax im).bind _ = _
    rw [hmax]
    show (ngmixJacobian f iobj icut).bind _ = _
    rw [hjac]
    simp only [Except.bind, hset]
  · intro hne w hw
    simp only [List.mem_map] at hw
    obtain ⟨x, -, rfl⟩ := hw
    have h0 : (peak / 1000) ^ 2 ≠ 0 := by positivity
    refine ⟨?_, by positivity⟩
    show Fl.add (.fin (x * 0)) (Fl.div (.fin 1) (.fin ((peak / 1000) ^ 2))) = _
    simp [Fl.div, Fl.add, h0]
  · intro h0 w hw
    simp only [List.mem_map] at hw
    obtain ⟨x, -, rfl⟩ := hw
    show Fl.add (.fin (x * 0)) (Fl.div (.fin 1) (.fin ((peak / 1000) ^ 2))) = _
    simp [Fl.div, Fl.add, Fl.infOf, h0]
  · intro row col
    unfold Jacobian.getVU
    simp only [h5, h6, h7, h8]

/-- The four optional planes and the file's name for each. -/
def planes {Img : Type} (o : MedsObs Img) : List (String × Option Img) :=
  [("bmask", o.bmask), ("ormask", o.ormask), ("noise", o.noise), ("mfrac", o.mfrac)]

/-- C87: what an observation made from a cutout holds, and which reads it needs.  A plane the file cannot
deliver, whatever the exception, is left out; the others are the file's. -/
theorem C87_cutout {Img : Type} (P : PathLib) (f : MedsFile Img) (iobj icut : ℕ) (wtype : String) (o : MedsObs Img) :
    medsGetObs P f iobj icut wtype = .ok o ↔
      f.cutout "image" iobj icut = .ok o.image ∧
      (∃ w, medsWeight wtype = .ok w ∧ f.weightMap w iobj icut = .ok o.weight) ∧
      (∀ pl ∈ planes o, ∀ x, pl.2 = some x ↔ f.cutout pl.1 iobj icut = .ok x) ∧
      ngmixJacobian f iobj icut = .ok o.jacobian ∧ o.info = medsMeta P f iobj icut ∧
      (f.hasPsf = false → o.psf = none) ∧
      (f.hasPsf = true → ∃ p, psfObs f iobj icut = .ok p ∧ o.psf = some p) := by
  have hopt : ∀ (r : Except PyErr Img) (y : Option Img), (∀ x, y = some x ↔ r = .ok x) ↔ y = optional r := by
    intro r y
    cases r with
    | error e =>
      constructor
      · intro h
        cases y with
        | none => rfl
        | some x => exact absurd ((h x).1 rfl) (by simp)
      · rintro rfl x; simp [optional]
    | ok v =>
      constructor
      · intro h
        exact (h v).2 rfl
      · rintro rfl x; simp [optional]
  have hpl : (∀ pl ∈ planes o, ∀ x, pl.2 = some x ↔ f.cutout pl.1 iobj icut = .ok x) ↔
      o.bmask = optional (f.cutout "bmask" iobj icut) ∧ o.ormask = optional (f.cutout "ormask" iobj icut) ∧
      o.noise = optional (f.cutout "noise" iobj icut) ∧ o.mfrac = optional (f.cutout "mfrac" iobj icut) := by
    simp only [planes, List.mem_cons, List.not_mem_nil, or_false, forall_eq_or_imp, forall_eq, hopt]
  rw [hpl]
  unfold medsGetObs
  rcases o with ⟨im, wt, b, r, n, m, info, jac, psf⟩
  simp only
  rcases h1 : f.cutout "image" iobj icut with e | im'
  · simp [Except.bind]
  rcases h2 : medsWeight wtype with e | w
  · simp [Except.bind]
  rcases h3 : f.weightMap w iobj icut with e | wt'
  · simp [Except.bind, h3]
  rcases h4 : ngmixJacobian f iobj icut with e | j'
  · simp [Except.bind, h3]
  rcases h5 : f.hasPsf with _ | _
  · simp only [Except.bind, h3, Except.ok.injEq]
    constructor
    · intro h
      simp only [Bool.false_eq_true, if_false, Except.ok.injEq, MedsObs.mk.injEq] at h
      obtain ⟨rfl, rfl, rfl, rfl, rfl, rfl, rfl, rfl, h⟩ := h
      simp [h3, ← h]
    · rintro ⟨rfl, ⟨w', hw', hw2⟩, ⟨rfl, rfl, rfl, rfl⟩, rfl, rfl, hn, -⟩
      cases hw'
      rw [h3] at hw2
      cases hw2
      simp [hn]
  · rcases h6 : psfObs f iobj icut with e | p
    · simp [Except.bind, h3, Except.map]
    · simp only [Except.bind, h3, Except.ok.injEq, MedsObs.mk.injEq, Except.map, if_true]
      constructor
      · rintro ⟨rfl, rfl, rfl, rfl, rfl, rfl, rfl, rfl, h⟩
        simp [h3, ← h]
      · rintro ⟨rfl, ⟨w', hw', hw2⟩, ⟨rfl, rfl, rfl, rfl⟩, rfl, rfl, -, hs⟩
        cases hw'
        rw [h3] at hw2
        cases hw2
        obtain ⟨p', hp', hp2⟩ := hs trivial
        cases hp'
        simp [hp2]

/-- C87: the exceptions, in the order the reads are made. -/
theorem C87_exceptions {Img : Type} (P : PathLib) (f : MedsFile Img) (iobj icut : ℕ) (wtype : String) (e : PyErr) :
    medsGetObs P f iobj icut wtype = .error e ↔
      f.cutout "image" iobj icut = .error e ∨
      (∃ im, f.cutout "image" iobj icut = .ok im) ∧
        ((wtype ∉ ["uberseg", "cweight", "weight", "cseg", "cseg-canonical"] ∧ e = .value) ∨
         ∃ w, medsWeight wtype = .ok w ∧
          (f.weightMap w iobj icut = .error e ∨ (∃ wt, f.weightMap w iobj icut = .ok wt) ∧
            (ngmixJacobian f iobj icut = .error e ∨ (∃ j, ngmixJacobian f iobj icut = .ok j) ∧
              f.hasPsf = true ∧ psfObs f iobj icut = .error e))) := by
  have hw : medsWeight wtype = .error .value ∧
        wtype ∉ ["uberseg", "cweight", "weight", "cseg", "cseg-canonical"] ∨
      ∃ w, medsWeight wtype = .ok w ∧ wtype ∈ ["uberseg", "cweight", "weight", "cseg", "cseg-canonical"] := by
    unfold medsWeight
    split_ifs with a b c d g
    · exact Or.inr ⟨_, rfl, by simp [a]⟩
    · exact Or.inr ⟨_, rfl, by simp [b]⟩
    · exact Or.inr ⟨_, rfl, by simp [c]⟩
    · exact Or.inr ⟨_, rfl, by simp [d]⟩
    · exact Or.inr ⟨_, rfl, by simp [g]⟩
    · exact Or.inl ⟨rfl, by simp [a, b, c, d, g]⟩
  unfold medsGetObs
  rcases h1 : f.cutout "image" iobj icut with e1 | im'
  · simp [Except.bind]
  rcases hw with ⟨h2, hn⟩ | ⟨w, h2, hin⟩
  · simp only [Except.bind, h2]
    constructor
    · intro h
      cases h
      exact Or.inr ⟨⟨_, rfl⟩, Or.inl ⟨hn, rfl⟩⟩
    · rintro (h | ⟨-, ⟨-, rfl⟩ | ⟨w, hw, -⟩⟩)
      · simp at h
      · rfl
      · simp at hw
  · have hcore : ∀ X : Prop, ((∃ im, (Except.ok im' : Except PyErr Img) = .ok im) ∧
        (wtype ∉ ["uberseg", "cweight", "weight", "cseg", "cseg-canonical"] ∧ e = .value ∨ X)) ↔ X := by
      intro X
      constructor
      · rintro ⟨-, ⟨h, -⟩ | h⟩
        · exact absurd hin h
        · exact h
      · exact fun h => ⟨⟨_, rfl⟩, Or.inr h⟩
    rw [hcore, h2]
    rcases h3 : f.weightMap w iobj icut with e | wt'
    · simp [Except.bind, h3]
    rcases h4 : ngmixJacobian f iobj icut with e | j'
    · simp [Except.bind, h3]
    rcases h5 : f.hasPsf with _ | _
    · simp [Except.bind, h3]
    · rcases h6 : psfObs f iobj icut with e | p
      · simp [Except.bind, h3, Except.map]
      · simp [Except.bind, h3, Except.map]

/-- C87: the weight map delivered for each name. -/
theorem C87_weight_names : medsWeight "uberseg" = .ok .uberseg ∧ medsWeight "cweight" = .ok .cweight ∧
    medsWeight "weight" = .ok .weight ∧ medsWeight "cseg" = .ok .cseg ∧
    medsWeight "cseg-canonical" = .ok .csegCanonical := by
  refine ⟨rfl, rfl, rfl, rfl, rfl⟩

/-- C87: the metadata are those of the object and the cutout asked for; `T` needs both second moments. -/
theorem C87_metadata {Img : Type} (P : PathLib) (f : MedsFile Img) (iobj icut : ℕ) :
    let m := medsMeta P f iobj icut
    m.index = iobj ∧ m.icut = icut ∧ m.cutoutIndex = icut ∧ m.id = f.id iobj ∧
    m.fileId = f.fileId iobj icut ∧ m.scale = f.scale m.fileId ∧
    m.filePath = P.strip (P.basename (f.imagePath m.fileId)) ∧
    m.origRow = f.origRow iobj icut ∧ m.origCol = f.origCol iobj icut ∧
    m.origStartRow = f.origStartRow iobj icut ∧ m.origStartCol = f.origStartCol iobj icut ∧
    (∀ x, m.flux = some x ↔ ∃ c, f.fluxAuto = some c ∧ x = c iobj) ∧
    (∀ x, m.T = some x ↔ ∃ a b, f.x2 = some a ∧ f.y2 = some b ∧ x = a iobj + b iobj) ∧
    (∀ x, m.number = some x ↔ ∃ c, f.number = some c ∧ x = c iobj) := by
  refine ⟨rfl, rfl, rfl, rfl, rfl, rfl, rfl, rfl, rfl, rfl, rfl, ?_, ?_, ?_⟩
  · intro x
    simp only [medsMeta, Option.map_eq_some_iff]
    constructor <;> rintro ⟨c, hc, rfl⟩ <;> exact ⟨c, hc, rfl⟩
  · intro x
    simp only [medsMeta, Option.bind_eq_some_iff, Option.map_eq_some_iff]
    constructor
    · rintro ⟨a, ha, b, hb, rfl⟩; exact ⟨a, b, ha, hb, rfl⟩
    · rintro ⟨a, b, ha, hb, rfl⟩; exact ⟨a, ha, b, hb, rfl⟩
  · intro x
    simp only [medsMeta, Option.map_eq_some_iff]
    constructor <;> rintro ⟨c, hc, rfl⟩ <;> exact ⟨c, hc, rfl⟩

/-- A file with one object, a psf and no mask planes. -/
noncomputable def sampleFile : MedsFile (List ℝ) where
  cutout t _ _ := if t = "image" then .ok [1, 2] else .error .value
  weightMap _ _ _ := .ok [1, 1]
  jac _ _ := .ok ⟨1, 2, 0.1, 0.3, 0.26, 0.2⟩
  id _ := 7
  fileId _ _ := 0
  origRow _ _ := 10
  origCol _ _ := 11
  origStartRow _ _ := 9
  origStartCol _ _ := 9
  imagePath _ := "a"
  scale _ := 1
  fluxAuto := some fun _ => 3
  x2 := some fun _ => 1
  y2 := none
  number := none
  hasPsf := true
  psf _ _ := .ok [1, 5, 1]
  psfRow _ _ := 1
  psfCol _ _ := 1

/-- The hypotheses are met: the observation of the sample file exists and has no masks. -/
example (P : PathLib) : ∃ o, medsGetObs P sampleFile 0 0 "weight" = .ok o ∧ o.bmask = none ∧ o.psf ≠ none := by
  obtain ⟨p, hp, -⟩ := C87_psf sampleFile 0 0 [1, 5, 1] ⟨1, 2, 0.1, 0.3, 0.26, 0.2⟩ 5 rfl rfl (by norm_num)
  obtain ⟨j, hj, -⟩ := (C87_geometry sampleFile 0 0).2 _ rfl
  refine ⟨⟨[1, 2], [1, 1], none, none, none, none, medsMeta P sampleFile 0 0, j, some p⟩, ?_, rfl, by simp⟩
  rw [C87_cutout]
  refine ⟨rfl, ⟨_, rfl, rfl⟩, ?_, hj, rfl, by simp [sampleFile], fun _ => ⟨p, hp, rfl⟩⟩
  simp [planes, sampleFile]

/-- C66: several bands: without indices all objects of the first reader are read, whatever the others have (IndexError
without bands); with indices those asked for, in their order, repeated ones again, also without bands. -/
theorem C66_meds_all {O : Type} (sizes : List ℕ) (mbobs : ℕ → Except PyErr O) :
    (mbobsList [] mbobs none = .error .index) ∧
    (∀ n rest os, mbobsList (n :: rest) mbobs none = .ok os ↔ os.length = n ∧
      ∀ i (h : i < os.length), mbobs i = .ok os[i]) ∧
    (∀ is os, mbobsList sizes mbobs (some is) = .ok os ↔ List.Forall₂ (fun i o => mbobs i = .ok o) is os) := by
  have hall : ∀ (is : List ℕ) (os : List O), is.map mbobs = os.map .ok ↔ List.Forall₂ (fun i o => mbobs i = .ok o) is os := by
    intro is
    induction is with
    | nil => intro os; cases os <;> simp
    | cons i is ih => intro os; cases os <;> simp [ih]
  refine ⟨rfl, fun n rest os => ?_, fun is os => ?_⟩
  · change getMbobsList mbobs n none = .ok os ↔ _
    rw [C66_meds_objects]
    simp only [Option.getD_none]
    constructor
    · intro h
      have hl : os.length = n := by simpa using (congrArg List.length h).symm
      refine ⟨hl, fun i hi => ?_⟩
      have := congrArg (fun l => l[i]?) h
      simpa [hi, hl ▸ hi] using this
    · rintro ⟨rfl, h⟩
      refine List.ext_getElem (by simp) fun i h1 h2 => ?_
      simp only [List.getElem_map, List.getElem_range]
      exact h i (by simpa using h2)
  · change getMbobsList mbobs 0 (some is) = .ok os ↔ _
    rw [C66_meds_objects, ← hall]
    rfl

example : mbobsList [2, 5] (fun i => (.ok (i + 10) : Except PyErr ℕ)) none = .ok [10, 11] ∧
    mbobsList [2] (fun i => (.ok (i + 10) : Except PyErr ℕ)) (some [1, 1, 0]) = .ok [11, 11, 10] := ⟨rfl, rfl⟩

end Ngmix.Props
