import Verif.Proof.Pixels
import Verif.Props.Jacobian

/-!
# Property C17: pixel lists
-/

namespace Ngmix.Props

open Ngmix Ngmix.Spec

/-- Spec: what the pixel at (row, col) of an image must contain. -/
def PixelOf (image weight : Image) (j : Jacobian) (p : ℕ × ℕ) (px : Pixel) : Prop :=
  (px.v, px.u) = j.getVU p.1 p.2 ∧ px.area = j.area ∧ px.val = image.get p.1 p.2 ∧
  0 ≤ px.ierr ∧ px.ierr ^ 2 = max (weight.get p.1 p.2) 0

/-- The pixel the loop writes. -/
noncomputable def mkPix (image weight : Image) (j : Jacobian) (p : ℕ × ℕ) : Pixel :=
  { v := (j.getVU p.1 p.2).1, u := (j.getVU p.1 p.2).2, area := j.area, val := image.get p.1 p.2,
    ierr := Real.sqrt (if weight.get p.1 p.2 < 0 then 0 else weight.get p.1 p.2) }

theorem mkPix_spec (image weight : Image) (j : Jacobian) (p : ℕ × ℕ) :
    PixelOf image weight j p (mkPix image weight j p) := by
  refine ⟨rfl, rfl, rfl, Real.sqrt_nonneg _, ?_⟩
  simp only [mkPix]
  by_cases h : weight.get p.1 p.2 < 0
  · simp [h, max_eq_right h.le]
  · simp only [h, if_false]
    rw [Real.sq_sqrt (not_lt.1 h), max_eq_left (not_lt.1 h)]

theorem fillPixels_loop (image weight : Image) (j : Jacobian) (ignore : Bool) (buf : List Pixel) :
    (List.range image.nrow).foldl (fun st row =>
      (List.range image.ncol).foldl (fun st col =>
        fillPixelsBody image weight j ignore row col st) st) (0, buf)
    = (rowMajor image.nrow image.ncol).foldl
        (fun st p => fillPixelsBody image weight j ignore p.1 p.2 st) (0, buf) :=
  foldl_nested (fun st p => fillPixelsBody image weight j ignore p.1 p.2 st) _ _ _

open Classical in
/-- The optional write of the loop. -/
noncomputable def pixWrite (image weight : Image) (j : Jacobian) (ignore : Bool) (p : ℕ × ℕ) :
    Option Pixel :=
  if ignore = true ∧ weight.get p.1 p.2 ≤ 0 then none else some (mkPix image weight j p)

theorem fillPixels_eq (image weight : Image) (j : Jacobian) (ignore : Bool) (buf : List Pixel)
    (h : ((rowMajor image.nrow image.ncol).filterMap (pixWrite image weight j ignore)).length
      = buf.length) :
    fillPixels buf image weight j ignore
      = .ok ((rowMajor image.nrow image.ncol).filterMap (pixWrite image weight j ignore)) := by
  unfold fillPixels
  rw [fillPixels_loop]
  rw [foldl_fill_all (pixWrite image weight j ignore) _ ?_ ?_ _ buf h]
  · simp
  · intro p st hp
    unfold pixWrite at hp
    split_ifs at hp with hc
    simp only [fillPixelsBody]
    rw [if_pos hc]
  · intro p b st hp
    unfold pixWrite at hp
    split_ifs at hp with hc
    simp only [fillPixelsBody]
    rw [if_neg hc]
    have : mkPix image weight j p = b := by injection hp
    rw [← this]
    rfl

theorem filterMap_ignore (image weight : Image) (j : Jacobian) (n m : ℕ) :
    (rowMajor n m).filterMap (pixWrite image weight j true)
      = (positiveWeight n m weight.get).map (mkPix image weight j) := by
  unfold positiveWeight
  generalize rowMajor n m = l
  induction l with
  | nil => rfl
  | cons p l ih =>
    by_cases hp : weight.get p.1 p.2 ≤ 0
    · have h1 : pixWrite image weight j true p = none := by simp [pixWrite, hp]
      rw [List.filterMap_cons_none h1, ih, List.filter_cons_of_neg (by simpa using hp)]
    · have h1 : pixWrite image weight j true p = some (mkPix image weight j p) := by
        simp [pixWrite, hp]
      rw [List.filterMap_cons_some h1, ih, List.filter_cons_of_pos (by simpa using hp), List.map_cons]

theorem filterMap_all (image weight : Image) (j : Jacobian) (l : List (ℕ × ℕ)) :
    l.filterMap (pixWrite image weight j false) = l.map (mkPix image weight j) := by
  induction l with
  | nil => rfl
  | cons p l ih =>
    have h1 : pixWrite image weight j false p = some (mkPix image weight j p) := by simp [pixWrite]
    rw [List.filterMap_cons_some h1, ih, List.map_cons]

/-- C17: ignoring zero weights, `make_pixels` returns one entry per positive-weight pixel, in
row-major order, each with that pixel's value, position, area and inverse error; it raises
`GMixFatalError` exactly when no weight is positive. -/
theorem C17_make_pixels_ignore (image weight : Image) (j : Jacobian)
    (hshape : weight.nrow = image.nrow ∧ weight.ncol = image.ncol) :
    let good := positiveWeight image.nrow image.ncol weight.get
    (good = [] → makePixels image weight j true = .error .gmixFatal) ∧
    (good ≠ [] → ∃ px, makePixels image weight j true = .ok px ∧
      List.Forall₂ (PixelOf image weight j) good px) := by
  intro good
  have hc : countPositive weight = good.length := by
    rw [countPositive_eq, hshape.1, hshape.2]
  constructor
  · intro h
    have : countPositive weight = 0 := by rw [hc, h]; rfl
    simp [makePixels, this]
  · intro h
    have hpos : countPositive weight ≠ 0 := by
      rw [hc]; exact fun h0 => h (List.length_eq_zero_iff.1 h0)
    refine ⟨good.map (mkPix image weight j), ?_, ?_⟩
    · unfold makePixels
      simp only [if_true, hpos, if_false]
      rw [fillPixels_eq, filterMap_ignore]
      rw [filterMap_ignore, List.length_map, List.length_replicate, hc]
    · rw [List.forall₂_map_right_iff, List.forall₂_same]
      intro p _; exact mkPix_spec image weight j p

/-- C17: with `ignore_zero_weight=False` every pixel is returned, in row-major order, and
nothing is raised. -/
theorem C17_make_pixels_all (image weight : Image) (j : Jacobian) :
    ∃ px, makePixels image weight j false = .ok px ∧
      px.length = image.nrow * image.ncol ∧
      List.Forall₂ (PixelOf image weight j) (rowMajor image.nrow image.ncol) px := by
  refine ⟨(rowMajor image.nrow image.ncol).map (mkPix image weight j), ?_, ?_, ?_⟩
  · unfold makePixels
    simp only [Bool.false_eq_true, if_false]
    rw [fillPixels_eq, filterMap_all]
    rw [filterMap_all, List.length_map, List.length_replicate, rowMajor_length]
  · rw [List.length_map, rowMajor_length]
  · rw [List.forall₂_map_right_iff, List.forall₂_same]
    intro p _; exact mkPix_spec image weight j p

/-- C17: `make_coords` is the row-major list of pixel centres in (v,u). -/
theorem C17_make_coords (nrow ncol : ℕ) (j : Jacobian) :
    List.Forall₂ (fun (p : ℕ × ℕ) (c : Coord) => (c.v, c.u) = j.getVU p.1 p.2 ∧ c.area = j.area)
      (rowMajor nrow ncol) (makeCoords nrow ncol j) := by
  have h : makeCoords nrow ncol j = (rowMajor nrow ncol).map
      (fun p => ⟨(j.getVU p.1 p.2).2, (j.getVU p.1 p.2).1, j.area⟩) := by
    unfold makeCoords
    have hn := foldl_nested (fun (st : ℕ × List Coord) (p : ℕ × ℕ) =>
      (st.1 + 1, st.2.set st.1
        { v := (j.getVU p.1 p.2).1, u := (j.getVU p.1 p.2).2, area := j.area }))
      nrow ncol ((0 : ℕ), List.replicate (nrow * ncol) (⟨0, 0, 0⟩ : Coord))
    simp only at hn ⊢
    rw [hn]
    rw [foldl_fill_all (fun p : ℕ × ℕ => some
      ({ v := (j.getVU p.1 p.2).1, u := (j.getVU p.1 p.2).2, area := j.area } : Coord))]
    · simp
    · intro a st h; simp at h
    · intro a b st h; simp at h; simp [h]
    · simp [rowMajor_length]
  rw [h, List.forall₂_map_right_iff, List.forall₂_same]
  intro p _; exact ⟨rfl, rfl⟩

/-- A concrete 2x2 image with one masked pixel meets the hypotheses. -/
example : ∃ image weight : Image, (weight.nrow = image.nrow ∧ weight.ncol = image.ncol) ∧
    positiveWeight image.nrow image.ncol weight.get ≠ [] ∧ image.nrow = 2 := by
  refine ⟨⟨2, 2, fun r c => r + c⟩, ⟨2, 2, fun r c => if r = 0 ∧ c = 0 then 0 else 1⟩, ⟨rfl, rfl⟩, ?_, rfl⟩
  simp [positiveWeight, rowMajor, List.range_succ]

end Ngmix.Props
