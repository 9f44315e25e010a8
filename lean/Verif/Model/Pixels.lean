import Verif.Model.Jacobian

/-!
# Model of `/repo/ngmix/pixels/pixels.py` and `pixels_nb.py`
-/

namespace Ngmix

noncomputable section

/-- A 2-d numpy array: its shape and its content (only indices inside the shape matter).  The arguments of `pixels.py:6`. -/
structure Image where
  nrow : ℕ
  ncol : ℕ
  get : ℕ → ℕ → ℝ

/-- One element of the pixels array, `pixels.py:72-79` (`_pixels_dtype`; the scratch field
`fdiff` is not modelled). -/
@[ext] structure Pixel where
  u : ℝ
  v : ℝ
  area : ℝ
  val : ℝ
  ierr : ℝ

/-- `numpy.zeros` element.  `pixels.py:40`. -/
def Pixel.zero : Pixel := ⟨0, 0, 0, 0, 0⟩

/-- Body of the inner loop of `fill_pixels`, `pixels_nb.py:36-55`; the state is the write
index and the buffer. -/
def fillPixelsBody (image weight : Image) (j : Jacobian) (ignore : Bool) (row col : ℕ)
    (st : ℕ × List Pixel) : ℕ × List Pixel :=
  let ivar := weight.get row col
  open Classical in
  if ignore = true ∧ ivar ≤ 0 then st
  else
    let vu := j.getVU row col
    let ivar := if ivar < 0 then 0 else ivar
    let px : Pixel := { v := vu.1, u := vu.2, area := j.area, val := image.get row col,
                        ierr := Real.sqrt ivar }
    (st.1 + 1, st.2.set st.1 px)

/-- `pixels_nb.py:7-58` `fill_pixels`: double loop and the final size check. -/
def fillPixels (buf : List Pixel) (image weight : Image) (j : Jacobian) (ignore : Bool) :
    Except PyErr (List Pixel) :=
  let st := (List.range image.nrow).foldl (fun st row =>
      (List.range image.ncol).foldl (fun st col =>
        fillPixelsBody image weight j ignore row col st) st) (0, buf)
  if st.1 ≠ buf.length then .error .runtime else .ok st.2

/-- `numpy.where(weight > 0.0)[0].size`, `pixels.py:35`. -/
def countPositive (w : Image) : ℕ :=
  open Classical in
  ((List.range w.nrow).map fun r =>
    ((List.range w.ncol).filter fun c => decide (w.get r c > 0)).length).sum

/-- `pixels.py:6-52` `make_pixels`. -/
def makePixels (image weight : Image) (j : Jacobian) (ignore : Bool) :
    Except PyErr (List Pixel) :=
  if ignore then
    let n := countPositive weight
    if n = 0 then .error .gmixFatal
    else fillPixels (List.replicate n Pixel.zero) image weight j ignore
  else
    fillPixels (List.replicate (image.nrow * image.ncol) Pixel.zero) image weight j ignore

/-- `pixels.py:82-86` coordinate record. -/
@[ext] structure Coord where
  u : ℝ
  v : ℝ
  area : ℝ

/-- `pixels_nb.py:62-94` `fill_coords` and `pixels.py:55-69` `make_coords`. -/
def makeCoords (nrow ncol : ℕ) (j : Jacobian) : List Coord :=
  ((List.range nrow).foldl (fun st (row : ℕ) =>
    (List.range ncol).foldl (fun (st : ℕ × List Coord) (col : ℕ) =>
      let vu := j.getVU row col
      (st.1 + 1, st.2.set st.1 { v := vu.1, u := vu.2, area := j.area })) st)
    ((0 : ℕ), List.replicate (nrow * ncol) (⟨0, 0, 0⟩ : Coord))).2

end

end Ngmix
