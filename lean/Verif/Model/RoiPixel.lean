import Verif.Model.Grid
import Mathlib.Algebra.Field.Basic

/-!
# ROI-pixel layout of gridded output

Mirrors `openamundsen/fileio/griddedoutput.py:248-252, 437-444, 565-571` and
`openamundsen/util.py:99-179, 216-243`.
-/

namespace Verif.RoiPixel

open Verif.Grid

/-- Pixel coordinate written to the file, `griddedoutput.py:440` (`roi_idxs_flat`). -/
def pixelIdxs (roi : List Bool) : List ℕ := flatnonzero 0 roi

/-- `data[roi]`, `griddedoutput.py:250, 325`; the field is in row-major order. -/
def toPixels {α : Type*} (field : List α) (roi : List Bool) : List α := select field roi

/-- `full_values.reshape(...)[..., pixel_idxs] = values`, `util.py:157-161`, for one leading index. -/
def fromPixels {α : Type*} (nrows ncols : ℕ) (idxs : List ℕ) (fill : α) (values : List α) : List α :=
  (idxs.zip values).foldl (fun g iv => g.set iv.1 iv.2) (List.replicate (nrows * ncols) fill)

/-- Element `(row, col)` of a row-major array. -/
def cell {α : Type*} (ncols : ℕ) (a : List α) (row col : ℕ) : Option α := a[row * ncols + col]?

/-- Axis labels of `full_values` before the transposition, `util.py:157-160`: all but the pixel axis,
then y and x. -/
def fullDims {α : Type*} (dims : List α) (axis : ℕ) (y x : α) : List α := dims.eraseIdx axis ++ [y, x]

/-- `target_order`, `util.py:163-168`; `nd` is `values.ndim`. -/
def targetOrder (axis nd : ℕ) : List ℕ :=
  List.range axis ++ [nd - 1, nd] ++ List.range' axis (nd - 1 - axis)

/-- `np.transpose(full_values, axes)`: the labels of the axes of the result. -/
def transposeDims {α : Type*} (dims : List α) (axes : List ℕ) : List (Option α) :=
  axes.map fun i => dims[i]?

/-- `dims` of the converted variable, `util.py:171`. -/
def newDims {α : Type*} (dims : List α) (axis : ℕ) (y x : α) : List α :=
  dims.take axis ++ [y, x] ++ dims.drop (axis + 1)

section coords

variable {K : Type*} [Field K]

/-- `np.linspace(a, b, n)[i]`. -/
def linspace (a b : K) (n i : ℕ) : K := if n = 1 then a else a + i * ((b - a) / ((n : K) - 1))

/-- `ModelGrid.xs[col]`, `util.py:236-241`; `rasterio.transform.xy` gives cell centres. -/
def gridX (xoff res : K) (cols col : ℕ) : K :=
  linspace (xoff + (0 + 1 / 2) * res) (xoff + (((cols : K) - 1) + 1 / 2) * res) cols col

/-- `ModelGrid.ys[row]`, `util.py:236-242`. -/
def gridY (yoff res : K) (rows row : ℕ) : K :=
  linspace (yoff - (0 + 1 / 2) * res) (yoff - (((rows : K) - 1) + 1 / 2) * res) rows row

/-- `x_coords[col]` of the conversion, `util.py:123`, with `xllcorner` of `griddedoutput.py:570`. -/
def convX (xoff res : K) (col : ℕ) : K := xoff + res * ((col : K) + 1 / 2)

/-- `y_coords[row]` of the conversion, `util.py:124`, with `yllcorner` of `griddedoutput.py:571`. -/
def convY (yoff res : K) (rows row : ℕ) : K :=
  (yoff - rows * res) + res * ((rows : K) - row - 1 / 2)

end coords

end Verif.RoiPixel
