import Verif.Model.Grid
import Verif.Model.Stations

/-!
# Grid geometry

Mirrors `openamundsen/fileio/raster.py:30-101`, `openamundsen/util.py:227-296`,
`openamundsen/model.py:442-455` and the extended grid, `openamundsen/model.py:574-583, 692-768`.
-/

namespace Verif.GridGeom

open Verif.Grid Verif.Stations

variable {K : Type*} [Field K] [LinearOrder K]

/-! ## Raster files -/

/-- Header of a raster file: shape and the coefficients `a`, `c`, `e`, `f` of its affine transform; there is
no rotation (`b = d = 0`), as in all files in the AAIGrid format. -/
structure Header (K : Type*) where
  rows : ℕ
  cols : ℕ
  a : K
  c : K
  e : K
  f : K
  deriving DecidableEq

/-- `read_raster_metadata`, `raster.py:30-46`; `ds.res` is `(a, -e)`. `none`: `RasterFileError`. -/
def readMetadata (h : Header K) : Option (Geom K) :=
  if h.a = -h.e ∧ -h.e = |h.a| then some ⟨h.c, h.f, h.a, h.rows, h.cols⟩ else none

/-- `_initialize_grid`, `model.py:442-455` (without coordinates). -/
def initGrid (cfgRes : K) (h : Header K) : Option (Geom K) :=
  match readMetadata h with
  | none => none
  | some g => if g.res = cfgRes then some g else none

/-- Cell of a raster file: masked if it has the nodata value of the file. -/
def masked (nodata : Option K) (v : K) : Bool := decide (nodata = some v)

/-- `read_raster_file` with metadata check and fill value, `raster.py:74-101`; `cast` is the conversion to
the data type (`float`, `int`, `bool`). The metadata equal those of the grid if shape, resolution and
transform do. -/
def readRaster {α : Type*} (g : Geom K) (h : Header K) (nodata : Option K) (cast : K → α) (fill : α)
    (cells : ℕ → ℕ → K) : Option (ℕ → ℕ → α) :=
  match readMetadata h with
  | none => none
  | some m =>
    if m.rows = g.rows ∧ m.cols = g.cols ∧ m.res = g.res ∧ m.xoff = g.xoff ∧ m.yoff = g.yoff then
      some fun i j => if masked nodata (cells i j) then fill else cast (cells i j)
    else none

/-! ## Coordinates -/

/-- `np.linspace(start, stop, num)`. -/
def linspace (start stop : K) (num : ℕ) : List K :=
  (List.range num).map fun i : ℕ =>
    if num = 1 then start else start + i * ((stop - start) / ((num - 1 : ℕ) : K))

/-- `rasterio.transform.xy` of a cell centre, x coordinate. -/
def centreX (g : Geom K) (col : K) : K := g.xoff + (col + 1 / 2) * g.res

/-- `rasterio.transform.xy` of a cell centre, y coordinate. -/
def centreY (g : Geom K) (row : K) : K := g.yoff - (row + 1 / 2) * g.res

/-- `xs`, `util.py:236-241`. -/
def xs (g : Geom K) : List K :=
  linspace (centreX g 0) (centreX g ((g.cols - 1 : ℕ) : K)) g.cols

/-- `ys`, `util.py:236-242`. -/
def ys (g : Geom K) : List K :=
  linspace (centreY g 0) (centreY g ((g.rows - 1 : ℕ) : K)) g.rows

/-- Row-major flattening of a two-dimensional array, `.flat` and boolean indexing. -/
def flat {α : Type*} (g : Geom K) (F : ℕ → ℕ → α) : List α :=
  (List.range g.rows).flatMap fun i => (List.range g.cols).map (F i)

/-- `roi_xs`, `roi_ys`, `roi_points` through `meshgrid` (`X[i, j] = xs[j]`, `Y[i, j] = ys[i]`),
`util.py:243, 292-294`. -/
def roiPoints (g : Geom K) (roi : ℕ → ℕ → Bool) : List (K × K) :=
  select (flat g fun i j => ((xs g).getD j 0, (ys g).getD i 0)) (flat g roi)

/-- `roi_idxs`, `util.py:295`. -/
def roiIdxs (g : Geom K) (roi : ℕ → ℕ → Bool) : List (ℕ × ℕ) :=
  select (flat g fun i j => (i, j)) (flat g roi)

/-- `roi_idxs_flat`, `util.py:296`. -/
def roiIdxsFlat (g : Geom K) (roi : ℕ → ℕ → Bool) : List ℕ := flatnonzero 0 (flat g roi)

/-! ## Extended grid -/

variable [FloorRing K]

/-- `float.is_integer`. -/
def isInteger (x : K) : Bool := decide ((⌊x⌋ : K) = x)

/-- Offsets of the extended grid, `model.py:701-737, 756-757`: rows and columns of the extended grid above and
to the left of the model grid. `none`: `RasterFileError`. -/
def extOffsets (cfgRes : K) (g ext : Geom K) : Option (ℤ × ℤ) :=
  if ext.res ≠ cfgRes then none
  else
    let row := (g.yoff - ext.yoff) / -ext.res
    let col := (g.xoff - ext.xoff) / ext.res
    if ¬ (isInteger row = true ∧ isInteger col = true) then none
    else if ¬ (ext.xoff ≤ g.xoff ∧ g.yoff ≤ ext.yoff ∧
        g.xoff + g.cols * g.res ≤ ext.xoff + ext.cols * ext.res ∧
        ext.yoff - ext.rows * ext.res ≤ g.yoff - g.rows * g.res) then none
    else some (⌊row⌋, ⌊col⌋)

/-- Position in an array of length `n` of the `i`-th element of `a[off : off + m]`: a negative start counts
from the end. -/
def sliceIdx (n : ℕ) (off : ℤ) (i : ℕ) : ℤ := (if off < 0 then off + n else off) + i

/-- DEM (or sky view factor) of the model grid taken from the extended grid, `model.py:574-583, 763-764`. -/
def cutOut {α : Type*} (ext : Geom K) (off : ℤ × ℤ) (dem : ℕ → ℕ → α) : ℕ → ℕ → α := fun i j =>
  dem (sliceIdx ext.rows off.1 i).toNat (sliceIdx ext.cols off.2 j).toNat

end Verif.GridGeom
