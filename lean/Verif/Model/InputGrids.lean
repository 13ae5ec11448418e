import Verif.Model.Stations

/-!
# Reading the input rasters

Mirrors `openamundsen/fileio/raster.py:48-103` and `openamundsen/model.py:555-683` (`_read_input_data`,
without the sky view factor and the snow redistribution factor) and 184-193.
-/

namespace Verif.InputGrids

/-- Two-dimensional field. -/
abbrev Fld (α : Type*) := ℕ → ℕ → α

/-- A raster file: metadata (rows, columns, resolution, transform), nodata value and values. -/
structure RFile (M V : Type*) where
  info : M
  nodata : Option V
  cells : Fld V

/-- `read_raster_file`, `raster.py:48-103`; `none`: RasterFileError. Without a fill value nodata values are
not masked. -/
def readRaster {M V W : Type*} [DecidableEq M] [DecidableEq V] (check : M) (fill : Option W)
    (conv : V → W) (f : RFile M V) : Option (Fld W) :=
  if f.info ≠ check then none
  else some fun i j =>
    match fill with
    | none => conv (f.cells i j)
    | some w => if f.nodata = some (f.cells i j) then w else conv (f.cells i j)

/-- Available files; floating-point values with NaN = `none`. `ext` is the DEM of the extended grid (already
cut to the model domain) if it is available. -/
structure Files (M K : Type*) where
  ext : Option (Fld (Option K))
  dem : Option (RFile M (Option K))
  roi : Option (RFile M (Option K))
  lc : Option (RFile M ℤ)
  soil : Option (RFile M ℤ)
  glaciers : Option (RFile M ℤ)

/-- `_require_land_cover`, `_require_soil_texture`, `_require_glaciers`. -/
structure Req where
  lc : Bool
  soil : Bool
  glaciers : Bool

/-- Fields set by `_read_input_data`. -/
structure Inputs (K : Type*) where
  dem : Fld (Option K)
  roi : Fld Bool
  lc : Fld ℤ
  soil : Fld ℤ
  glacier : Fld ℤ

/-- A required file with fill value 0 (`none`: FileNotFoundError or RasterFileError). -/
def required {M : Type*} [DecidableEq M] (need : Bool) (check : M) (fill : Option ℤ)
    (f : Option (RFile M ℤ)) : Option (Fld ℤ) :=
  if need then
    match f with
    | none => none
    | some f => readRaster check fill id f
  else some fun _ _ => 0

/-- `_read_input_data`, `model.py:555-683`. -/
def readInput {M K : Type*} [DecidableEq M] [DecidableEq K] [Zero K] (check : M) (q : Req)
    (f : Files M K) : Option (Inputs K) :=
  (match f.ext with
    | some e => some e
    | none => match f.dem with
      | none => none
      | some d => readRaster check (some none) id d).bind fun dem =>
  (match f.roi with
    | some r => readRaster check (some false) (fun v => decide (v ≠ some 0)) r
    | none => some fun _ _ => true).bind fun roi =>
  let roi : Fld Bool := fun i j => if (dem i j).isNone && roi i j then false else roi i j
  (required q.lc check (some 0) f.lc).bind fun lc =>
  (required q.soil check (some 0) f.soil).bind fun soil =>
  (required q.glaciers check none f.glaciers).bind fun glacier =>
  some ⟨dem, roi, lc, soil, glacier⟩

/-- The region of interest after `initialize`, `model.py:184-193`. -/
def finalRoi {K : Type*} [Field K] [LinearOrder K] [IsStrictOrderedRing K] [FloorRing K]
    (g : Stations.Geom K) (extend : Bool) (stations : List (K × K)) (roi : Fld Bool) : Fld Bool :=
  if extend then Stations.extendRoi g roi stations else roi

end Verif.InputGrids
