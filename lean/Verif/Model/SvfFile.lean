import Verif.Model.InputGrids
import Verif.Model.SkyView
import Mathlib.Algebra.Order.Round

/-!
# Sky view factor files

Mirrors `openamundsen/model.py:563-607, 686-695, 737-770` (the sky view factor of `_read_input_data` and
`_read_extended_grids`), `openamundsen/util.py:76-96` (`raster_filename`) and
`openamundsen/fileio/raster.py:105-134` (`write_raster_file`). The files left in the directory are carried from run
to run. Reading the DEM and the checks of the extended grid are in `Model/InputGrids` and `Model/GridGeom`; here both
DEMs are already read.
-/

namespace Verif.SvfFile

open Verif.InputGrids Verif.Shadows Classical

/-- What `read_raster_metadata` returns (`raster.py:31-46`): rows, columns, resolution, upper left corner. -/
structure Info where
  rows : ℕ
  cols : ℕ
  res : ℝ
  x0 : ℝ
  y0 : ℝ

/-- A DEM with its metadata; `top` is `max_elev_angle` of `terrain.py:195-198`. -/
structure Terr where
  info : Info
  dem : Dem
  top : ℕ

/-- The extended grid and the position of the model grid in it, `model.py:751-759`. -/
structure Ext where
  terr : Terr
  row : ℕ
  col : ℕ

/-- What one run reads: name (grids directory, domain, resolution), DEM, `num_shadow_sweeps`, extended DEM. -/
structure Run (N : Type*) where
  name : N
  terr : Terr
  sweeps : Option ℤ
  ext : Option Ext

/-- The two kinds of files, `util.py:92-96` with kind `svf` and `extended-svf`. -/
inductive Kind
  | svf
  | extendedSvf
  deriving DecidableEq

/-- A sky view factor file; NaN = `none`. -/
abbrev SvfRaster := RFile Info (Option ℝ)

/-- The sky view factor files on disk. -/
abbrev Disk (N : Type*) := Kind → N → Option SvfRaster

/-- `azim_angles` with the defaults, `terrain.py:138-140, 193`. -/
def azimuths : List ℝ := (List.range 36).map fun k : ℕ => 10 * (k : ℝ)

/-- `terrain.sky_view_factor` of a DEM. -/
noncomputable def computed (t : Terr) (sweeps : Option ℤ) : Fld (Option ℝ) := fun i j =>
  some (skyView t.dem t.info.res sweeps azimuths t.top (i, j))

/-- `decimal_precision=3`: the value printed to three decimals (`%.3f`; here ties are rounded up). -/
noncomputable def round3 (x : ℝ) : ℝ := (round (1000 * x) : ℝ) / 1000

/-- `write_raster_file(..., decimal_precision=3)`, `raster.py:105-134`: the content of the file afterwards. -/
noncomputable def written (info : Info) (s : Fld (Option ℝ)) : SvfRaster :=
  ⟨info, none, fun i j => (s i j).map round3⟩

/-- Create or overwrite one file. -/
noncomputable def put {N : Type*} (d : Disk N) (k : Kind) (n : N) (f : SvfRaster) : Disk N :=
  fun k' n' => if k' = k ∧ n' = n then some f else d k' n'

/-- The part of an extended raster that belongs to the model grid, `model.py:573-576`. -/
def crop (e : Ext) (s : Fld (Option ℝ)) : Fld (Option ℝ) := fun i j => s (e.row + i) (e.col + j)

/-- `_read_extended_grids`, `model.py:737-753`: extended sky view factor and disk afterwards; `none`:
RasterFileError. The file is read without `check_meta`, only its shape is compared with that of the DEM. -/
noncomputable def extendedSvf {N : Type*} (r : Run N) (e : Ext) (d : Disk N) :
    Option (Fld (Option ℝ)) × Disk N :=
  match d .extendedSvf r.name with
  | some f =>
    (if (f.info.rows, f.info.cols) ≠ (e.terr.info.rows, e.terr.info.cols) then none
      else readRaster f.info (some none) id f, d)
  | none =>
    let s := computed e.terr r.sweeps
    (some s, put d .extendedSvf r.name (written e.terr.info s))

/-- `state.base.svf` of a run and the disk afterwards, `model.py:566-607`. -/
noncomputable def run {N : Type*} (r : Run N) (d : Disk N) : Option (Fld (Option ℝ)) × Disk N :=
  match r.ext with
  | some e => ((extendedSvf r e d).1.map (crop e), (extendedSvf r e d).2)
  | none =>
    match d .svf r.name with
    | some f => (readRaster r.terr.info (some none) id f, d)
    | none =>
      let s := computed r.terr r.sweeps
      (some s, put d .svf r.name (written r.terr.info s))

/-- The disk after several runs. -/
noncomputable def after {N : Type*} (d : Disk N) (rs : List (Run N)) : Disk N :=
  rs.foldl (fun d r => (run r d).2) d

end Verif.SvfFile
