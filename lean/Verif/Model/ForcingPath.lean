import Verif.Model.StationFiles
import Verif.Model.Forcing
import Verif.Model.MeteoFields

/-!
# From the station files to the fields of a time step

Composition of the stages: reading and selecting station files (`Model/StationFiles`,
`openamundsen/fileio/meteo.py:88-129`), combining the stations (`Model/Forcing`, `meteo.py:130-164`),
transforming their coordinates (`forcing.py:279-320`) and interpolating the values of a date
(`Model/MeteoFields`, `meteo/interpolation.py:15-57, 210-355`).

Simplified: the records of a file are already at the time step of the model (files with another step are
resampled, `Model/Resample`; here they are rejected), there are no filters and no corrections of the precipitation
at the stations (`Model/PrecipTable`). Times are seconds.
-/

namespace Verif.ForcingPath

open Verif.StationFiles Verif.Forcing

/-- Contents of a station file: dates and, per variable, one value per date. -/
structure Records where
  times : List ℤ
  vars : List (String × List (Option ℝ))

/-- `ds.sel(time=slice(start_date, end_date))` for one variable, `meteo.py:338`. -/
def sliceVals (start stop : ℤ) (times : List ℤ) (vals : List (Option ℝ)) : List (Option ℝ) :=
  ((times.zip vals).filter fun p => decide (start ≤ p.1 ∧ p.1 ≤ stop)).map Prod.snd

/-- `_slice_and_resample_dataset`, `meteo.py:310-340`, for files with the step of the model (or at most two
records, for which no step can be determined). -/
def prep (start stop f : ℤ) (d : Records) : Option Records :=
  if d.times.length ≤ 2 ∨ uniform f d.times = true then
    some ⟨d.times.filter fun t => decide (start ≤ t ∧ t ≤ stop),
      d.vars.map fun p => (p.1, sliceVals start stop d.times p.2)⟩
  else none

/-- Dataset of a station, `forcing.py:70-110`. -/
def dataset (name : ℕ → String) (l : Loaded ℝ Records) : Ds ℝ := ⟨name l.id, l.data.times, l.data.vars⟩

/-- Value of a variable in a row of the combined dataset at a date. -/
def pick (vars : List String) (p : ℕ) (row : List (List (Option ℝ))) (v : String) : Option ℝ :=
  (vars.idxOf? v).bind fun j => row[j]?.bind fun vals => vals[p]?.join

/-- Station of the combined dataset at a date, with the coordinates of `prepare_point_coordinates`,
`forcing.py:304-323`. -/
def station (toGrid : ℝ × ℝ → ℝ × ℝ) (vars : List String) (p : ℕ) (l : Loaded ℝ Records)
    (row : List (List (Option ℝ))) : MeteoFields.Station :=
  ⟨some (toGrid (l.lon, l.lat)).1, some (toGrid (l.lon, l.lat)).2, l.alt, pick vars p row "temp",
    pick vars p row "precip", pick vars p row "rel_hum", pick vars p row "wind_speed",
    pick vars p row "wind_dir", pick vars p row "wind_speed_gust"⟩

/-- The stations of the final dataset at a date and whether there are wind gusts (`model.py:182`); `none`:
exception (no or insufficient data, or the date is not in the dataset). -/
def stationsAt (name : ℕ → String) (strict : Bool) (start stop f : ℤ) (toGrid : ℝ × ℝ → ℝ × ℝ)
    (loaded : Option (List (Loaded ℝ Records))) (t : ℤ) : Option (List MeteoFields.Station × Bool) :=
  loaded.bind fun ls =>
  (assemble strict start stop f (ls.map (dataset name))).bind fun c =>
  (c.times.idxOf? t).map fun p =>
    (List.zipWith (fun l row => station toGrid c.vars p l row.2) ls c.rows,
      decide ("wind_speed_gust" ∈ c.vars))

section
variable {ι : Type*} [DecidableEq ι]

/-- Settings of reading the station data, `meteo.py:15-30`. -/
structure Input where
  bounds : Option (Stations.Bounds ℝ)
  exclude : Option (List ℕ)
  inclusion : Option (List ℕ)
  strict : Bool
  start : ℤ
  stop : ℤ
  f : ℤ

/-- Fields of a date from the stations read. -/
noncomputable def fieldsFrom (name : ℕ → String) (inp : Input) (toGrid : ℝ × ℝ → ℝ × ℝ)
    (loaded : Option (List (Loaded ℝ Records))) (c : MeteoFields.Cfgs) (px : ι → MeteoFields.Px)
    (roi : List ι) (t : ℤ) (old : MeteoFields.Fields ι) : Option (MeteoFields.Fields ι) :=
  (stationsAt name inp.strict inp.start inp.stop inp.f toGrid loaded t).bind fun s =>
    MeteoFields.interpolateData { c with hasGusts := s.2 } px roi s.1 old

/-- Fields of a date from netCDF files. -/
noncomputable def fieldsNetcdf (name : ℕ → String) (inp : Input) (toGrid : ℝ × ℝ → ℝ × ℝ)
    (files : List (NcFile ℝ Records)) (c : MeteoFields.Cfgs) (px : ι → MeteoFields.Px) (roi : List ι) (t : ℤ)
    (old : MeteoFields.Fields ι) : Option (MeteoFields.Fields ι) :=
  fieldsFrom name inp toGrid
    (readNetcdf inp.bounds inp.exclude inp.inclusion inp.strict toGrid (prep inp.start inp.stop inp.f)
      (fun d => d.times.isEmpty) files) c px roi t old

/-- Fields of a date from csv files; `toGrid` transforms the coordinates of the table to those of the grid,
`toLonLat` and `back` the latter to longitude and latitude and back (`meteo.py:231-236`,
`forcing.py:306`). -/
noncomputable def fieldsCsv (name : ℕ → String) (inp : Input) (toGrid toLonLat back : ℝ × ℝ → ℝ × ℝ)
    (rows : List (CsvRow ℝ)) (files : ℕ → Option Records) (c : MeteoFields.Cfgs) (px : ι → MeteoFields.Px)
    (roi : List ι) (t : ℤ) (old : MeteoFields.Fields ι) : Option (MeteoFields.Fields ι) :=
  fieldsFrom name inp back
    (readCsvFiles inp.bounds inp.exclude inp.inclusion inp.strict toGrid toLonLat
      (prep inp.start inp.stop inp.f) (fun d => d.times.isEmpty) (some rows) files) c px roi t old

end

end Verif.ForcingPath
