import Verif.Model.Atmosphere

/-!
# Aggregation of the wind direction

Mirrors `openamundsen/fileio/meteo.py:614-650`.
-/

namespace Verif.WindDir

open Verif.Atmosphere

/-- A record: wind speed and direction, either can be missing. If there is no wind speed column all speeds are
missing, `meteo.py:636-639`. -/
abbrev Record := Option ℝ × Option ℝ

/-- `wind_u`, `wind_v`, `meteo.py:641-643`. -/
noncomputable def uv (r : Record) : Option (ℝ × ℝ) :=
  match r.1, r.2 with
  | some ws, some wd => some (windToUv ws wd)
  | _, _ => none

/-- `mean` of a resampling bin, `meteo.py:646`: missing values are skipped, the mean of no values is missing. -/
noncomputable def mean (xs : List ℝ) : Option ℝ :=
  if xs = [] then none else some (xs.sum / xs.length)

/-- `_aggregate_wind_dir` for the records of one bin, `meteo.py:634-650`. Both components are missing in the same
records. -/
noncomputable def aggregateDir (rs : List Record) : Option ℝ :=
  let vs := rs.filterMap uv
  match mean (vs.map Prod.fst), mean (vs.map Prod.snd) with
  | some u, some v => some (windFromUv u v).2
  | _, _ => none

end Verif.WindDir
