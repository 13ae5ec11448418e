import Verif.Model.MeteoInterp

/-!
# Filling missing station data before the precipitation correction

Mirrors `openamundsen/meteo/precipcorr.py:57-86, 224-306`. Station coordinates are taken to be complete.
-/

namespace Verif.FillStations

open Verif.MeteoInterp (Stn Target Trend Param interpolate)

/-- One station on one date: coordinates, temperature, humidity, wind speed and precipitation (each
possibly missing). The recorded arrays are copied before filling, `precipcorr.py:66-69`. -/
structure Rec where
  x : ℝ
  y : ℝ
  z : ℝ
  temp : Option ℝ
  hum : Option ℝ
  wind : Option ℝ
  precip : Option ℝ

/-- Interpolation settings of one variable for the month of the date. -/
structure Settings where
  trend : Trend
  lapse : ℝ
  extrapolate : Bool

/-- `temp_config.regression_params.max_segments = 1`, `precipcorr.py:247-252`: piecewise regression is
replaced by linear regression. -/
def oneSegment (s : Settings) : Settings :=
  { s with trend := match s.trend with
    | .piecewise _ => .regression
    | t => t }

/-- The three settings. -/
structure Config where
  temp : Settings
  hum : Settings
  wind : Settings

/-- Filling of one variable on one date, `precipcorr.py:257-271` (and `273-289`, `291-305`): `get` reads
the variable, `set` writes it and `f` interpolates from the stations with a value to one without. `none`:
exception. -/
def fillVar (get : Rec → Option ℝ) (set : Rec → Option ℝ → Rec)
    (f : List Rec → Rec → Option (Option ℝ)) (rs : List Rec) : Option (List Rec) :=
  let numNan := (rs.filter fun r => (get r).isNone).length
  if numNan > 0 ∧ numNan < rs.length then
    rs.mapM fun r =>
      if (get r).isNone then (f (rs.filter fun q => (get q).isSome) r).map (set r) else some r
  else some rs

/-- Interpolation of temperature or wind speed, `precipcorr.py:260-271, 294-305`. -/
noncomputable def interpPlain (p : Param) (s : Settings) (get : Rec → Option ℝ) (src : List Rec) (r : Rec) :
    Option (Option ℝ) :=
  interpolate p s.trend s.lapse s.extrapolate (src.map fun q => ⟨q.x, q.y, q.z, get q, 0⟩) ⟨r.x, r.y, r.z, 0⟩

/-- Interpolation of humidity with the (filled) temperatures, `precipcorr.py:276-289`: a missing
temperature makes the dew point of a station and the result at a target NaN. -/
noncomputable def interpHum (s : Settings) (src : List Rec) (r : Rec) : Option (Option ℝ) :=
  (interpolate .relHum s.trend s.lapse s.extrapolate
      (src.map fun q => ⟨q.x, q.y, q.z, q.temp.bind fun _ => q.hum, q.temp.getD 0⟩)
      ⟨r.x, r.y, r.z, r.temp.getD 0⟩).map fun v => r.temp.bind fun _ => v

/-- One date, `precipcorr.py:254-305`. -/
noncomputable def fillDate (c : Config) (rs : List Rec) : Option (List Rec) :=
  (fillVar Rec.temp (fun r v => { r with temp := v }) (interpPlain .temp (oneSegment c.temp) Rec.temp) rs).bind
    fun r1 =>
      (fillVar Rec.hum (fun r v => { r with hum := v }) (interpHum (oneSegment c.hum)) r1).bind fun r2 =>
        fillVar Rec.wind (fun r v => { r with wind := v }) (interpPlain .windSpeed c.wind Rec.wind) r2

open Classical in
/-- `(precips > 0).any(axis=1)` for one date, `precipcorr.py:85`. -/
noncomputable def wet (rs : List Rec) : Bool :=
  rs.any fun r => decide (∃ p, r.precip = some p ∧ p > 0)

/-- The loop over the selected dates, `precipcorr.py:240-255`; the settings of a date are those of its
month. -/
noncomputable def fillAll (ds : List (Config × List Rec)) : Option (List (List Rec)) :=
  ds.mapM fun d => if wet d.2 then fillDate d.1 d.2 else some d.2

end Verif.FillStations
