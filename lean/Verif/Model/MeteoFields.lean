import Verif.Model.MeteoInterp
import Verif.Model.Atmosphere

/-!
# Interpolation of the station data of a time step

Mirrors `openamundsen/meteo/interpolation.py:15-57` (`_param_station_data`) and 210-355
(`interpolate_station_data`). `interpolate_param` is `Verif.MeteoInterp.interpolate`; terrain parameters are
available for all pixels of the region of interest; the interpolation results stored for other submodules
(`model._interpolation`) are not modelled.
-/

namespace Verif.MeteoFields

open Verif.MeteoInterp Verif.Atmosphere

/-- Station coordinates and measurements of one date; `none` = NaN. -/
structure Station where
  x : Option ℝ
  y : Option ℝ
  alt : Option ℝ
  temp : Option ℝ
  precip : Option ℝ
  relHum : Option ℝ
  windSpeed : Option ℝ
  windDir : Option ℝ
  gust : Option ℝ

/-- `dropna` for one station, `interpolation.py:46`: neither of two parameters (twice the same for one
parameter) nor a coordinate may be missing; the second one is stored in `temp`. -/
def stationRec (a b : Station → Option ℝ) (s : Station) : Option Stn :=
  match a s, b s, s.x, s.y, s.alt with
  | some v, some w, some x, some y, some z => some ⟨x, y, z, some v, w⟩
  | _, _, _, _, _ => none

/-- `_param_station_data`, `interpolation.py:15-57`. -/
def stationData (a b : Station → Option ℝ) (st : List Station) : List Stn := st.filterMap (stationRec a b)

/-- Interpolation settings of a parameter on the current date. -/
structure Cfg where
  trend : Trend
  lapse : ℝ
  extrapolate : Bool

/-- `config.meteo.interpolation.wind.method`. -/
inductive WindMethod
  | idw
  | liston (slopeWeight curvWeight : ℝ)
  | other

/-- Settings of the interpolation. -/
structure Cfgs where
  temp : Cfg
  precip : Cfg
  hum : Cfg
  wind : Cfg
  method : WindMethod
  hasGusts : Bool

/-- Coordinates and terrain parameters of a pixel. -/
structure Px where
  x : ℝ
  y : ℝ
  z : ℝ
  slope : ℝ
  aspect : ℝ
  curv : ℝ

/-- The interpolated fields. -/
structure Fields (ι : Type*) where
  temp : ι → Option ℝ
  precip : ι → Option ℝ
  relHum : ι → Option ℝ
  windSpeed : ι → Option ℝ
  windDir : ι → Option ℝ
  gust : ι → Option ℝ

section
variable {ι : Type*} [DecidableEq ι]

/-- `field[roi] = values`. -/
def assign (roi : List ι) (vals : List (Option ℝ)) (old : ι → Option ℝ) : ι → Option ℝ :=
  (roi.zip vals).foldl (fun g pv => Function.update g pv.1 pv.2) old

/-- `interpolate_param` for all pixels of the region of interest; `none`: exception. -/
noncomputable def interpRoi (p : Param) (c : Cfg) (st : List Stn) (px : ι → Px) (temp : ι → Option ℝ)
    (roi : List ι) : Option (List (Option ℝ)) :=
  roi.mapM fun i =>
    (interpolate p c.trend c.lapse c.extrapolate st ⟨(px i).x, (px i).y, (px i).z, (temp i).getD 0⟩).map
      fun r => if p = .relHum then (temp i).bind fun _ => r else r

/-- `_liston_wind_correction`, `interpolation.py:574-591`, and clipping of the speeds (321-324), with missing
cells; see `liston`. -/
noncomputable def listonOpt (slopeWeight curvWeight : ℝ) (cells : List (Option Cell)) :
    List (Option (ℝ × ℝ)) :=
  match Verif.Config.normalize (cells.map fun c => c.map windSlope) (-(1 / 2)) (1 / 2) with
  | none => cells.map fun _ => none
  | some ss => List.zipWith (fun c s => c.bind fun c => s.map fun s =>
      (max (1 / 10) (correctCell slopeWeight curvWeight s c).1,
        (correctCell slopeWeight curvWeight s c).2)) cells ss

/-- `_liston_wind_correction`, `interpolation.py:534-591`: speeds and directions. -/
noncomputable def listonRoi (c : Cfg) (sw cw : ℝ) (st : List Stn) (px : ι → Px) (roi : List ι) :
    Option (List (Option (ℝ × ℝ))) :=
  let us := st.map fun s => { s with v := s.v.map fun v => (windToUv v s.temp).1 }
  let vs := st.map fun s => { s with v := s.v.map fun v => (windToUv v s.temp).2 }
  match interpRoi .windVec c us px (fun _ => none) roi, interpRoi .windVec c vs px (fun _ => none) roi with
  | some u, some v =>
    let cells := List.zipWith (fun i uv => match uv with
      | (some u, some v) =>
        let sd := windFromUv u v
        some (⟨sd.1, sd.2, (px i).slope, (px i).aspect, (px i).curv⟩ : Cell)
      | _ => none) roi (u.zip v)
    some (listonOpt sw cw cells)
  | _, _ => none

/-- `interpolate_station_data`, `interpolation.py:210-355`; `none`: exception. -/
noncomputable def interpolateData (c : Cfgs) (px : ι → Px) (roi : List ι) (st : List Station)
    (old : Fields ι) : Option (Fields ι) :=
  let noTemp : ι → Option ℝ := fun _ => none
  (interpRoi .temp c.temp (stationData (·.temp) (·.temp) st) px noTemp roi).bind fun t =>
  let temp := assign roi t old.temp
  (interpRoi .precip c.precip (stationData (·.precip) (·.precip) st) px noTemp roi).bind fun p =>
  let precip := assign roi p old.precip
  (interpRoi .relHum c.hum (stationData (·.relHum) (·.temp) st) px temp roi).bind fun h =>
  let relHum := assign roi h old.relHum
  match c.method with
  | .idw =>
    (interpRoi .windSpeed c.wind (stationData (·.windSpeed) (·.windSpeed) st) px noTemp roi).bind fun w =>
    let f : Fields ι := ⟨temp, precip, relHum, assign roi w old.windSpeed, old.windDir, old.gust⟩
    if c.hasGusts then
      (interpRoi .windSpeed c.wind (stationData (·.gust) (·.gust) st) px noTemp roi).map fun g =>
        { f with gust := assign roi g old.gust }
    else some f
  | .liston sw cw =>
    (listonRoi c.wind sw cw (stationData (·.windSpeed) (·.windDir) st) px roi).bind fun w =>
    let f : Fields ι := ⟨temp, precip, relHum, assign roi (w.map fun o => o.map Prod.fst) old.windSpeed,
      assign roi (w.map fun o => o.map Prod.snd) old.windDir, old.gust⟩
    if c.hasGusts then
      (listonRoi c.wind sw cw (stationData (·.gust) (·.windDir) st) px roi).map fun g =>
        { f with gust := assign roi (g.map fun o => o.map Prod.fst) old.gust }
    else some f
  | .other => none

end

end Verif.MeteoFields
