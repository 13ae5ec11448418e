import Verif.Model.FillStations
import Verif.Model.PrecipCorr
import Verif.Model.Precip

/-!
# Correction of the precipitation of a forcing table

Mirrors `correct_station_precipitation`, `openamundsen/meteo/precipcorr.py:25-222`: gap filling, precipitation phase
and the loop over the correction methods. The array operations over all dates and stations are carried out record by
record.
-/

namespace Verif.PrecipTable

open Verif.Atmosphere
open Verif.FillStations (Rec Config)

/-- `config.meteo.precipitation_phase.method`. -/
inductive PhaseMethod
  | temp
  | wetBulbTemp
  | other
  deriving DecidableEq

/-- Settings: phase (method, threshold, range), environment of the transfer functions, steps allowed for the wet-bulb
iteration. -/
structure Settings where
  method : PhaseMethod
  thr : ℝ
  range : ℝ
  env : PrecipCorr.Env
  fuel : ℕ

/-- An entry of `precipitation_correction`: a method handled here, or another one (such as the snow redistribution
factor), which is skipped (`precipcorr.py:124-129`). -/
inductive Entry
  | corr (m : PrecipCorr.Method)
  | other

/-- The methods handled here. -/
def Entry.method? : Entry → Option PrecipCorr.Method
  | .corr m => some m
  | .other => none

open Classical in
/-- `pp_temp` of a (filled) record, `precipcorr.py:90-113`. Outer `none`: NotImplementedError or unfinished
iteration; inner `none`: NaN. -/
noncomputable def phaseTemp (s : Settings) (r : Rec) : Option (Option ℝ) :=
  match s.method with
  | .temp => some r.temp
  | .wetBulbTemp =>
    match r.temp, r.hum with
    | some t, some h =>
      let atmos := pressure r.z
      let vap := vaporPressure t h
      let spec := atmos.bind fun p => vap.bind fun e => specificHumidity p e
      let cap := spec.map moistHeatCap
      let lat := latentHeat t
      let psych := atmos.bind fun p => cap.bind fun c => if lat = 0 then none else some (psychrometric p c lat)
      match vap, psych with
      | some e, some g => wetBulb s.fuel t e g
      | _, _ => some none
    | _, _ => some none
  | .other => none

/-- `snowfall_frac` of a (filled) record, `precipcorr.py:115-120`; `none`: exception. -/
noncomputable def snowfallFrac (s : Settings) (r : Rec) : Option ℝ :=
  (phaseTemp s r).bind fun t => (Precip.phase s.thr s.range t).map fun f => f.getD 0

/-- One record: `orig` is the record of the dataset, of which only the precipitation is written
(`precipcorr.py:66-69, 222`), `filled` its copy with filled gaps. -/
noncomputable def correctRec (s : Settings) (es : List Entry) (orig filled : Rec) : Option Rec :=
  (snowfallFrac s filled).bind fun f =>
    (PrecipCorr.correct s.env (es.filterMap Entry.method?)
      ⟨orig.precip, filled.temp.map (· - T0), filled.wind, f⟩).map fun p => { orig with precip := p }

/-- `correct_station_precipitation`, `precipcorr.py:25-222`: for every date the interpolation settings of its month
and the records of all stations; the result is the dataset afterwards. -/
noncomputable def correctTable (s : Settings) (es : List Entry) (ds : List (Config × List Rec)) :
    Option (List (List Rec)) :=
  if es.length = 0 then some (ds.map Prod.snd)
  else
    (FillStations.fillAll ds).bind fun filled =>
      ((ds.map Prod.snd).zip filled).mapM fun d => (d.1.zip d.2).mapM fun r => correctRec s es r.1 r.2

end Verif.PrecipTable
