import Verif.Model.Atmosphere
import Verif.Model.Canopy

/-!
# Derived meteorological variables

Mirrors `openamundsen/model.py:815-847` (`_process_meteo_data` up to the precipitation phase) for one pixel of
the region of interest, and the order of the calculations in a time step (`model.py:268-287, 335-349`): the
canopy model changes the meteorological variables of forest pixels after the derived variables have been
calculated.
-/

namespace Verif.DerivedMeteo

open Verif.Atmosphere Verif.Canopy

/-- Derived variables; `none` = NaN or infinite. The wet-bulb iteration is bounded by fuel (outer `none`: not
finished). -/
structure Derived where
  press : Option ℝ
  sat : Option ℝ
  vap : Option ℝ
  spec : Option ℝ
  cap : Option ℝ
  lat : Option ℝ
  psych : Option ℝ
  wet : Option (Option ℝ)
  dew : Option ℝ
  pw : Option ℝ
  dens : Option ℝ

open Classical in
/-- `_process_meteo_data`, `model.py:824-847`, for a pixel with elevation, temperature and humidity. -/
noncomputable def process (fuel : ℕ) (elev temp rh : ℝ) : Derived :=
  let press := pressure elev
  let sat := svp temp
  let vap := vaporPressure temp rh
  let spec := press.bind fun p => vap.bind fun e => specificHumidity p e
  let cap := spec.map moistHeatCap
  let lat := latentHeat temp
  let psych := press.bind fun p => cap.bind fun c => if lat = 0 then none else some (psychrometric p c lat)
  { press := press
    sat := sat
    vap := vap
    spec := spec
    cap := cap
    lat := some lat
    psych := psych
    wet := match vap, psych with
      | some e, some g => wetBulb fuel temp e g
      | _, _ => some none
    dew := dewPoint temp rh
    pw := if temp = 0 then none else vap.map (precipitableWater temp)
    dens := if temp = 0 then none else press.map (modelDensity temp) }

/-- Meteorology and derived variables of a pixel as seen by the snow model: `_process_meteo_data` for all
pixels, then `CanopyModel.meteorology` for forest pixels (`lai` and 24 h mean given), which does not
recalculate the derived variables. -/
noncomputable def seen (fuel : ℕ) (elev : ℝ) (forest : Option (MetCfg × ℝ × ℝ)) (m : Met) : Met × Derived :=
  let d := process fuel elev m.temp m.relHum
  match forest with
  | none => (m, d)
  | some (c, lai, mean24) => (metStep c lai mean24 m, d)

end Verif.DerivedMeteo
