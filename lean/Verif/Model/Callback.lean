import Verif.Model.Precip
import Verif.Model.Irradiance
import Verif.Model.Canopy

/-!
# Forcing by a callback

Mirrors the two ways to force a time step, `openamundsen/model.py:269-276, 815-896`: interpolated station data, or fields
assigned by a callback of the user. The fields are those of the region of interest, in the order of its pixels; NaN is
`none`.

Simplified: the temperature that decides on the phase (air or wet-bulb temperature, `model.py:849-854`; `Model/Meteorology`
has the details) and the clear-sky emissivity (`irradiance.py:290`) are arbitrary functions of the assigned fields; snow
management is left out; `reset_state_variables` is set. Intercepted snow (`canopy.py:186-236`) is part of the rest of the model.
-/

namespace Verif.Callback

open Verif.Irradiance

/-- Fields a callback has to assign for a pixel; for station data the result of the interpolation and of the
calculation of cloudiness. -/
structure Given where
  temp : Option ℝ
  precip : Option ℝ
  relHum : Option ℝ
  wind : Option ℝ
  factor : Option ℝ
  fraction : Option ℝ

/-- Everything else that is known of a pixel before the time step: elevation, sky view factor, snow redistribution factor,
surface temperature, clear-sky irradiance; for forest pixels leaf area index and mean temperature of 24 hours. -/
structure Px where
  elev : Option ℝ
  svf : ℝ
  srf : Option ℝ
  surf : ℝ
  clearSky : Option ℝ
  forest : Option (ℝ × ℝ)

/-- Settings and fraction of snow-free pixels (`irradiance.py:315-316`). -/
structure Cfg where
  phase : Precip.Cfg ℝ
  /-- temperature for the phase from temperature and humidity of all pixels -/
  phaseTemp : List (Option ℝ × Option ℝ) → List (Option ℝ)
  /-- clear-sky emissivity from temperature and humidity -/
  emissivity : ℝ → ℝ → Option ℝ
  rock : ℝ
  canopy : Canopy.MetCfg

/-- Fields of a pixel at the end of the time step. -/
structure Out where
  temp : Option ℝ
  precip : Option ℝ
  relHum : Option ℝ
  wind : Option ℝ
  factor : Option ℝ
  fraction : Option ℝ
  snow : Option ℝ
  rain : Option ℝ
  sw : Option ℝ
  lw : Option ℝ

/-- What is recorded at the end of a time step. -/
def Out.record (o : Out) : Given := ⟨o.temp, o.precip, o.relHum, o.wind, o.factor, o.fraction⟩

/-- `sw_in`, `model.py:892-894` (callback) and `irradiance.py:283` (stations). -/
def swIn (p : Px) (g : Given) : Option ℝ := p.clearSky.bind fun c => g.factor.map fun f => c * f

/-- `lw_in`, `irradiance.py:286-327`. -/
noncomputable def lwIn (c : Cfg) (p : Px) (g : Given) : Option ℝ :=
  g.temp.bind fun t => g.relHum.bind fun h => (c.emissivity t h).bind fun em => g.fraction.bind fun f =>
    (swIn p g).map fun sw => longwave em t p.svf f c.rock sw p.surf

/-- Fields before the canopy is taken into account. -/
noncomputable def above (c : Cfg) (p : Px) (g : Given) (o : Precip.Out ℝ) : Out :=
  ⟨g.temp, o.precip, g.relHum, g.wind, g.factor, g.fraction, o.snow, o.rain, swIn p g, lwIn c p g⟩

/-- `CanopyModel.meteorology`, `canopy.py:67-118`: fields below the canopy of forest pixels, if all of them are
available. -/
noncomputable def below (c : Cfg) (p : Px) (o : Out) : Out :=
  match p.forest, o.sw, o.lw, o.temp, o.relHum, o.wind with
  | some (lai, mean24), some sw, some lw, some t, some h, some w =>
    let m := Canopy.metStep c.canopy lai mean24 ⟨sw, lw, t, h, w⟩
    { o with temp := some m.temp, relHum := some m.relHum, wind := some m.wind, sw := some m.sw, lw := some m.lw }
  | _, _, _, _, _, _ => o

/-- Inputs of the phase calculation. -/
def phasePx (p : Px) (g : Given) (t : Option ℝ) : Precip.Px ℝ := ⟨p.elev, t, g.precip, p.srf⟩

/-- A time step up to the snow model, `model.py:272-276, 340-349`; `none`: exception. -/
noncomputable def step (c : Cfg) (ps : List Px) (gs : List Given) : Option (List Out) :=
  let temps := c.phaseTemp (gs.map fun g => (g.temp, g.relHum))
  (Precip.process c.phase (List.zipWith (fun pg t => phasePx pg.1 pg.2 t) (ps.zip gs) temps)).map fun os =>
    List.zipWith (fun pg o => below c pg.1 (above c pg.1 pg.2 o)) (ps.zip gs) os

/-- Station data: cloud factor and cloud fraction of `shortwave_irradiance` (`irradiance.py:226-282`) in place of those of
the callback. `prev`: cloud factor of the previous time step. -/
noncomputable def stationGiven (m night : Method) (fallback sunUp : Bool) (st : List Station) (xy : ℝ × ℝ)
    (prev clearSky : Option ℝ) (temp precip relHum wind : Option ℝ) : Given :=
  let f := (shortwave m night fallback sunUp st xy prev clearSky).1
  ⟨temp, precip, relHum, wind, f, f.bind Atmosphere.cloudFraction⟩

/-- A run: `known` gives what is known of the pixels and the settings from the state of the model, `rest` is the rest of
the time step, `given` the fields of the time step. The result is the states and the fields after every time step. -/
noncomputable def run {S : Type*} (known : S → Cfg × List Px) (rest : S → List Out → S) :
    List (S → List Given) → S → Option (List (S × List Out))
  | [], _ => some []
  | given :: gs, s =>
    match step (known s).1 (known s).2 (given s) with
    | none => none
    | some os => (run known rest gs (rest s os)).map fun l => (rest s os, os) :: l

end Verif.Callback
