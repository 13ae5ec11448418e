import Verif.Model.MeteoFields
import Verif.Model.DerivedMeteo
import Verif.Model.WetBulbGrid
import Verif.Model.Precip
import Verif.Model.Coupled
import Verif.Model.CoupledCryo

/-!
# From the station data of a date to the inputs of the snow models

Composition of the stages of a time step (`openamundsen/model.py:263-290`): interpolation of the station data
(`meteo/interpolation.py:210-355`, `Model/MeteoFields`), derived variables (`model.py:815-847`, `Model/DerivedMeteo`)
with the wet-bulb iteration over the whole region of interest (`Model/WetBulbGrid`), precipitation phase and
redistribution (`model.py:849-877`, `Model/Precip`).

Simplified: pixels outside of forests (`CanopyModel.meteorology` changes the fields of forest pixels); incoming
radiation is an input (`Model/Irradiance`, `Model/Longwave`).
-/

namespace Verif.Meteorology

open Verif.MeteoFields

variable {ι : Type*} [DecidableEq ι]

/-- Configuration and terrain. -/
structure Setup (ι : Type*) where
  interp : MeteoFields.Cfgs
  px : ι → MeteoFields.Px
  roi : List ι
  phase : Precip.Cfg ℝ
  /-- `precipitation_phase.method` is `wet_bulb_temp` -/
  byWetBulb : Bool
  /-- snow redistribution factors -/
  srf : ι → Option ℝ

/-- The meteorological variables after `_process_meteo_data` that the snow models use; `none` = NaN. -/
structure Met (ι : Type*) where
  temp : ι → Option ℝ
  relHum : ι → Option ℝ
  wind : ι → Option ℝ
  press : ι → Option ℝ
  spec : ι → Option ℝ
  wet : ι → Option ℝ
  snow : ι → Option ℝ
  rain : ι → Option ℝ

/-- Inputs of the wet-bulb iteration for a pixel, `model.py:832-846`; `none`: one of them is NaN. -/
noncomputable def cell (s : Setup ι) (f : Fields ι) (i : ι) : Option WetBulbGrid.Cell :=
  (f.temp i).bind fun t => (f.relHum i).bind fun h =>
    let d := DerivedMeteo.process 0 (s.px i).z t h
    d.vap.bind fun e => d.psych.map fun g => ⟨t, e, g⟩

/-- Inputs of the phase calculation for a pixel, `model.py:850-856`. -/
def phasePx (s : Setup ι) (f : Fields ι) (wet : ι → Option ℝ) (i : ι) : Precip.Px ℝ :=
  ⟨some (s.px i).z, if s.byWetBulb then wet i else f.temp i, f.precip i, s.srf i⟩

/-- Interpolation and derived variables of a time step, `model.py:268-277, 815-877`, from the stations of the date;
`none`: exception, or the wet-bulb iteration does not end within `fuel` rounds. -/
noncomputable def step (s : Setup ι) (fuel : ℕ) (st : List Station) (old : Fields ι) : Option (Met ι) :=
  (interpolateData s.interp s.px s.roi st old).bind fun f =>
  (WetBulbGrid.wetBulbs fuel (s.roi.map (cell s f))).bind fun w =>
  let wet := assign s.roi w fun _ => none
  (Precip.process s.phase (s.roi.map (phasePx s f wet))).map fun outs =>
    { temp := f.temp
      relHum := f.relHum
      wind := f.windSpeed
      press := fun i => Atmosphere.pressure (s.px i).z
      spec := fun i => (f.temp i).bind fun t => (f.relHum i).bind fun h =>
        (DerivedMeteo.process 0 (s.px i).z t h).spec
      wet := wet
      snow := assign s.roi (outs.map Precip.Out.snow) fun _ => none
      rain := assign s.roi (outs.map Precip.Out.rain) fun _ => none }

/-- Inputs of the multilayer snow model at a pixel with given incoming radiation; `none`: one of them is NaN. Dry air
density `model.py:847`, latent heat `model.py:831`, saturation humidity `surface.py:522-539`. -/
noncomputable def forcing (m : Met ι) (i : ι) (sw lw : ℝ) : Option Coupled.Forcing :=
  (m.temp i).bind fun t => (m.wet i).bind fun w => (m.spec i).bind fun q => (m.press i).bind fun p =>
  (m.wind i).bind fun u => (m.rain i).bind fun r => (m.snow i).map fun n =>
    { temp := t
      wetBulb := w
      specHum := q
      swIn := sw
      lwIn := lw
      wind := u
      rain := r
      snow := n
      density := Atmosphere.modelDensity t p
      latVap := Atmosphere.latentHeat t
      qsat := fun x => (SurfaceTemp.satHumidity p x).getD 0 }

/-- Inputs of the cryolayer snow model. -/
def cryoForcing (m : Met ι) (i : ι) (sw lw : ℝ) (firnDate : Bool) : Option CoupledCryo.Forcing :=
  (m.temp i).bind fun t => (m.wet i).bind fun w => (m.spec i).bind fun q => (m.press i).bind fun p =>
  (m.wind i).bind fun u => (m.rain i).bind fun r => (m.snow i).map fun n =>
    { temp := t
      wetBulb := w
      specHum := q
      press := p
      swIn := sw
      lwIn := lw
      wind := u
      rain := r
      snow := n
      firnDate := firnDate }

/-- A time step: the records of the stations and the incoming radiation. -/
structure Day (ι : Type*) where
  stations : List Station
  sw : ι → ℝ
  lw : ι → ℝ
  firnDate : Bool

/-- Fields at the start of the model, all NaN. In the region of interest the fields of a step do not depend on those of
the step before (`C104_no_memory`), so that every step is started with these. -/
def blank : Fields ι := ⟨fun _ => none, fun _ => none, fun _ => none, fun _ => none, fun _ => none, fun _ => none⟩

/-- Inputs of the multilayer model at a pixel in a series of time steps. -/
noncomputable def forcings (s : Setup ι) (fuel : ℕ) (i : ι) (days : List (Day ι)) : Option (List Coupled.Forcing) :=
  days.mapM fun d => (step s fuel d.stations blank).bind fun m => forcing m i (d.sw i) (d.lw i)

/-- Inputs of the cryolayer model for the region of interest in a series of time steps; `none` also if an input of a
pixel is NaN. -/
noncomputable def cryoForcings (s : Setup ℕ) (fuel : ℕ) (days : List (Day ℕ)) :
    Option (List (ℕ → CoupledCryo.Forcing)) :=
  days.mapM fun d => (step s fuel d.stations blank).bind fun m =>
    (s.roi.mapM fun i => cryoForcing m i (d.sw i) (d.lw i) d.firnDate).map fun fs i =>
      ((s.roi.zip fs).lookup i).getD ⟨0, 0, 0, 0, 0, 0, 0, 0, 0, false⟩

end Verif.Meteorology
