import Verif.Model.Atmosphere
import Verif.Model.Idw

/-!
# Cloud factor, shortwave and longwave irradiance

Mirrors `openamundsen/modules/radiation/irradiance.py:159-327` for one pixel of the domain. The stations of
an extended grid (lines 193-201, 260-264) are added in `Model/ExtIrradiance`.
-/

namespace Verif.Irradiance

open Verif.Atmosphere Verif.Idw

/-- Methods for calculating the cloud factor; `configschema.yml:523-538`. -/
inductive Method
  | prescribed | clearSkyFraction | humidity | constant
  deriving DecidableEq

/-- What a station contributes in a time step. -/
structure Station where
  x : ℝ
  y : ℝ
  /-- cloud fraction (%) -/
  cloud : Option ℝ
  /-- shortwave irradiance -/
  sw : Option ℝ
  /-- within the extent of the grid -/
  within : Bool
  /-- `sw_in_clearsky` at the station's cell: set for pixels of the domain only (`irradiance.py:87`) -/
  clearSky : Option ℝ
  /-- temperature and humidity are available -/
  tempHum : Bool
  /-- result of `cloud_fraction_from_humidity` -/
  humFraction : Option ℝ

/-- Stations selected for each method, `irradiance.py:173, 186-189, 214`. -/
def select (m : Method) (st : List Station) : List Station :=
  match m with
  | .prescribed => st.filter fun s => s.cloud.isSome
  | .clearSkyFraction => st.filter fun s => s.within && s.sw.isSome
  | .humidity => st.filter fun s => s.tempHum
  | .constant => []

/-- The chain of fallbacks, `irradiance.py:171-222`. -/
def chooseMethod (m night : Method) (fallback sunUp : Bool) (st : List Station) : Method :=
  let m1 := if m = .prescribed ∧ (select .prescribed st).length = 0 ∧ fallback = true then .clearSkyFraction
    else m
  let m2 := if m1 = .clearSkyFraction then
      if sunUp then
        if (select .clearSkyFraction st).length = 0 ∧ fallback = true then .humidity else m1
      else night
    else m1
  if m2 = .humidity ∧ (select .humidity st).length = 0 ∧ fallback = true then .constant else m2

open Classical in
/-- `a / b` of floats, NaN as `none`. A clear-sky value of zero (infinite ratio, clipped to 1 at the pixels later on) is
treated like a missing one. -/
noncomputable def ratio (a b : Option ℝ) : Option ℝ :=
  match a, b with
  | some a, some b => if b = 0 then none else some (a / b)
  | _, _ => none

/-- Cloud factor of a selected station, `irradiance.py:240-252, 257, 268-269`. -/
noncomputable def stationFactor (m : Method) (s : Station) : Option ℝ :=
  match m with
  | .prescribed => s.cloud.map fun c => cloudFactor (c / 100)
  | .clearSkyFraction => ratio s.sw s.clearSky
  | .humidity => s.humFraction.map cloudFactor
  | .constant => none

/-- `cloud_factor` of the pixel at `t`, `irradiance.py:224-280`; `prev`: value of the previous time step. -/
noncomputable def cloudFactorAt (m : Method) (st : List Station) (t : ℝ × ℝ) (prev : Option ℝ) : Option ℝ :=
  match m with
  | .constant => some (prev.getD (75 / 100))
  | m =>
    let sel := select m st
    ((idw 2 0 (sel.map fun s => some s.x) (sel.map fun s => some s.y) (sel.map (stationFactor m)) [t]).bind
      fun r => r.head?.join).map (clip 0 1)

/-- `shortwave_irradiance` for one pixel: cloud factor and `sw_in`, `irradiance.py:280, 283`. -/
noncomputable def shortwave (m night : Method) (fallback sunUp : Bool) (st : List Station) (t : ℝ × ℝ)
    (prev clearSky : Option ℝ) : Option ℝ × Option ℝ :=
  let f := cloudFactorAt (chooseMethod m night fallback sunUp st) st t prev
  (f, f.bind fun f => clearSky.map fun c => c * f)

/-- Input of one time step of the run. -/
structure StepIn where
  sunUp : Bool
  stations : List Station
  clearSky : Option ℝ

/-- Cloud factor of a pixel after a sequence of time steps; initially NaN. -/
noncomputable def runFactor (m night : Method) (fallback : Bool) (t : ℝ × ℝ) (steps : List StepIn) : Option ℝ :=
  steps.foldl (fun prev i => (shortwave m night fallback i.sunUp i.stations t prev i.clearSky).1) none

/-- Stefan-Boltzmann constant. -/
noncomputable def sigma : ℝ := 5670374419 / 10 ^ 17

/-- `lw_in`, `irradiance.py:290-327`: `em` clear-sky emissivity, `f` cloud fraction, `rf` fraction of snow-free
pixels, `ts` surface temperature. -/
noncomputable def longwave (em temp svf f rf sw ts : ℝ) : ℝ :=
  em * sigma * temp ^ 4 * svf * (1 - f ^ 2) + 976 / 1000 * sigma * temp ^ 4 * svf * f ^ 2 +
    sigma * (1 - svf) * (rf * (temp + 1 / 100 * sw) ^ 4 + (1 - rf) * ts ^ 4)

end Verif.Irradiance
