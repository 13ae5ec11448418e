import Verif.Model.Atmosphere
import Verif.Model.Surface
import Verif.Model.Evapo

/-!
# Evaporation of sealed surfaces, sparse vegetation

Mirrors `openamundsen/modules/evapotranspiration/evapotranspiration.py:562-594, 820-835`.
-/

namespace Verif.SealedEvap

open Verif.Atmosphere

/-- Weather of a pixel without rainfall: net radiation and soil heat flux (W m-2), temperature (K), psychrometric
constant (Pa K-1), vapor pressures (Pa), air pressure (Pa), wind speed (m s-1). -/
structure Weather where
  rn : ℝ
  g : ℝ
  temp : ℝ
  gamma : ℝ
  es : ℝ
  ea : ℝ
  press : ℝ
  ws : ℝ

/-- Measurement heights, height of the surface (`max_height`) and time step (s). -/
structure Site where
  zWind : ℝ
  zTemp : ℝ
  height : ℝ
  step : ℝ

/-- `LATENT_HEAT_OF_VAPORIZATION`, `constants.py:28`. -/
def lv : ℝ := 2501000

/-- Aerodynamic resistance, `evapotranspiration.py:563-570`. Without wind it is infinite, here the value is 0; in both
cases a quotient by it is 0. -/
noncomputable def resistance (s : Site) (ws : ℝ) : ℝ :=
  let zom := 123 / 1000 * s.height
  let zoh := 1 / 10 * zom
  let d := 2 / 3 * s.height
  Real.log ((s.zWind - d) / zom) * Real.log ((s.zTemp - d) / zoh) / (Surface.vonKarman ^ 2 * ws)

/-- Slope of the saturation vapor pressure, `evapotranspiration.py:574-575`. -/
noncomputable def slope (temp : ℝ) : ℝ :=
  let t := temp - T0
  1000 * 4098 * (6108 / 10000 * Real.exp (1727 / 100 * t / (t + 2373 / 10))) / (t + 2373 / 10) ^ 2

/-- Virtual temperature, `evapotranspiration.py:581`. -/
noncomputable def virtualTemp (temp : ℝ) : ℝ := 101 / 100 * temp

/-- Air density, `evapotranspiration.py:582`. -/
noncomputable def density (press temp : ℝ) : ℝ := press / rDry * virtualTemp temp

/-- Specific heat, `evapotranspiration.py:583-585`. -/
noncomputable def specHeat (gamma press : ℝ) : ℝ := gamma * (622 / 1000) * lv / press

open Classical in
/-- Evaporation in W m-2 before it is limited, `evapotranspiration.py:562, 587-590`. For a sensor below the displacement
height a logarithm is NaN, and line 590 sets the evaporation to 0. -/
noncomputable def flux (s : Site) (w : Weather) : ℝ :=
  let rs := 0
  let ra := resistance s w.ws
  let d := slope w.temp
  if s.zWind < 2 / 3 * s.height ∨ s.zTemp < 2 / 3 * s.height then 0
  else max ((d * (w.rn - w.g) + density w.press w.temp * specHeat w.gamma w.press * (w.es - w.ea) / ra) /
    (d + w.gamma * (1 + rs / ra))) 0

/-- Evaporation of the time step in kg m-2, `evapotranspiration.py:591-594`; the input `pot` of `Evapo.sealedStep`. -/
noncomputable def potential (s : Site) (w : Weather) : ℝ := flux s w / lv * s.step

/-- `sparse_vegetation_adjustment`, `evapotranspiration.py:820-835`, for a sine of the solar elevation other than 0. -/
noncomputable def sparseAdjustment (kmin kmid vf height lat decl : ℝ) : ℝ :=
  let angle := 0
  let sinEl := Real.sin lat * Real.sin decl + Real.cos lat * Real.cos decl * Real.cos angle
  kmin + (kmid - kmin) * min (min 1 (2 * vf)) (max (vf / sinEl) 0 ^ (1 / (1 + height)))

end Verif.SealedEvap
