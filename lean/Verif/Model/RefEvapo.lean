import Verif.Model.Atmosphere
import Verif.Model.Surface

/-!
# Reference evapotranspiration and climate correction

Mirrors `openamundsen/modules/evapotranspiration/evapotranspiration.py:224-238, 295-301, 354-410, 601-637` for
one pixel. Missing values are not modelled for the reference evapotranspiration (a missing input gives
a missing result, which the callers replace by 0, `Model/Evapo`).
-/

namespace Verif.RefEvapo

/-- Inputs of one pixel and time step (values above the canopy). -/
structure RefIn where
  /-- reference albedo and emissivity of the surface, lines 213-222 -/
  albedo : ℝ
  emissivity : ℝ
  swIn : ℝ
  lwIn : ℝ
  /-- air temperature (K) -/
  temp : ℝ
  /-- psychrometric constant (Pa K-1), saturation and actual vapor pressure (Pa) -/
  psych : ℝ
  es : ℝ
  ea : ℝ
  /-- wind speed at the height of the measurements -/
  wind : ℝ

/-- Settings: height of the wind measurements, time step (s), sun above the horizon. -/
structure RefCfg where
  windHeight : ℝ
  dt : ℝ
  sun : Bool

/-- `_reference_net_radiation`, lines 354-369. -/
noncomputable def netRadiation (i : RefIn) : ℝ :=
  (1 - i.albedo) * i.swIn + (i.lwIn - Surface.sigma * i.emissivity * i.temp ^ 4)

/-- Lines 382-383. -/
noncomputable def soilHeatFlux (c : RefCfg) (i : RefIn) : ℝ :=
  (if c.sun then 1 / 10 else 5 / 10) * netRadiation i

/-- Lines 385-387. -/
noncomputable def wm2ToMJ : ℝ := 1 / 10 ^ 6 * 3600

/-- Line 392, temperature in °C. -/
noncomputable def slope (T : ℝ) : ℝ :=
  4098 * (6108 / 10000 * Real.exp (1727 / 100 * T / (T + 2373 / 10))) / (T + 2373 / 10) ^ 2

/-- Wind speed at 2 m, lines 397-403. -/
noncomputable def wind2 (c : RefCfg) (i : RefIn) : ℝ :=
  Atmosphere.logWind i.wind c.windHeight 2 (3 / 100)

/-- Lines 389-409, before the conversion to the time step. -/
noncomputable def hourly (c : RefCfg) (i : RefIn) : ℝ :=
  let Rn := netRadiation i * wm2ToMJ
  let G := soilHeatFlux c i * wm2ToMJ
  let T := i.temp - 27315 / 100
  let D := slope T
  let gamma := i.psych * (1 / 1000)
  let es := i.es * (1 / 1000)
  let ea := i.ea * (1 / 1000)
  let u2 := wind2 c i
  max ((408 / 1000 * D * (Rn - G) + gamma * 37 / (T + 273) * u2 * (es - ea)) /
    (D + gamma * (1 + 34 / 100 * u2))) 0

/-- `_reference_evapotranspiration`, lines 371-410 (kg m-2 per time step). -/
noncomputable def etRef (c : RefCfg) (i : RefIn) : ℝ := hourly c i * c.dt / 3600

/-- `np.clip`. -/
noncomputable def clip (x lo hi : ℝ) : ℝ := min (max x lo) hi

/-- `climate_correction`, lines 601-637, for given values. -/
noncomputable def climCorr (wind hum height : ℝ) : ℝ :=
  (4 / 100 * (clip wind 1 6 - 2) - 4 / 1000 * (clip hum 20 80 - 45)) *
    (clip height (1 / 10) 10 / 3) ^ ((3 : ℝ) / 10)

/-- `climate_correction` with missing values: `np.nan_to_num` replaces NaN by 0. -/
noncomputable def climCorrNan (wind hum : Option ℝ) (height : ℝ) : ℝ :=
  match wind, hum with
  | some w, some h => climCorr w h height
  | _, _ => 0

/-- Climate correction of a crop coefficient, lines 295-301. -/
noncomputable def corrected (k corr : ℝ) : ℝ := if 45 / 100 ≤ k then k + corr else k

end Verif.RefEvapo
