import Mathlib.Analysis.SpecialFunctions.Pow.Real
import Mathlib.Analysis.SpecialFunctions.Complex.Arg
import Mathlib.Algebra.Order.Floor.Defs

/-!
# Atmospheric formulas

Mirrors `openamundsen/meteo/atmosphere.py:10-222, 225-393, 424-582, 659-706`. Real arithmetic; `none` stands
for NaN or an infinite value.
-/

namespace Verif.Atmosphere

/-! ## Constants, `constants.py:11-22` and `atmosphere.py:6-7` -/

/-- `constants.T0`. -/
noncomputable def T0 : ℝ := 27315 / 100
/-- `STANDARD_ATMOSPHERE`. -/
noncomputable def P0 : ℝ := 101325
/-- `GRAVITATIONAL_ACCELERATION`. -/
noncomputable def grav : ℝ := 980665 / 100000
/-- `SPEC_HEAT_CAP_DRY_AIR`. -/
noncomputable def cp : ℝ := 100468506 / 100000
/-- `STANDARD_SEA_LEVEL_TEMPERATURE`. -/
noncomputable def tSea : ℝ := 15 + T0
/-- `MOLAR_MASS_DRY_AIR`. -/
noncomputable def molar : ℝ := 2896968 / 100000000
/-- `UNIVERSAL_GAS_CONSTANT`. -/
noncomputable def gasConst : ℝ := 8314462618 / 1000000000
/-- `SPEC_GAS_CONSTANT_WATER_VAPOR`. -/
noncomputable def rv : ℝ := 46152 / 100

/-- Surface over which vapor pressure is evaluated. -/
inductive Over
  | water
  | ice
  deriving DecidableEq

/-- Magnus coefficient `a`. -/
noncomputable def Over.a : Over → ℝ
  | .water => 61078 / 100
  | .ice => 61071 / 100
/-- Magnus coefficient `b`. -/
noncomputable def Over.b : Over → ℝ
  | .water => 1708 / 100
  | .ice => 2244 / 100
/-- Magnus coefficient `c`. -/
noncomputable def Over.c : Over → ℝ
  | .water => 23418 / 100
  | .ice => 27244 / 100

/-! ## Pressure -/

/-- Exponent of the pressure profile. -/
noncomputable def expo : ℝ := cp * molar / gasConst

open Classical in
/-- `atmospheric_pressure`, `atmosphere.py:10-29`: a negative base with a fractional exponent gives
NaN. -/
noncomputable def pressure (elev : ℝ) : Option ℝ :=
  let base := 1 - grav * elev / (cp * tSea)
  if base < 0 then none else some (P0 * base ^ expo)

open Classical in
/-- `pressure_to_altitude`, `atmosphere.py:32-54`. -/
noncomputable def altitude (p : ℝ) : Option ℝ :=
  if p / P0 < 0 then none else some ((1 - (p / P0) ^ (1 / expo)) * cp * tSea / grav)

/-! ## Humidity -/

open Classical in
/-- `saturation_vapor_pressure` for a fixed surface, `atmosphere.py:113-131`. -/
noncomputable def svpOver (o : Over) (temp : ℝ) : Option ℝ :=
  let tc := temp - T0
  if o.c + tc = 0 then none else some (o.a * Real.exp (o.b * tc / (o.c + tc)))

open Classical in
/-- `saturation_vapor_pressure` with `over=None`, `atmosphere.py:115-119`. -/
noncomputable def svp (temp : ℝ) : Option ℝ :=
  svpOver (if 0 ≤ temp - T0 then .water else .ice) temp

/-- `vapor_pressure` with `over=None`, `atmosphere.py:134-156`. -/
noncomputable def vaporPressure (temp rh : ℝ) : Option ℝ := (svp temp).map fun s => s * rh / 100

open Classical in
/-- `specific_humidity`, `atmosphere.py:159-178`. -/
noncomputable def specificHumidity (p e : ℝ) : Option ℝ :=
  let den := p - 378 / 1000 * e
  if den = 0 then none else some (622 / 1000 * e / den)

open Classical in
/-- `absolute_humidity`, `atmosphere.py:181-198`. -/
noncomputable def absoluteHumidity (temp e : ℝ) : Option ℝ :=
  if rv * temp = 0 then none else some (e / (rv * temp))

/-- `relative_humidity`, `atmosphere.py:201-222` (saturation vapor pressure is never 0). -/
noncomputable def relativeHumidity (temp ah : ℝ) : Option ℝ :=
  (svp temp).map fun s => 100 * (rv * temp * ah) / s

open Classical in
/-- Dew point for a given ratio `e / a`, `atmosphere.py:367-369`: the logarithm of a number ≤ 0 makes
the result NaN. -/
noncomputable def dewOfRatio (q : ℝ) : Option ℝ :=
  if q ≤ 0 ∨ Over.water.b - Real.log q = 0 then none
  else some (Over.water.c * Real.log q / (Over.water.b - Real.log q) + T0)

/-- `dew_point_temperature`, `atmosphere.py:349-369`. -/
noncomputable def dewPoint (temp rh : ℝ) : Option ℝ :=
  (svpOver .water temp).bind fun s => dewOfRatio (s * rh / 100 / Over.water.a)

/-- `relative_humidity_from_dew_point_temperature`, `atmosphere.py:372-393`. -/
noncomputable def rhFromDew (temp td : ℝ) : Option ℝ :=
  (svpOver .water td).bind fun e => (svpOver .water temp).map fun s => 100 * e / s

/-! ## Wet-bulb temperature -/

/-- `_water_vapor_pressure_difference`, `atmosphere.py:265-290`. -/
noncomputable def vpDiff (temp tw e psych : ℝ) : Option ℝ :=
  (svp tw).map fun s => e - (s - psych * (temp - tw))

open Classical in
/-- The secant iteration of `wet_bulb_temperature`, `atmosphere.py:320-346`, for one element, with fuel
in place of `while True` (an element whose step is within the tolerance is not changed any more).
Inner `none`: NaN or infinite; outer `none`: not finished within the fuel. -/
noncomputable def wetBulbIter (temp e psych tol : ℝ) : ℕ → ℝ → ℝ → ℝ → ℝ → Option (Option ℝ)
  | 0, _, _, _, _ => none
  | n + 1, x0, x1, y0, y1 =>
    if y1 - y0 = 0 then some none
    else
      let d := (x1 - x0) / (y1 - y0) * y1
      if |d| ≤ tol then some (some x1)
      else
        match vpDiff temp (x1 - d) e psych with
        | none => some none
        | some y => wetBulbIter temp e psych tol n x1 (x1 - d) y1 y

/-- `wet_bulb_temperature`, `atmosphere.py:293-346`. -/
noncomputable def wetBulb (fuel : ℕ) (temp e psych : ℝ) : Option (Option ℝ) :=
  match vpDiff temp (temp - 10) e psych, vpDiff temp temp e psych with
  | some y0, some y1 => wetBulbIter temp e psych (1 / 100) fuel (temp - 10) temp y0 y1
  | _, _ => some none

/-! ## Clouds -/

/-- `np.clip(x, lo, hi)`. -/
noncomputable def clip (lo hi x : ℝ) : ℝ := min hi (max lo x)

/-- `cloud_factor_from_cloud_fraction`, `atmosphere.py:526-528`. -/
noncomputable def cloudFactor (f : ℝ) : ℝ := clip 0 1 (1 - 233 / 1000 * f - 415 / 1000 * f ^ 2)

open Classical in
/-- `cloud_fraction_from_cloud_factor`, `atmosphere.py:553-557`. -/
noncomputable def cloudFraction (x : ℝ) : Option ℝ :=
  let a : ℝ := -(415 / 1000)
  let b : ℝ := -(233 / 1000)
  let disc := b ^ 2 - 4 * a * (1 - x)
  if disc < 0 then none else some (clip 0 1 ((-b - Real.sqrt disc) / (2 * a)))

/-- `cloud_fraction_from_humidity`, `atmosphere.py:424-500`; `level` is the pressure level. -/
noncomputable def cloudFractionHumidity (temp rh elev tLapse tdLapse level sat eFold : ℝ) : Option ℝ :=
  (altitude level).bind fun alt =>
  (dewPoint temp rh).bind fun td =>
  (svp (temp - tLapse * (elev - alt))).bind fun s =>
  (svp (td - tdLapse * (elev - alt))).map fun e =>
    clip 0 1 (sat * Real.exp ((100 * e / s - 100) / (100 - eFold)))

/-- `clear_sky_emissivity`, `atmosphere.py:560-582` (for non-negative precipitable water). -/
noncomputable def clearSkyEmissivity (w : ℝ) : ℝ :=
  1 - (1 + w / 10) * Real.exp (-Real.sqrt (12 / 10 + 3 * (w / 10)))

/-- `precipitable_water`, `atmosphere.py:396-421` (`temp ≠ 0`). -/
noncomputable def precipitableWater (temp e : ℝ) : ℝ := 465 / 10 * (e / 100) / temp * 10

/-! ## Wind -/

/-- `%` of floats. -/
noncomputable def fmod (x m : ℝ) : ℝ := x - m * ⌊x / m⌋

/-- `wind_to_uv`, `atmosphere.py:679-681`. -/
noncomputable def windToUv (ws wd : ℝ) : ℝ × ℝ :=
  (-ws * Real.sin (wd * (Real.pi / 180)), -ws * Real.cos (wd * (Real.pi / 180)))

/-- `wind_from_uv`, `atmosphere.py:704-706`; `arctan2(v, u)` is the argument of `u + v i`. -/
noncomputable def windFromUv (u v : ℝ) : ℝ × ℝ :=
  (Real.sqrt (u ^ 2 + v ^ 2), fmod (270 - Complex.arg ⟨u, v⟩ * (180 / Real.pi)) 360)

/-- `log_wind_profile`, `atmosphere.py:630-656` (heights above the roughness length). -/
noncomputable def logWind (ws refHeight height rough : ℝ) : ℝ :=
  ws * (Real.log (height / rough) / Real.log (refHeight / rough))

/-! ## Air density, latent heat and psychrometric constant -/

/-- `GAS_CONSTANT_DRY_AIR`. -/
noncomputable def rDry : ℝ := 287058 / 1000

/-- `dry_air_density`, `atmosphere.py:57-73`. -/
noncomputable def dryAirDensity (temp pressure : ℝ) : ℝ := pressure * (rDry * temp)

/-- Dry air density of the model run, `model.py:847`. -/
noncomputable def modelDensity (temp pressure : ℝ) : ℝ := pressure / (rDry * temp)

/-- `latent_heat_of_vaporization`, `atmosphere.py:76-91`. -/
noncomputable def latentHeat (temp : ℝ) : ℝ := 2501000 - 2361 * (temp - T0)

/-- `specific_heat_capacity_moist_air`, `atmosphere.py:225-239`. -/
noncomputable def moistHeatCap (specHum : ℝ) : ℝ := cp * (1 + 84 / 100 * specHum)

/-- `psychrometric_constant`, `atmosphere.py:242-262`. -/
noncomputable def psychrometric (press cap lat : ℝ) : ℝ := cap * press / (622 / 1000 * lat)

end Verif.Atmosphere
