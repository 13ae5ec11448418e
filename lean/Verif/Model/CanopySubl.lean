import Verif.Model.Atmosphere
import Verif.Model.Canopy
import Mathlib.Analysis.Real.Sqrt
import Mathlib.Analysis.Real.Pi.Bounds

/-!
# Sublimation of snow in the canopy

Model of the mass loss rate of an ice sphere in `CanopyModel.snow`, `openamundsen/modules/canopy/canopy.py:128-184`, for one
forest pixel, over the real numbers; `none` is NaN. Radius and viscosity are positive.
-/

namespace Verif.CanopySubl

/-- `THERM_COND_AIR`, `constants.py:43`. -/
noncomputable def kAir : ℝ := 25 / 1000

/-- `LATENT_HEAT_OF_SUBLIMATION`, `constants.py:30`. -/
noncomputable def latSubl : ℝ := 2501000 + 334000

/-- `MOLAR_MASS_WATER`, `constants.py:18`. -/
noncomputable def molarMass : ℝ := 180153 / 10000000

/-- `UNIVERSAL_GAS_CONSTANT`, `constants.py:19`. -/
noncomputable def gasConst : ℝ := 8314462618 / 1000000000

/-- `spherical_ice_particle_radius` and `kinematic_air_viscosity`, `configschema.yml:943-949`. -/
structure Particle where
  radius : ℝ
  viscosity : ℝ

/-- Air at the pixel: surface albedo, shortwave radiation above the canopy, wind speed, temperature, saturation vapour
pressure and relative humidity, all present. -/
structure Air where
  albedo : ℝ
  sw : ℝ
  wind : ℝ
  temp : ℝ
  satPress : ℝ
  relHum : ℝ

/-- `absorbed_rad`, `canopy.py:129-134`. -/
noncomputable def absorbed (c : Particle) (a : Air) : ℝ := Real.pi * c.radius ^ 2 * (1 - a.albedo) * a.sw

/-- `reynolds`, `canopy.py:136-141`. -/
noncomputable def reynolds (c : Particle) (a : Air) : ℝ :=
  min (max (2 * c.radius * a.wind / c.viscosity) (7 / 10)) 10

/-- `nusselt`, `canopy.py:142`; also the Sherwood number, line 143. -/
noncomputable def nusselt (c : Particle) (a : Air) : ℝ := 179 / 100 + 606 / 1000 * √(reynolds c a)

/-- `wat_vap_sat_dens`, `canopy.py:146-149`, for a positive temperature. -/
noncomputable def satDens (a : Air) : Option ℝ := (Atmosphere.absoluteHumidity a.temp a.satPress).map (622 / 1000 * ·)

/-- `diff_wat_vap`, `canopy.py:152`. -/
noncomputable def diffusivity (a : Air) : ℝ := 206 / 10000000 * (a.temp / 273) ^ (175 / 100 : ℝ)

/-- `omega`, `canopy.py:154-163`. -/
noncomputable def omega (c : Particle) (a : Air) : ℝ :=
  1 / (kAir * a.temp * nusselt c a) * (latSubl * molarMass / (gasConst * a.temp) - 1)

/-- `mass_loss_rate` for a saturation density, `canopy.py:166-175`. Division by zero, which would give infinity in the
program, does not occur for the temperatures of the theorems. -/
noncomputable def rateAt (c : Particle) (a : Air) (dens : ℝ) : ℝ :=
  (2 * Real.pi * c.radius * (a.relHum / 100 - 1) - absorbed c a * omega c a) /
    (latSubl * omega c a + 1 / (diffusivity a * dens * nusselt c a))

open Classical in
/-- `mass_loss_rate` with NaN replaced, `canopy.py:166-176`. For a temperature of 0 K or below the result is NaN
(`0 * inf`, power of a negative number). -/
noncomputable def massLoss (c : Particle) (albedo sw wind temp satPress relHum : Option ℝ) : ℝ :=
  match albedo, sw, wind, temp, satPress, relHum with
  | some al, some sw, some w, some t, some es, some rh =>
    let a : Air := ⟨al, sw, w, t, es, rh⟩
    if 0 < t then
      match satDens a with
      | none => 0
      | some d => rateAt c a d
    else 0
  | _, _, _, _, _, _ => 0

/-- `particle_mass`, `canopy.py:179-181`. -/
noncomputable def particleMass (c : Particle) : ℝ := 4 / 3 * Real.pi * 917 * c.radius ^ 3

/-- `sublim_loss_rate_coeff`, `canopy.py:184`: the input `rate` of `Canopy.snowStep`. -/
noncomputable def lossRate (c : Particle) (albedo sw wind temp satPress relHum : Option ℝ) : ℝ :=
  massLoss c albedo sw wind temp satPress relHum / particleMass c

end Verif.CanopySubl
