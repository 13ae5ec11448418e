import Mathlib.Analysis.SpecialFunctions.Pow.Real
import Verif.Model.Atmosphere

/-!
# Surface properties and surface energy balance

Mirrors `openamundsen/surface.py:7-202, 348-787` for one pixel. Apart from snow albedo (undefined without snow) and
the arguments of the stability factor, all inputs are numbers; the replacement of NaN changes by 0
(lines 777-780) is therefore left out.
-/

namespace Verif.Surface

open Verif.Atmosphere (T0 grav cp rv)

open Classical

/-! ## Surface properties -/

/-- Surface albedo, `surface.py:28-35`; without snow the snow albedo may be NaN. -/
noncomputable def albedo (af : ℝ) (snow : Option ℝ) (soil : ℝ) : Option ℝ :=
  if 0 < af then snow.map fun a => af * a + (1 - af) * soil else some soil

/-- Roughness length, `surface.py:37-40, 415-418`. -/
noncomputable def roughness (af snow soil : ℝ) : ℝ := snow ^ af * soil ^ (1 - af)

/-- Surface conductance, `surface.py:48-58`. -/
noncomputable def conductance (gsat unfrozen sat crit : ℝ) : ℝ := gsat * max ((unfrozen * sat / crit) ^ 2) 1

/-- Thickness of the surface layer, `surface.py:81`. -/
noncomputable def layerThickness (snow soil : ℝ) : ℝ := max snow soil

/-- Temperature of the surface layer, `surface.py:82-85, 88, 97`. -/
noncomputable def layerTemp (dSnow dSoil tSnow tSoil : ℝ) : ℝ :=
  if dSoil < dSnow then tSnow else tSoil + (tSnow - tSoil) * dSnow / dSoil

/-- Thermal conductivity of the surface layer, `surface.py:87, 91-95`. -/
noncomputable def layerCond (dSnow dSoil kSnow kSoil : ℝ) : ℝ :=
  if dSnow ≤ dSoil / 2 then dSoil / (2 * dSnow / kSnow + (dSoil - 2 * dSnow) / kSoil) else kSnow

/-! ## Stability and turbulent exchange -/

/-- `constants.VON_KARMAN`. -/
noncomputable def vonKarman : ℝ := 40 / 100

/-- Bulk Richardson number, `surface.py:407-412`, with the replacement of zero wind (404). -/
noncomputable def richardson (temp ts wind zt zw : ℝ) : ℝ :=
  let w := if wind = 0 then 5 / 10 else wind
  grav * zw ^ 2 * (temp - ts) / (zt * temp * w ^ 2)

/-- `stability_factor` for a given Richardson number, `surface.py:420-442`; `b`: adjustment parameter, `z0`:
roughness length. -/
noncomputable def stabilityOf (b zw z0 ri : ℝ) : ℝ :=
  if 0 ≤ ri then 1 / (1 + 3 * b * ri * Real.sqrt (1 + b * ri))
  else
    let c := 3 * b ^ 2 * vonKarman ^ 2 * Real.sqrt (zw / z0) / Real.log (zw / z0) ^ 2
    1 - 3 * b * ri / (1 + c * Real.sqrt (-ri))

/-- `stability_factor`, `surface.py:348-446`: NaN is replaced by 1 (line 444). -/
noncomputable def stability (b zt zw z0 : ℝ) (temp ts wind : Option ℝ) : ℝ :=
  match temp, ts, wind with
  | some temp, some ts, some wind => stabilityOf b zw z0 (richardson temp ts wind zt zw)
  | _, _, _ => 1

/-- Temperature measurement height above the snow, `surface.py:471-473`. -/
noncomputable def measurementHeight (adjust : Bool) (zt depth : ℝ) : ℝ :=
  if adjust then max (zt - depth) 1 else zt

/-- `calc_turbulent_exchange_coefficient`, `surface.py:449-495`; `sf`: stability factor, or 1 without stability
correction. -/
noncomputable def exchange (zt zw z0 sf : ℝ) : ℝ :=
  vonKarman ^ 2 / (Real.log (zw / z0) * Real.log (zt / (1 / 10 * z0))) * sf

/-! ## Energy balance -/

/-- `constants.STEFAN_BOLTZMANN`. -/
noncomputable def sigma : ℝ := 5670374419 / 10 ^ 17
/-- `constants.LATENT_HEAT_OF_FUSION`. -/
noncomputable def lf : ℝ := 334000
/-- `constants.SPEC_HEAT_CAP_WATER`. -/
noncomputable def cWater : ℝ := 4180
/-- `constants.SPEC_HEAT_CAP_ICE`. -/
noncomputable def cIce : ℝ := 2100

/-- A pixel at the beginning of `multilayer_energy_balance`. -/
structure Pixel where
  /-- seconds -/
  dt : ℝ
  swIn : ℝ
  lwIn : ℝ
  albedo : ℝ
  temp : ℝ
  wetBulb : ℝ
  specHum : ℝ
  rain : ℝ
  snow : ℝ
  wind : ℝ
  density : ℝ
  exch : ℝ
  /-- latent heat of vaporization at air temperature -/
  latVap : ℝ
  /-- surface conductance -/
  gs : ℝ
  /-- snow water equivalent -/
  swe : ℝ
  /-- ice contents of the snow layers, from the top -/
  ice : List ℝ
  ts : ℝ
  layerTemp : ℝ
  layerCond : ℝ
  layerThick : ℝ
  /-- saturation specific humidity at the pixel's pressure as a function of temperature, `surface.py:522-539` -/
  qsat : ℝ → ℝ

/-- Surface variables written by the energy balance. -/
structure Fluxes where
  ts : ℝ
  qs : ℝ
  lat : ℝ
  net : ℝ
  ground : ℝ
  sens : ℝ
  moist : ℝ
  latent : ℝ
  adv : ℝ
  melt : ℝ

namespace Pixel
variable (p : Pixel)

/-- Ice content of the top layer. -/
def ice0 : ℝ := p.ice.headD 0

/-- `rhoa_CH_Ua`, `surface.py:652-656`. -/
noncomputable def transfer : ℝ := p.density * p.exch * p.wind

/-- `calc_moisture_availability`, `surface.py:565-571`, evaluated once at the initial surface temperature. -/
noncomputable def avail : ℝ :=
  if 0 < p.swe then 1
  else if p.qsat p.ts < p.specHum then 1
  else p.gs / (p.gs + p.exch * p.wind)

/-- `calc_latent_heat`, `surface.py:590-595`. -/
noncomputable def latHeat (ts : ℝ) : ℝ := if 0 < p.ice0 ∨ ts < T0 then p.latVap + lf else p.latVap

/-- `calc_radiation_balance`, `surface.py:513-519`. -/
noncomputable def netRad (ts : ℝ) : ℝ :=
  p.swIn - p.albedo * p.swIn + p.lwIn - 99 / 100 * sigma * ts ^ 4

/-- `calc_surface_flux`, `surface.py:617-622`. -/
noncomputable def groundFlux (ts : ℝ) : ℝ := 2 * p.layerCond * (ts - p.layerTemp) / p.layerThick

/-- Sensible heat flux towards the surface, `surface.py:659-661`. -/
noncomputable def sensFlux (ts : ℝ) : ℝ := cp * p.transfer * (p.temp - ts)

/-- Moisture flux towards the surface, `surface.py:664-668`. -/
noncomputable def moistFlux (qs : ℝ) : ℝ := p.avail * p.transfer * (p.specHum - qs)

/-- `calc_advective_heat`, `surface.py:692-703`. -/
noncomputable def advHeat (ts : ℝ) : ℝ :=
  (cWater * (p.temp - ts) * p.rain + cIce * (p.wetBulb - ts) * p.snow) / p.dt

/-- All fluxes at a surface temperature, as computed by lines 132-141 and 169-176. -/
noncomputable def fluxesAt (ts melt : ℝ) : Fluxes where
  ts := ts
  qs := p.qsat ts
  lat := p.latHeat ts
  net := p.netRad ts
  ground := p.groundFlux ts
  sens := p.sensFlux ts
  moist := p.moistFlux (p.qsat ts)
  latent := p.latHeat ts * p.moistFlux (p.qsat ts)
  adv := p.advHeat ts
  melt := melt

/-- Changes of surface temperature, moisture, ground heat and sensible heat flux. -/
structure Change where
  ts : ℝ
  moist : ℝ
  ground : ℝ
  sens : ℝ

/-- `solve_energy_balance`, `surface.py:706-787`. -/
noncomputable def solve (f : Fluxes) : Change :=
  let r := p.transfer
  let dq := f.lat * f.qs / (rv * f.ts ^ 2)
  let dts := (f.net + f.sens + f.latent + f.adv - f.ground - lf * (f.melt / p.dt)) /
    ((cp + f.lat * p.avail * dq) * r + 2 * p.layerCond / p.layerThick + 4 * sigma * f.ts ^ 3)
  { ts := dts
    moist := p.avail * r * dq * dts
    ground := 2 * p.layerCond * dts / p.layerThick
    sens := cp * r * dts }

/-- The updates at the end, `surface.py:196-202`: radiation, latent heat and latent heat flux are computed again,
saturation humidity and advected heat are not. -/
noncomputable def finish (f : Fluxes) (c : Change) : Fluxes :=
  let ts := f.ts + c.ts
  { f with
    ts := ts
    ground := f.ground + c.ground
    sens := f.sens + c.sens
    net := p.netRad ts
    lat := p.latHeat ts
    moist := p.moistFlux f.qs
    latent := p.latHeat ts * p.moistFlux f.qs }

/-- Melt with the surface at the melting point, `surface.py:178-188`. -/
noncomputable def partialMelt : ℝ :=
  let f := p.fluxesAt T0 0
  max ((f.net + f.sens + f.latent + f.adv - f.ground) / lf * p.dt) 0

/-- First stage: change without melt, lines 143-148. -/
noncomputable def dry : Change := p.solve (p.fluxesAt p.ts 0)

/-- Condition for melt, `surface.py:151-153`. -/
def Melts : Prop := T0 < p.ts + p.dry.ts ∧ 0 < p.ice0

/-- Second stage: change if all ice melts, lines 155-163. -/
noncomputable def wet : Change := p.solve (p.fluxesAt p.ts p.ice.sum)

/-- Condition for partial melt, `surface.py:165`. -/
def Partially : Prop := p.Melts ∧ p.ts + p.wet.ts < T0

/-- `multilayer_energy_balance`, `surface.py:109-202`. -/
noncomputable def energyBalance : Fluxes :=
  if p.Partially then p.finish (p.fluxesAt T0 p.partialMelt) ⟨0, 0, 0, 0⟩
  else if p.Melts then p.finish (p.fluxesAt p.ts p.ice.sum) p.wet
  else p.finish (p.fluxesAt p.ts 0) p.dry

end Pixel

end Verif.Surface
