import Verif.Model.Surface
import Verif.Model.HeatConduction

/-!
# Soil

Mirrors `openamundsen/modules/soil/soil.py:30-339` and `openamundsen/modules/soil/init.py:32-78` for one pixel and
layer. Real arithmetic; the arguments of fractional powers are positive wherever the program evaluates them for
positive parameters.
-/

namespace Verif.Soil

open Verif.Atmosphere (T0 grav)
open Verif.Surface (lf cWater cIce)
open Classical

/-! ## Constants, `constants.py:35-47` -/

/-- `WATER_DENSITY`. -/
noncomputable def rhoWater : ℝ := 1000
/-- `ICE_DENSITY`. -/
noncomputable def rhoIce : ℝ := 917
/-- `THERM_COND_AIR`. -/
noncomputable def kAir : ℝ := 25 / 1000
/-- `THERM_COND_CLAY`. -/
noncomputable def kClay : ℝ := 116 / 100
/-- `THERM_COND_ICE`. -/
noncomputable def kIce : ℝ := 224 / 100
/-- `THERM_COND_SAND`. -/
noncomputable def kSand : ℝ := 157 / 100
/-- `THERM_COND_WATER`. -/
noncomputable def kWater : ℝ := 56 / 100

/-- Soil parameters of a pixel. -/
structure Params where
  /-- `vol_heat_cap_dry` -/
  capDry : ℝ
  /-- `clapp_hornberger` -/
  b : ℝ
  /-- `sat_water_pressure` -/
  psi : ℝ
  /-- `vol_moisture_content_sat` -/
  sat : ℝ
  /-- `vol_moisture_content_crit` -/
  crit : ℝ
  /-- `therm_cond_dry` -/
  condDry : ℝ

/-- `therm_cond_minerals`, `init.py:65-70`. -/
noncomputable def condMinerals (clay : ℝ) : ℝ := kClay ^ clay * kSand ^ (1 - clay)

/-- `initialize`, `init.py:43-75`. -/
noncomputable def init (sand clay : ℝ) : Params :=
  let b := 31 / 10 + 157 / 10 * clay - 3 / 10 * sand
  let psi := (10 : ℝ) ^ (17 / 100 - 63 / 100 * clay - 158 / 100 * sand)
  let sat := 505 / 1000 - 37 / 1000 * clay - 142 / 1000 * sand
  { capDry := (2128000 * sand + 2385000 * clay) / (sand + clay)
    b := b
    psi := psi
    sat := sat
    crit := sat * (psi / (3364 / 1000)) ^ (1 / b)
    condDry := kAir ^ sat * condMinerals clay ^ (1 - sat) }

/-- Initial volumetric moisture content, `init.py:78`. -/
noncomputable def initMoisture (p : Params) (frac : ℝ) : ℝ := frac * p.sat

/-! ## Moisture phases, `soil.py:102-165` -/

/-- `kappa`, lines 105-110. -/
noncomputable def kappa : ℝ := 1 * (rhoIce / rhoWater * lf / (T0 * grav))

/-- Temperature above which all moisture is unfrozen, lines 118-124. -/
noncomputable def tempMax (p : Params) (θ : ℝ) : ℝ := T0 - p.psi / kappa * (p.sat / θ) ^ p.b

/-- Maximum unfrozen content, lines 128-130. -/
noncomputable def maxUnfrozen (p : Params) (t : ℝ) : ℝ := p.sat * (-kappa * (t - T0) / p.psi) ^ (-1 / p.b)

/-- Unfrozen volumetric moisture content, lines 126-137 and 148. -/
noncomputable def unfrozen (p : Params) (θ t : ℝ) : ℝ :=
  if t < tempMax p θ then min (maxUnfrozen p t) θ else θ

/-- `dTheta_u_by_dT`, lines 140-146 and 149. -/
noncomputable def dUnfrozen (p : Params) (θ t : ℝ) : ℝ :=
  if t < tempMax p θ then
    kappa * p.sat / (p.b * p.psi) * (-kappa * (t - T0) / p.psi) ^ (-1 / p.b - 1)
  else 0

/-- Frozen volumetric moisture content, lines 151-155. -/
noncomputable def frozen (p : Params) (θ t : ℝ) : ℝ := (θ - unfrozen p θ t) * rhoWater / rhoIce

/-- `frac_unfrozen_moisture_content`, lines 158-160. -/
noncomputable def fracUnfrozen (p : Params) (θ t : ℝ) : ℝ := unfrozen p θ t / p.sat

/-- `frac_frozen_moisture_content`, lines 161-165. -/
noncomputable def fracFrozen (p : Params) (θ t : ℝ) : ℝ := rhoIce / rhoWater * frozen p θ t / p.sat

/-! ## Heat capacity and conductivity -/

/-- Volumetric heat capacity, lines 168-178 and 208. -/
noncomputable def volHeatCap (p : Params) (θ t : ℝ) : ℝ :=
  if 0 < θ then
    p.capDry + rhoWater * cWater * unfrozen p θ t + rhoIce * cIce * frozen p θ t +
      rhoWater * ((cWater - cIce) * t + lf) * dUnfrozen p θ t
  else p.capDry

/-- Areal heat capacity, lines 181 and 208. -/
noncomputable def heatCap (p : Params) (θ t thickness : ℝ) : ℝ := volHeatCap p θ t * thickness

/-- Liquid water saturation concentration, lines 185-191. -/
noncomputable def liquidSat (p : Params) (θ t : ℝ) : ℝ :=
  p.sat * (fracUnfrozen p θ t / (fracUnfrozen p θ t + fracFrozen p θ t))

/-- Conductivity of saturated soil, lines 194-199. -/
noncomputable def condSat (p : Params) (θ t : ℝ) : ℝ :=
  p.condDry * kWater ^ liquidSat p θ t * kIce ^ (p.sat - liquidSat p θ t) / kAir ^ p.sat

/-- Effective thermal conductivity, lines 202-206 and 209. -/
noncomputable def cond (p : Params) (θ t : ℝ) : ℝ :=
  if 0 < θ then (condSat p θ t - p.condDry) * θ / p.sat + p.condDry else p.condDry

/-! ## Temperature and heat flux -/

variable {K : Type*} [Field K] [LinearOrder K]

/-- The column passed by `soil_temperature`, `soil.py:228-244`: the bottom boundary repeats the lowest layer. -/
def column (N : ℕ) (dx T lam hc : ℕ → K) (dt flux : K) : Heat.Column K where
  N := N
  dx := dx
  T := T
  lam := lam
  hc := hc
  dt := dt
  Tbottom := T (N - 1)
  dxBottom := dx (N - 1)
  lamBottom := lam (N - 1)
  flux := flux

/-- `soil_temperature`, `soil.py:228-244`, over the pixels `ι` of the domain: new temperatures by layer and pixel. -/
def soilTemperature {ι : Type*} (N : ℕ) (dx T lam hc : ℕ → ι → K) (dt : K) (flux : ι → K) (k : ℕ) (i : ι) : K :=
  let dT := Heat.tempChangeArr
    { N := N, dx := dx, T := T, lam := lam, hc := hc, dt := dt, Tbottom := T (N - 1), dxBottom := dx (N - 1),
      lamBottom := lam (N - 1), flux := flux }
  T k i + (dT.getD k fun _ => 0) i

/-- A layer as seen by `_soil_heat_flux`. -/
structure FluxLayer (K : Type*) where
  thickness : K
  temp : K
  cond : K

/-- `_soil_heat_flux`, `soil.py:328-339`, for the active snow layers from the top and the top soil layer. -/
def heatFlux (surface : K) (snow : List (FluxLayer K)) (soil : FluxLayer K) : K :=
  match snow.getLast? with
  | none => surface
  | some s => 2 / (s.thickness / s.cond + soil.thickness / soil.cond) * (s.temp - soil.temp)

end Verif.Soil
