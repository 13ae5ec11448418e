import Mathlib.Data.List.Basic
import Mathlib.Data.List.Forall2
import Mathlib.Data.Nat.Notation

/-!
# Which state variables the parts of a time step read and write

Models the data flow of one time step (`OpenAmundsen.run_single`, `model.py:236-290`, and
`_model_interface`, `model.py:335-387`) together with the optional reset of the state variables
(`StateVariableManager.reset`, `statevars.py:119-130`).

A state assigns a value to every state variable: the part of the field inside the region of interest (no
module changes other pixels in a way that is read again).  What the modules calculate is not modelled here;
every module is an arbitrary function that respects its table entry: the variables it reads, those it sets at
all pixels at which anything ever sets them, and those it sets only at some of these pixels.
Fields that are set only at the pixels of certain land cover classes (leaf area index, canopy and
evapotranspiration variables) stand for their part at these pixels.
Attributes of the submodules that are kept between time steps (index of the temperature history, water
equivalent at the start of the mass balance year) count as variables.

Not covered: meteorological data set by a user-supplied callback, and the external snow management module.
-/

namespace Verif.DataFlow

/-- Table entry of a module: variables read, variables set everywhere, variables set at some pixels. -/
structure Act (V : Type*) where
  reads : List V
  writes : List V
  cond : List V

/-- A state: value of every variable. -/
abbrev State (V α : Type*) := V → α

/-- A function calculates nothing but what its table entry allows: other variables keep their values, the
result depends only on the variables read (and, where a variable is set only at some pixels, on its own
previous value). -/
def Respects {V α : Type*} (a : Act V) (f : State V α → State V α) : Prop :=
  (∀ s v, v ∉ a.writes → v ∉ a.cond → f s v = s v) ∧
  ∀ s s', (∀ v ∈ a.reads, s v = s' v) →
    (∀ v ∈ a.writes, f s v = f s' v) ∧ ∀ v ∈ a.cond, s v = s' v → f s v = f s' v

/-- One time step after the reset (`model.py:269-276`): the modules in their order. -/
def step {V α : Type*} (fs : List (State V α → State V α)) (s : State V α) : State V α :=
  fs.foldl (fun s f => f s) s

/-- Reset (`statevars.py:119-130`): variables that are not retained get the missing value of their
data type. -/
def reset {V α : Type*} (retain : V → Bool) (missing : V → α) (s : State V α) : State V α :=
  fun v => if retain v then s v else missing v

/-- The states after the time steps (`model.py:249-290`; `on` is `config.reset_state_variables`, lines
266-267). -/
def run {V α : Type*} (on : Bool) (retain : V → Bool) (missing : V → α)
    (sem : ℕ → List (State V α → State V α)) (s0 : State V α) : ℕ → State V α
  | 0 => s0
  | n + 1 =>
    let s := run on retain missing sem s0 n
    step (sem n) (if on then reset retain missing s else s)

/-! ## The table -/

/-- State variables (`statevars.py:265-477`, and the `add_variable` calls of the submodules).  `base`
stands for all terrain fields except the scaled curvature, `soilParams` for the constant soil fields, `etParams` for the constant
evapotranspiration fields, `laiEffRest` for the effective leaf area index at pixels of classes without LAI
parameters, `tempIdx` and `massBalanceStart` for the attributes `CanopyModel._temp_idx` (`canopy.py:31`)
and `GlacierModel.mass_balance_start_we` (`glaciermodel.py:32`). -/
inductive Var
  | base | curvature
  -- meteo
  | temp | precip | relHum | windSpeed | windDir
  | last24hTemps | tempIdx
  | atmosPress | satVapPress | vapPress | specHum | specHeatCap | latHeatVap | psychConst
  | wetBulb | dewPoint | precipitableWater | dryAirDensity | snowfall | rainfall
  | swIn | swOut | lwIn | lwOut | netRad | dirInClear | diffInClear | swInClear
  | cloudFactor | cloudFraction
  | topTemp | topRelHum | topWindSpeed | topSwIn | topLwIn
  -- surface
  | surfTemp | surfAlbedo | surfLayerTemp | surfThickness | layerType | roughness | exchCoeff
  | satSpecHum | conductance | moistAvail | latHeat | surfHeatFlux | sensHeatFlux | latHeatFlux
  | moistureFlux | advHeatFlux | surfThermCond
  -- snow
  | swe | snowAlbedo | numLayers | thickness | ice | liquid | snowTemp | density | coldContent
  | layerAlbedo | snowThermCond | depth | melt | sublimation | refreezing | runoff | areaFraction
  | snowHeatCap | canopyLoad | canopySnowfall | canopySublimation | canopyMelt
  -- soil
  | soilParams | soilTemp | soilFrozen | soilUnfrozen | soilHeatFlux | soilHeatCap | soilThermCond
  -- land cover
  | landCover | plantHeight | lai | laiEff | laiEffRest
  -- evapotranspiration
  | etParams | cumSurfaceDepletion | cumRootDepletion | deepPercEvapLayer | sealedInterception
  | refNetRad | refSoilHeatFlux | etRef | cropCoeff | basalCropCoeff | evapCoeff | waterStress
  | deepPercolation | evaporation | transpiration | evapotranspiration
  -- glaciers
  | glacier | massBalanceStart
  deriving DecidableEq

/-- Configuration as far as it decides which modules run (`model.py:65-119`).  `liston` is the wind
interpolation method, `multilayer` is `snow.model`, `tempIndex` is a temperature index `snow.melt.method` (cryo
layers only), `canopy`, `evapo` and `glaciers` switch on the respective modules. -/
structure Cfg where
  liston : Bool
  multilayer : Bool
  tempIndex : Bool
  canopy : Bool
  evapo : Bool
  glaciers : Bool

open Var

/-- `retain=True` in the variable definitions (`statevars.py:265-477`; `multilayermodel.py:17-47`;
`cryolayermodel.py:28-73`; `canopy.py:24-53`; `landcover.py:15-18`; evapotranspiration.py lines
80-136; `glaciermodel.py:31`); attributes of submodules are never reset. -/
def retained (c : Cfg) : Var → Bool
  | base | curvature | cloudFactor | last24hTemps | tempIdx | surfTemp | surfAlbedo | surfLayerTemp
  | surfThickness | swe | snowAlbedo | numLayers | thickness | ice | liquid | snowTemp | coldContent
  | layerAlbedo | snowThermCond | canopyLoad | soilParams | soilTemp | soilFrozen | soilUnfrozen
  | landCover | etParams | cumSurfaceDepletion | cumRootDepletion | deepPercEvapLayer
  | sealedInterception | massBalanceStart => true
  | density => !c.multilayer
  | _ => false

/-- Variables that have got a value before the first time step: retained ones and those set by the
`initialize` methods (`multilayermodel.py:48-60`, `cryolayermodel.py:77-93`) or read from files
(`model.py:612-711`). -/
def initialized (c : Cfg) (v : Var) : Bool :=
  retained c v || match v with
    | depth | areaFraction | sublimation | glacier => true
    | _ => false

/-- meteo/interpolation.py `interpolate_station_data`, lines 13-130: wind directions are interpolated only with
the Liston method. -/
def interpolate (c : Cfg) : Act Var :=
  ⟨base :: if c.liston then [curvature] else [],
   [temp, precip, relHum, windSpeed] ++ if c.liston then [windDir] else [], []⟩

/-- model.py `_process_meteo_data`, lines 815-878. -/
def processMeteo : Act Var :=
  ⟨[base, temp, precip, relHum],
   [atmosPress, satVapPress, vapPress, specHum, specHeatCap, latHeatVap, psychConst, wetBulb, dewPoint,
    precipitableWater, dryAirDensity, snowfall, rainfall, precip], []⟩

/-- radiation/irradiance.py `clear_sky_shortwave_irradiance`, lines 18-89. -/
def clearSky : Act Var :=
  ⟨[base, atmosPress, precipitableWater, surfAlbedo], [dirInClear, diffInClear, swInClear], []⟩

/-- radiation/irradiance.py `shortwave_irradiance`, lines 160-283 (with
`extended_grid_stations_clear_sky_shortwave_irradiance`, lines 92-157). -/
def shortwave : Act Var :=
  ⟨[base, swInClear, cloudFactor, surfAlbedo], [cloudFactor, cloudFraction, swIn], []⟩

/-- radiation/irradiance.py `longwave_irradiance`, lines 286-329. -/
def longwave : Act Var :=
  ⟨[base, precipitableWater, temp, cloudFraction, swe, swIn, surfTemp], [lwIn], []⟩

/-- landcover.py `lai`, lines 53-86. -/
def leafArea : Act Var := ⟨[landCover], [lai, laiEff], []⟩

/-- canopy.py `above_canopy_meteorology`, lines 239-255. -/
def aboveCanopy : Act Var :=
  ⟨[temp, relHum, windSpeed, swIn, lwIn], [topTemp, topRelHum, topWindSpeed, topSwIn, topLwIn], []⟩

/-- canopy.py `meteorology`, lines 67-118. -/
def canopyMeteo : Act Var :=
  ⟨[landCover, laiEff, laiEffRest, swIn, last24hTemps, tempIdx, temp, lwIn, relHum, windSpeed],
   [swIn, last24hTemps, tempIdx, temp, lwIn, relHum, windSpeed], []⟩

/-- canopy.py `snow`, lines 120-236. -/
def canopySnow : Act Var :=
  ⟨[landCover, surfAlbedo, topSwIn, windSpeed, temp, satVapPress, relHum, laiEff, laiEffRest,
    canopyLoad, snowfall, rainfall, precip],
   [canopyLoad, canopySnowfall, canopySublimation, canopyMelt, snowfall, precip], []⟩

/-- multilayermodel.py `compaction`, lines 64-65, `snow.py:104-333`: the density is calculated before it
is used, and only for existing layers. -/
def multiCompaction : Act Var :=
  ⟨[temp, ice, liquid, numLayers, snowTemp, thickness], [thickness], [density]⟩

/-- multilayermodel.py `accumulation`, lines 67-75, and `add_snow`, lines 176-228. -/
def multiAccumulation : Act Var :=
  ⟨[snowfall, wetBulb, temp, snowAlbedo, ice, liquid, numLayers, thickness, snowTemp],
   [snowAlbedo, ice, liquid, numLayers, snowTemp, thickness], []⟩

/-- multilayermodel.py `albedo_aging`, lines 61-62, snow.py `albedo`, lines 9-101. -/
def multiAlbedo : Act Var := ⟨[snowfall, temp, surfTemp, snowAlbedo], [snowAlbedo], []⟩

/-- snow.py `snow_properties`, lines 335-366. -/
def multiProperties : Act Var :=
  ⟨[thickness, ice, liquid], [depth, swe, areaFraction, snowHeatCap], []⟩

/-- soil.py `soil_properties`, lines 7-209. -/
def soilProps : Act Var :=
  ⟨[soilParams, soilTemp, soilFrozen, soilUnfrozen],
   [soilFrozen, soilUnfrozen, soilHeatCap, soilThermCond], []⟩

/-- surface.py `surface_properties` with the cryo layer model, lines 7-43, 449-495. -/
def cryoSurface : Act Var :=
  ⟨[areaFraction, snowAlbedo, depth, temp, surfTemp, windSpeed], [surfAlbedo, roughness, exchCoeff], []⟩

/-- surface.py `surface_properties` with the multilayer model, lines 7-98, 449-495. -/
def multiSurface : Act Var :=
  ⟨[areaFraction, snowAlbedo, depth, temp, surfTemp, windSpeed, soilUnfrozen, soilParams, thickness,
    snowTemp, snowThermCond, soilTemp, soilThermCond],
   [surfAlbedo, roughness, exchCoeff, conductance, surfThickness, surfLayerTemp, surfThermCond], []⟩

/-- surface.py `multilayer_energy_balance`, lines 109-202. -/
def multiEnergy : Act Var :=
  ⟨[surfTemp, atmosPress, conductance, exchCoeff, windSpeed, specHum, swe, temp, ice, surfAlbedo, swIn,
    lwIn, surfThermCond, surfThickness, surfLayerTemp, dryAirDensity, rainfall, snowfall, wetBulb],
   [satSpecHum, moistAvail, latHeat, melt, swOut, lwOut, netRad, surfHeatFlux, moistureFlux, sensHeatFlux,
    latHeatFlux, advHeatFlux, surfTemp], []⟩

/-- surface.py `cryo_layer_energy_balance`, lines 205-345 (the surface conductance is never set). -/
def cryoEnergy : Act Var :=
  ⟨[temp, swe, atmosPress, conductance, exchCoeff, windSpeed, specHum, ice, liquid, coldContent, thickness,
    surfAlbedo, swIn, lwIn, dryAirDensity, rainfall, snowfall, wetBulb],
   [surfTemp, satSpecHum, moistAvail, latHeat, melt, refreezing, surfHeatFlux, coldContent, ice, liquid,
    swOut, lwOut, netRad, moistureFlux, sensHeatFlux, latHeatFlux, advHeatFlux], []⟩

/-- cryolayermodel.py `temperature_index`, lines 189-220. -/
def tempIndexMelt : Act Var := ⟨[thickness, temp, surfAlbedo, swIn, ice], [melt], []⟩

/-- multilayermodel.py `heat_conduction`, lines 77-91. -/
def multiHeat : Act Var :=
  ⟨[numLayers, thickness, soilParams, snowHeatCap, snowTemp, snowThermCond, soilThermCond, surfHeatFlux,
    soilTemp], [snowTemp], []⟩

/-- multilayermodel.py `melt`, lines 93-106. -/
def multiMelt : Act Var :=
  ⟨[numLayers, snowTemp, snowHeatCap, melt, thickness, ice, liquid],
   [thickness, ice, liquid, snowTemp], []⟩

/-- multilayermodel.py `sublimation`, lines 108-137. -/
def multiSublimation : Act Var :=
  ⟨[ice, surfTemp, moistureFlux, wetBulb, numLayers, thickness, liquid, snowAlbedo, temp, snowTemp],
   [sublimation, ice, thickness, snowAlbedo, liquid, numLayers, snowTemp], []⟩

/-- multilayermodel.py `runoff`, lines 139-154. -/
def multiRunoff : Act Var :=
  ⟨[ice, thickness, rainfall, numLayers, snowTemp, liquid, snowHeatCap],
   [snowTemp, ice, liquid, refreezing, runoff], []⟩

/-- multilayermodel.py `update_layers`, lines 156-171, `_update_layers`, lines 518-660. -/
def multiLayers : Act Var :=
  ⟨[numLayers, thickness, ice, liquid, snowHeatCap, snowTemp, depth, snowAlbedo],
   [numLayers, thickness, ice, liquid, snowHeatCap, snowTemp, density, snowAlbedo], []⟩

/-- cryolayermodel.py `compaction`, lines 126-174. -/
def cryoCompaction : Act Var :=
  ⟨[temp, density, ice, liquid, thickness], [density, thickness], []⟩

/-- cryolayermodel.py `accumulation`, lines 176-187, and `add_snow`, lines 420-470. -/
def cryoAccumulation : Act Var :=
  ⟨[snowfall, wetBulb, snowAlbedo, ice, liquid, thickness, density, layerAlbedo],
   [snowAlbedo, ice, liquid, thickness, density, layerAlbedo], []⟩

/-- cryolayermodel.py `albedo_aging`, lines 95-124: the surface layer type is updated first. -/
def cryoAlbedo : Act Var :=
  ⟨[thickness, layerAlbedo, snowAlbedo, snowfall, temp, surfTemp], [layerType, snowAlbedo, layerAlbedo], []⟩

/-- cryolayermodel.py `update_properties`, lines 340-353. -/
def cryoProperties : Act Var :=
  ⟨[thickness, ice, liquid, layerAlbedo, density],
   [depth, swe, areaFraction, snowHeatCap, snowAlbedo, density], []⟩

/-- cryolayermodel.py `melt`, lines 222-238. -/
def cryoMelt : Act Var := ⟨[melt, ice, liquid, thickness], [ice, liquid, thickness], []⟩

/-- cryolayermodel.py `sublimation`, lines 240-277. -/
def cryoSublimation : Act Var :=
  ⟨[ice, moistureFlux, thickness, wetBulb, liquid, density, layerAlbedo, snowAlbedo],
   [sublimation, ice, thickness, liquid, density, layerAlbedo, snowAlbedo], []⟩

/-- cryolayermodel.py `runoff`, lines 279-297. -/
def cryoRunoff : Act Var := ⟨[rainfall, ice, liquid, thickness], [liquid, runoff], []⟩

/-- cryolayermodel.py `update_layers`, lines 299-338. -/
def cryoLayers : Act Var :=
  ⟨[ice, liquid, thickness, coldContent, density, layerAlbedo],
   [ice, liquid, thickness, coldContent, density, layerAlbedo, depth, numLayers], []⟩

/-- soil.py `soil_heat_flux`, lines 247-320. -/
def soilFlux : Act Var :=
  ⟨[numLayers, thickness, snowTemp, snowThermCond, soilParams, soilTemp, soilThermCond, surfHeatFlux],
   [soilHeatFlux], []⟩

/-- soil.py `soil_temperature`, lines 212-245. -/
def soilTemperature : Act Var :=
  ⟨[soilHeatFlux, soilTemp, soilHeatCap, soilThermCond, soilParams], [soilTemp], []⟩

/-- evapotranspiration.py `evapotranspiration`, lines 240-352, with the methods called there (lines
354-640). -/
def evapo : Act Var :=
  ⟨[landCover, etParams, swe, topSwIn, topLwIn, topTemp, topWindSpeed, psychConst, satVapPress, vapPress,
    atmosPress, rainfall, cumSurfaceDepletion, cumRootDepletion, deepPercEvapLayer, sealedInterception],
   [refNetRad, refSoilHeatFlux, etRef, cropCoeff, basalCropCoeff, evapCoeff, waterStress, deepPercolation,
    evaporation, transpiration, evapotranspiration, plantHeight, cumSurfaceDepletion, cumRootDepletion,
    deepPercEvapLayer, sealedInterception], []⟩

/-- glaciermodel.py `update`, lines 42-56, in a time step in which no mass balance year ends. -/
def glacierStart : Act Var :=
  ⟨[ice, liquid, massBalanceStart], [massBalanceStart], []⟩

/-- glaciermodel.py `update`, lines 42-56, and `_update_geometry`, lines 58-133, at the end of a mass balance
year (with the update of the cryo layers at the end). -/
def glacierEnd : Act Var :=
  ⟨[base, glacier, massBalanceStart, ice, liquid, thickness, coldContent, density, layerAlbedo],
   [ice, liquid, thickness, coldContent, density, layerAlbedo, depth, numLayers], []⟩

/-- Modules of one time step in their order (`model.py:269-276, 335-387`); `yearEnd` tells if a mass
balance year ends (`glaciermodel.py:50-56`). -/
def stepActs (c : Cfg) (yearEnd : Bool) : List (Act Var) :=
  [interpolate c, processMeteo, clearSky, shortwave, longwave]
  ++ (if c.evapo || c.canopy then [leafArea] else [])
  ++ (if c.evapo || c.canopy then [aboveCanopy] else [])
  ++ (if c.canopy then [canopyMeteo, canopySnow] else [])
  ++ (if c.multilayer then
      [multiCompaction, multiAccumulation, multiAlbedo, multiProperties, soilProps, multiSurface,
       multiEnergy, multiHeat, multiMelt, multiSublimation, multiRunoff, multiProperties, multiLayers,
       soilFlux, soilTemperature]
    else
      [cryoCompaction, cryoAccumulation, cryoAlbedo, cryoProperties, cryoSurface]
      ++ (if c.tempIndex then [tempIndexMelt] else [cryoEnergy])
      ++ [cryoMelt, cryoSublimation, cryoRunoff, cryoProperties, cryoLayers])
  ++ (if c.evapo then [evapo] else [])
  ++ (if c.glaciers then [if yearEnd then glacierEnd else glacierStart] else [])

/-! ## Declarations -/

/-- Configurations that pass the validation (`conf.py:270-274`: the multilayer model needs the energy
balance; lines 315-322: glaciers need the cryo layers). -/
def accepted (c : Cfg) : Bool :=
  !(c.multilayer && c.tempIndex) && !(c.glaciers && c.multilayer)

/-- Is a state variable declared by the end of the initialization?  statevars.py `add_default_state_variables`,
lines 270-477, with the conditions of lines 347-354 (variables above the canopy) and 388-395 (surface layers);
`multilayermodel.py:18-44`; `cryolayermodel.py:28-73`; `canopy.py:24-53`; `landcover.py:14-18`;
`evapotranspiration.py:79-136`; `glaciermodel.py:30-32`; `model.py:87-115` (which submodules are
created, scaled curvature). -/
def declared (c : Cfg) : Var → Bool
  | curvature => c.liston
  | topTemp | topRelHum | topWindSpeed | topSwIn | topLwIn => c.evapo || c.canopy
  | surfLayerTemp | surfThickness | surfThermCond | snowThermCond => c.multilayer
  | layerType | coldContent | layerAlbedo => !c.multilayer
  | last24hTemps | tempIdx | canopyLoad | canopySnowfall | canopySublimation | canopyMelt => c.canopy
  | landCover | plantHeight | lai | laiEff | laiEffRest => c.canopy || c.evapo
  | etParams | cumSurfaceDepletion | cumRootDepletion | deepPercEvapLayer | sealedInterception | refNetRad
  | refSoilHeatFlux | etRef | cropCoeff | basalCropCoeff | evapCoeff | waterStress | deepPercolation
  | evaporation | transpiration | evapotranspiration => c.evapo
  | glacier | massBalanceStart => c.glaciers
  | _ => true

/-- A time step in which access to a variable that does not exist raises (`Munch.__getattr__`;
`statevars.py:149-163`): `none` if any module reads or sets such a variable. -/
def stepChecked {V α : Type*} (decl : V → Bool) :
    List (Act V) → List (State V α → State V α) → State V α → Option (State V α)
  | a :: as, f :: fs, s =>
    if (a.reads ++ a.writes ++ a.cond).all decl then stepChecked decl as fs (f s) else none
  | _, _, s => some s

/-- Attributes of the model object, and methods of the snow model, that are not always there. -/
inductive Attr
  | landCover | canopy | evapotranspiration | glaciers | temperatureIndex
  deriving DecidableEq

/-- Attributes created in `initialize` (`model.py:87-107`) and methods of the chosen snow model
(`cryolayermodel.py:189`; multilayermodel.py has no `temperature_index`). -/
def created (c : Cfg) : Attr → Bool
  | .landCover => c.canopy || c.evapo
  | .canopy => c.canopy
  | .evapotranspiration => c.evapo
  | .glaciers => c.glaciers
  | .temperatureIndex => !c.multilayer

/-- Attributes used in a time step: `model.py:342-386`, `canopy.py:56-60` (land cover parameters),
evapotranspiration.py (land cover). -/
def used (c : Cfg) : List Attr :=
  (if c.canopy || c.evapo then [.landCover] else [])
  ++ (if c.canopy then [.canopy, .landCover] else [])
  ++ (if c.tempIndex then [.temperatureIndex] else [])
  ++ (if c.evapo then [.evapotranspiration, .landCover] else [])
  ++ (if c.glaciers then [.glaciers] else [])

end Verif.DataFlow
