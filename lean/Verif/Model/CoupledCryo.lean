import Verif.Model.CryoLayer
import Verif.Model.Snow
import Verif.Model.SurfaceTemp

/-!
# The coupled cryolayer model for a domain

The calls of `_model_interface` (`model.py:354-377`) with `snow.model == "cryolayers"` and the energy balance, each
taking its arguments from the state left by the others, and the initial state written by
`_initialize_state_variables` (`model.py:507-513`). Pixels are numbered; only the search for the surface temperature
works on all of them at once. Canopy, evapotranspiration, snow management and glaciers are off, soil is not simulated
with this snow model (`model.py:67`). The meteorological fields are present (no NaN).
-/

namespace Verif.CoupledCryo

open Verif.Cryo (CPixel CLayer)
open Classical

/-- `surface_temperature_iteration_method`. -/
inductive Search
  | legacy
  | secant

/-- Configuration. -/
structure Site where
  /-- time step in seconds -/
  dt : ℝ
  albedo : Snow.AlbedoCfg
  /-- `snow.albedo.firn` -/
  firnAlb : ℝ
  /-- `snow.albedo.ice` -/
  iceAlb : ℝ
  /-- `use_single_snow_albedo` -/
  single : Bool
  /-- `decay_timescale_determination_temperature` is `"air"`, `snow.py:45-48` -/
  ageByAir : Bool
  lwcMethod : MultiLayer.LwcMethod
  maxFrac : ℝ
  /-- `transition.old_snow` -/
  oldDensity : ℝ
  /-- `transition.ice` -/
  iceDens : ℝ
  coldCapacity : ℝ
  refreezeFactor : ℝ
  /-- `surface_heat_flux` -/
  heatFlux : ℝ
  search : Search
  /-- `snow_cover_fraction_depth_scale` -/
  depthScale : ℝ
  snowRough : ℝ
  soilRough : ℝ
  soilAlbedo : ℝ
  /-- `measurement_height_adjustment` -/
  adjust : Bool
  zt : ℝ
  zw : ℝ
  /-- `stability_adjustment_parameter` if `stability_correction` is on -/
  stab : Option ℝ
  /-- `soil.init_temp`, the initial surface temperature -/
  initTemp : ℝ

/-- Meteorological values of a pixel in one time step. -/
structure Forcing where
  temp : ℝ
  wetBulb : ℝ
  specHum : ℝ
  /-- air pressure -/
  press : ℝ
  swIn : ℝ
  lwIn : ℝ
  wind : ℝ
  rain : ℝ
  snow : ℝ
  /-- the step is the first one of the month configured as `transition.firn`, `Cryo.firnDate` -/
  firnDate : Bool

/-- State of a pixel between two time steps. -/
structure State where
  snow : CPixel ℝ
  /-- surface temperature -/
  ts : ℝ

/-- Initial state: `cryolayermodel.py:77-92` (the albedo keeps the NaN of its creation), `soil/init.py:35`,
`model.py:513`. -/
noncomputable def initial (c : Site) : State where
  snow := ⟨Cryo.emptyLayer, Cryo.emptyLayer, Cryo.emptyLayer, Cryo.emptyLayer, none⟩
  ts := c.initTemp

/-! ## Snow before the energy balance -/

/-- The entries of a layer used by the functions of `snow.py`. -/
noncomputable def toD (L : CLayer ℝ) : Snow.DLayer := ⟨L.thick, L.ice, L.lwc, T0, L.dens⟩

/-- A layer after `_compaction_anderson`, which writes density and thickness. -/
def compacted (L : CLayer ℝ) (D : Snow.DLayer) : CLayer ℝ := { L with dens := D.dens, thick := D.thick }

/-- `compaction`, `cryolayermodel.py:126-174`; the layers NEW_SNOW and OLD_SNOW are passed to
`_compaction_anderson` even where they do not exist. -/
noncomputable def compaction (c : Site) (temp : ℝ) (p : CPixel ℝ) : Option (CPixel ℝ) :=
  match Snow.anderson c.dt (some temp) [toD p.new, toD p.old], Cryo.compactFirn c.iceDens c.dt p.firn,
      Cryo.compactIce c.iceDens p.ice with
  | some [n, o], some f, some i =>
    some { p with new := compacted p.new n, old := compacted p.old o, firn := f, ice := i }
  | _, _, _ => none

/-- `albedo` of the pixel, `snow.py:39-73`; `ts`: surface temperature of the last step. -/
noncomputable def aged (c : Site) (f : Forcing) (ts : ℝ) : Option ℝ → Option ℝ :=
  Snow.albedo c.albedo c.dt (some (if c.ageByAir then f.temp else ts)) (some f.snow)

/-- Fresh snow density, `cryolayermodel.py:183, 272`. -/
noncomputable def fresh (f : Forcing) : ℝ := Snow.freshSnowDensity (some f.wetBulb)

/-- Compaction, accumulation, ageing and `update_properties`, `model.py:354-360`. -/
noncomputable def prepare (c : Site) (f : Forcing) (s : State) : Option (CPixel ℝ) :=
  match compaction c f.temp s.snow with
  | none => none
  | some p0 => some (Cryo.updateProperties (Cryo.albedoAging c.single c.firnAlb c.iceAlb (aged c f s.ts)
      (Cryo.accumulation c.single c.albedo.max (fresh f) (some f.snow) p0)))

/-! ## Surface -/

/-- The layers of a pixel. -/
def layers (p : CPixel ℝ) : List (CLayer ℝ) := [p.new, p.old, p.firn, p.ice]

/-- Snow cover fraction, `snow.py:353-359`. -/
noncomputable def fraction (c : Site) (p : CPixel ℝ) : ℝ := Snow.areaFraction c.depthScale ((layers p).map toD)

/-- Turbulent exchange coefficient, `surface.py:41, 449-495`. -/
noncomputable def exchange (c : Site) (f : Forcing) (ts : ℝ) (p : CPixel ℝ) : ℝ :=
  let z0 := Surface.roughness (fraction c p) c.snowRough c.soilRough
  let zt := Surface.measurementHeight c.adjust c.zt p.depth
  let sf := match c.stab with
    | none => 1
    | some b => Surface.stability b zt c.zw z0 (some f.temp) (some ts) (some f.wind)
  Surface.exchange zt c.zw z0 sf

/-- The values used by the energy balance, given the surface albedo: `surface_properties`, `surface.py:28-42`, with
the snow state `p` after `update_properties`; the surface temperature is set to air temperature first
(`surface.py:229`). Surface conductance and surface layer belong to the other snow model (lines 44-60); the zeros are
not used. Saturation humidity does not exist where vapor pressure is 1/0.378 of the air pressure; 0 stands for it. -/
noncomputable def surfacePixel (c : Site) (f : Forcing) (ts : ℝ) (p : CPixel ℝ) (a : ℝ) : Surface.Pixel where
  dt := c.dt
  swIn := f.swIn
  lwIn := f.lwIn
  albedo := a
  temp := f.temp
  wetBulb := f.wetBulb
  specHum := f.specHum
  rain := f.rain
  snow := f.snow
  wind := f.wind
  density := Atmosphere.modelDensity f.temp f.press
  exch := exchange c f ts p
  latVap := Atmosphere.latentHeat f.temp
  gs := 0
  swe := p.swe
  ice := (layers p).map CLayer.ice
  ts := f.temp
  layerTemp := 0
  layerCond := 0
  layerThick := 0
  qsat := fun t => (SurfaceTemp.satHumidity f.press t).getD 0

/-- A pixel at the beginning of `cryo_layer_energy_balance`. -/
structure Prep where
  snow : CPixel ℝ
  surf : Surface.Pixel

/-- Up to `surface_properties`, `model.py:354-365`; `none` if a NaN arises. -/
noncomputable def prep (c : Site) (f : Forcing) (s : State) : Option Prep :=
  match prepare c f s with
  | none => none
  | some p =>
    match Surface.albedo (fraction c p) p.albedo c.soilAlbedo with
    | none => none
    | some a => some ⟨p, surfacePixel c f s.ts p a⟩

/-- `lat_heat` of the pixel, computed at air temperature (`surface.py:229, 242`) and not updated. -/
noncomputable def Prep.lat (x : Prep) : ℝ := x.surf.latHeat x.surf.temp

/-- `energy_balance_remainder` of a snow-covered pixel (moisture availability 1, `surface.py:570`). -/
noncomputable def Prep.balance (c : Site) (x : Prep) (t : ℝ) : ℝ :=
  SurfaceTemp.remainder x.surf 1 x.lat c.heatFlux t

/-- `frosties`, `surface.py:233`. -/
def Prep.Frosty (x : Prep) : Prop := 0 < x.snow.swe ∧ x.surf.temp < T0

/-! ## Search for the surface temperature -/

/-- `iterate_surface_temperature`, `surface.py:843-903`, for the pixels `idxs`, balances `bal` and air temperatures
`air`: surface temperatures, and the temperatures at which saturation humidity was evaluated last. `none` if the loop
does not end. -/
noncomputable def search (m : Search) (bal : ℕ → ℝ → ℝ) (idxs : List ℕ) (air : ℕ → ℝ) :
    Option ((ℕ → ℝ) × (ℕ → ℝ)) :=
  match m with
  | .legacy =>
    let ts := SurfaceTemp.legacy (idxs.map fun i => ⟨air i, fun t => some (bal i t)⟩)
    let r := fun i => if i ∈ idxs then ts.getD (idxs.idxOf i) 0 else air i
    some (r, r)
  | .secant =>
    if h : ∃ n, (SurfaceTemp.secant bal idxs air n).2.2 = true then
      let r := SurfaceTemp.secant bal idxs air (Nat.find h)
      some (r.1, r.2.1)
    else none

/-! ## After the search -/

/-- Surface temperature after the energy balance, `surface.py:229, 250, 341`; `t`: result of the search. -/
noncomputable def surfaceTemp (x : Prep) (t : ℝ) : ℝ :=
  if 0 < x.snow.swe then (if x.surf.temp < T0 then t else T0) else x.surf.temp

/-- `moisture_flux`, `surface.py:344, 664-668`; saturation humidity is that of its last evaluation, at `t` for `frosties`.
Moisture availability of bare ground is NaN because surface
conductance is not computed, except for humid air (`surface.py:565-571`). -/
noncomputable def moisture (x : Prep) (t : ℝ) : Option ℝ :=
  let q := x.surf.qsat (surfaceTemp x t)
  let flux := x.surf.transfer * (x.surf.specHum - q)
  if 0 < x.snow.swe ∨ x.surf.qsat x.surf.temp < x.surf.specHum then some flux else none

/-- The configuration of the snow part. -/
def cryoCfg (c : Site) : Cryo.Cfg ℝ where
  dt := c.dt
  albMax := c.albedo.max
  firnAlb := c.firnAlb
  iceAlb := c.iceAlb
  single := c.single
  lwcMethod := c.lwcMethod
  maxFrac := c.maxFrac
  oldDensity := c.oldDensity
  iceDens := c.iceDens
  coldCapacity := c.coldCapacity
  refreezeFactor := c.refreezeFactor
  ddf := 0
  albFactor := 0
  threshold := 0

/-- Melt and refreezing of the energy balance, melt, sublimation, runoff, `update_properties` and `update_layers`,
`surface.py:244-338`, `model.py:373-377`; `te`: temperature of the last evaluation of humidity. Melt and refreezing
both use the balance at the melting point. -/
noncomputable def massStep (c : Site) (f : Forcing) (x : Prep) (te : ℝ) : Option (Cryo.Fluxes ℝ × CPixel ℝ) :=
  let m := Cryo.meltAmount (cryoCfg c) (.energy f.temp (some (x.balance c T0))) x.snow
  let s := Cryo.sublimation c.dt (fresh f) c.albedo.max c.single (moisture x te) (Cryo.melt m.1 m.2.2)
  let r := Cryo.runoff c.lwcMethod c.maxFrac (some f.rain) s.2
  match Cryo.updateLayers c.oldDensity c.iceDens f.firnDate (Cryo.updateProperties r.2) with
  | none => none
  | some q => some (⟨m.1, m.2.1, s.1, r.1⟩, q)

/-- The remaining calls for a pixel (of the domain), given the results of the search. -/
noncomputable def finish (c : Site) (f : Forcing) (x : Prep) (t te : ℝ) : Option (Cryo.Fluxes ℝ × State) :=
  match massStep c f x te with
  | none => none
  | some (fl, q) => some (fl, ⟨q, surfaceTemp x t⟩)

/-! ## Time step and run of a domain -/

/-- States of all pixels; `none`: NaN has arisen in the pixel. -/
abbrev States := ℕ → Option State

/-- All pixels before the energy balance. -/
noncomputable def preps (c : Site) (f : ℕ → Forcing) (s : States) (i : ℕ) : Option Prep := (s i).bind (prep c (f i))

/-- The pixels of the domain `idxs` whose surface temperature is searched. -/
noncomputable def frosties (c : Site) (idxs : List ℕ) (f : ℕ → Forcing) (s : States) : List ℕ :=
  idxs.filter fun i => decide (∃ x, preps c f s i = some x ∧ x.Frosty)

/-- Balance of a pixel; only used for `frosties`. -/
noncomputable def balances (c : Site) (f : ℕ → Forcing) (s : States) (i : ℕ) (t : ℝ) : ℝ :=
  match preps c f s i with
  | none => 0
  | some x => x.balance c t

/-- One time step of the domain, `model.py:354-377`; `none`: the search does not end. -/
noncomputable def step (c : Site) (idxs : List ℕ) (f : ℕ → Forcing) (s : States) :
    Option ((ℕ → Option (Cryo.Fluxes ℝ)) × States) :=
  match search c.search (balances c f s) (frosties c idxs f s) (fun i => (f i).temp) with
  | none => none
  | some (t, te) =>
    let r := fun i => (preps c f s i).bind fun x => finish c (f i) x (t i) (te i)
    some (fun i => (r i).map Prod.fst, fun i => (r i).map Prod.snd)

/-- The time steps of a run, `model.py:220-250`. -/
noncomputable def run (c : Site) (idxs : List ℕ) : List (ℕ → Forcing) → States →
    Option (List (ℕ → Option (Cryo.Fluxes ℝ)) × States)
  | [], s => some ([], s)
  | f :: fs, s =>
    match step c idxs f s with
    | none => none
    | some (x, s') =>
      match run c idxs fs s' with
      | none => none
      | some (xs, q) => some (x :: xs, q)

end Verif.CoupledCryo
