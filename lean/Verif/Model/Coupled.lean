import Verif.Model.MultiLayerStep
import Verif.Model.Snow
import Verif.Model.Soil
import Verif.Model.Surface

/-!
# The coupled multilayer model for one pixel

The calls of `_model_interface` (`model.py:354-382`) with `snow.model == "multilayer"` and the energy
balance, each taking its arguments from the state left by the others, and the initial state written
by `_initialize_state_variables` (`model.py:507-513`). Canopy, evapotranspiration, snow management and
glaciers are off. The meteorological fields of the pixel are present (no NaN).
-/

namespace Verif.Coupled

open Verif.MultiLayer (Pixel Layer)
open Verif.Atmosphere (cp rv)

/-- `config.snow.compaction`, `snow.py:104-134`. -/
inductive Compaction
  | anderson
  | empirical (c : Snow.EmpiricalCfg)

/-- Configuration and constant fields of the pixel. -/
structure Site where
  /-- time step in seconds -/
  dt : ℝ
  albedo : Snow.AlbedoCfg
  /-- `decay_timescale_determination_temperature` is `"air"`, `snow.py:45-48` -/
  ageByAir : Bool
  compaction : Compaction
  lwcMethod : MultiLayer.LwcMethod
  maxFrac : ℝ
  minThickness : List ℝ
  /-- `snow_cover_fraction_depth_scale` -/
  depthScale : ℝ
  /-- `snow.thermal_conductivity` -/
  snowCond : ℝ
  snowRough : ℝ
  soilRough : ℝ
  soilAlbedo : ℝ
  /-- `saturated_soil_surface_conductance` -/
  gsat : ℝ
  /-- `measurement_height_adjustment` -/
  adjust : Bool
  zt : ℝ
  zw : ℝ
  /-- `stability_adjustment_parameter` if `stability_correction` is on -/
  stab : Option ℝ
  soil : Soil.Params
  /-- `vol_moisture_content`, the same in all layers (`soil/init.py:78`) and never changed; assumed positive, because
  for completely dry soil the unfrozen fraction is never written (`soil.py:207-209`), the conductance stays NaN and the
  surface of bare ground keeps its temperature (`surface.py:777`) -/
  moisture : ℝ
  soilThick : List ℝ
  initTemp : ℝ

/-- Meteorological values of one time step. -/
structure Forcing where
  temp : ℝ
  wetBulb : ℝ
  specHum : ℝ
  swIn : ℝ
  lwIn : ℝ
  wind : ℝ
  rain : ℝ
  snow : ℝ
  /-- density of dry air -/
  density : ℝ
  /-- latent heat of vaporization -/
  latVap : ℝ
  /-- saturation specific humidity at the pressure of the pixel, `surface.py:522-539` -/
  qsat : ℝ → ℝ

/-- State between two time steps. `soilTemp k` is used for `k < soilThick.length`. -/
structure State where
  snow : Pixel ℝ
  soilTemp : ℕ → ℝ
  ts : ℝ

/-- Initial state: `multilayermodel.py:46-59` (the albedo keeps the NaN of its creation; the heat capacity
is written by `update_properties` before it is read), `soil/init.py:35`, `model.py:513`. -/
noncomputable def initial (c : Site) : State where
  snow := { n := 0, layers := c.minThickness.map fun _ => ⟨0, 0, 0, T0, 0⟩, albedo := none }
  soilTemp := fun _ => c.initTemp
  ts := c.initTemp

/-! ## Compaction, albedo -/

/-- The entries of a layer used by the functions of `snow.py`; the density is only written. -/
def toD (L : Layer ℝ) : Snow.DLayer := ⟨L.thick, L.ice, L.lwc, L.temp, none⟩

/-- The selected compaction kernel on the active layers, `snow.py:104-134`. -/
noncomputable def compactLayers (c : Site) (temp : ℝ) (Ls : List (Layer ℝ)) : Option (List Snow.DLayer) :=
  match c.compaction with
  | .anderson => Snow.anderson c.dt (some temp) (Ls.map toD)
  | .empirical e => (Ls.map toD).mapM (Snow.empiricalLayer e c.dt)

/-- `compaction`, `multilayermodel.py:64-65`: writes the thickness of the active layers. -/
noncomputable def compaction (c : Site) (temp : ℝ) (p : Pixel ℝ) : Option (Pixel ℝ) :=
  match compactLayers c temp (p.layers.take p.n) with
  | none => none
  | some Ds => some (p.setActive
      (List.zipWith (fun (L : Layer ℝ) D => { L with thick := D.thick }) (p.layers.take p.n) Ds))

/-- `albedo_aging`, `multilayermodel.py:61-62`, `snow.py:39-73`; `ts`: surface temperature of the last step. -/
noncomputable def ageing (c : Site) (f : Forcing) (ts : ℝ) (p : Pixel ℝ) : Pixel ℝ :=
  { p with albedo := Snow.albedo c.albedo c.dt (some (if c.ageByAir then f.temp else ts)) (some f.snow) p.albedo }

/-- Compaction, accumulation, ageing and `update_properties`, `model.py:354-362`. -/
noncomputable def prepare (c : Site) (f : Forcing) (s : State) : Option (Pixel ℝ) :=
  match compaction c f.temp s.snow with
  | none => none
  | some p0 => some (MultiLayer.updateHeatCap (ageing c f s.ts
      (MultiLayer.accumulation c.albedo.max f.temp (Snow.freshSnowDensity (some f.wetBulb)) (some f.snow) p0)))

/-! ## Soil and surface -/

/-- Thickness of soil layer `k`. -/
def soilDx (c : Site) (k : ℕ) : ℝ := c.soilThick.getD k 0

/-- Thermal conductivity of soil layer `k` after `soil_properties`, `soil.py:8-209`. -/
noncomputable def soilLam (c : Site) (s : State) (k : ℕ) : ℝ := Soil.cond c.soil c.moisture (s.soilTemp k)

/-- Heat capacity of soil layer `k` after `soil_properties`. -/
noncomputable def soilHc (c : Site) (s : State) (k : ℕ) : ℝ :=
  Soil.heatCap c.soil c.moisture (s.soilTemp k) (soilDx c k)

/-- Snow cover fraction, `snow.py:355-361`. -/
noncomputable def fraction (c : Site) (p : Pixel ℝ) : ℝ := Snow.areaFraction c.depthScale (p.layers.map toD)

/-- Turbulent exchange coefficient, `surface.py:41, 449-495`. -/
noncomputable def exchange (c : Site) (f : Forcing) (ts : ℝ) (p : Pixel ℝ) : ℝ :=
  let z0 := Surface.roughness (fraction c p) c.snowRough c.soilRough
  let zt := Surface.measurementHeight c.adjust c.zt (MultiLayer.depth p)
  let sf := match c.stab with
    | none => 1
    | some b => Surface.stability b zt c.zw z0 (some f.temp) (some ts) (some f.wind)
  Surface.exchange zt c.zw z0 sf

/-- A field of the top snow slot. -/
def top (g : Layer ℝ → ℝ) (p : Pixel ℝ) : ℝ := (p.layers.map g).headD 0

/-- The arguments of the energy balance, given the surface albedo: `surface_properties`, `surface.py:28-97`, with
the snow state `p` after `update_properties`. -/
noncomputable def surfacePixel (c : Site) (f : Forcing) (s : State) (p : Pixel ℝ) (a : ℝ) : Surface.Pixel where
  dt := c.dt
  swIn := f.swIn
  lwIn := f.lwIn
  albedo := a
  temp := f.temp
  wetBulb := f.wetBulb
  specHum := f.specHum
  rain := f.rain
  snow := f.snow
  wind := f.wind
  density := f.density
  exch := exchange c f s.ts p
  latVap := f.latVap
  gs := Surface.conductance c.gsat (Soil.fracUnfrozen c.soil c.moisture (s.soilTemp 0)) c.soil.sat c.soil.crit
  swe := MultiLayer.swe p
  ice := p.layers.map Layer.ice
  ts := s.ts
  layerTemp := Surface.layerTemp (top Layer.thick p) (soilDx c 0) (top Layer.temp p) (s.soilTemp 0)
  layerCond := Surface.layerCond (top Layer.thick p) (soilDx c 0) c.snowCond (soilLam c s 0)
  layerThick := Surface.layerThickness (top Layer.thick p) (soilDx c 0)
  qsat := f.qsat

/-- Denominator of `solve_energy_balance` at the temperature of the last step, `surface.py:741-760`. -/
noncomputable def denominator (p : Surface.Pixel) : ℝ :=
  (cp + p.latHeat p.ts * p.avail * (p.latHeat p.ts * p.qsat p.ts / (rv * p.ts ^ 2))) * p.transfer +
    2 * p.layerCond / p.layerThick + 4 * Surface.sigma * p.ts ^ 3

/-- `surface_properties` and `energy_balance`, `model.py:367-370`; `none` if the surface albedo is NaN or the linear
equation for the surface temperature has no solution. -/
noncomputable def energy (c : Site) (f : Forcing) (s : State) (p : Pixel ℝ) : Option Surface.Fluxes :=
  match Surface.albedo (fraction c p) p.albedo c.soilAlbedo with
  | none => none
  | some a =>
    let px := surfacePixel c f s p a
    if s.ts = 0 ∨ denominator px = 0 then none else some px.energyBalance

/-- The call of `_heat_conduction`, `multilayermodel.py:77-91`. -/
noncomputable def boundary (c : Site) (s : State) (flux : ℝ) : Heat.SnowBoundary ℝ where
  dt := c.dt
  lam := fun _ => c.snowCond
  soilThickness := soilDx c 0
  soilLam := soilLam c s 0
  soilTemp := s.soilTemp 0
  flux := flux

/-- `soil_heat_flux` and `soil_temperature`, `model.py:380-382`, `soil.py:212-339`; `q`: snow after relayering. -/
noncomputable def soilStep (c : Site) (s : State) (ground : ℝ) (q : Pixel ℝ) (k : ℕ) : ℝ :=
  let flux := Soil.heatFlux ground ((q.layers.take q.n).map fun L => ⟨L.thick, L.temp, c.snowCond⟩)
    ⟨soilDx c 0, s.soilTemp 0, soilLam c s 0⟩
  Soil.soilTemperature (ι := Unit) c.soilThick.length (fun k _ => soilDx c k) (fun k _ => s.soilTemp k)
    (fun k _ => soilLam c s k) (fun k _ => soilHc c s k) c.dt (fun _ => flux) k ()

/-! ## Time step and run -/

/-- Melt, sublimation, runoff, `update_properties` and `update_layers`, `model.py:375-379`. -/
noncomputable def massStep (c : Site) (f : Forcing) (e : Surface.Fluxes) (p2 : Pixel ℝ) :
    Option (MultiLayer.Fluxes ℝ × Pixel ℝ) :=
  let m := MultiLayer.melt e.melt p2
  let sb := MultiLayer.sublimation c.dt e.ts c.albedo.max f.temp (Snow.freshSnowDensity (some f.wetBulb))
    (some e.moist) m.2
  match sb.2 with
  | none => none
  | some p4 =>
    let r := MultiLayer.runoff c.lwcMethod c.maxFrac (some f.rain) p4
    match MultiLayer.updateLayers c.minThickness (MultiLayer.updateHeatCap r.2.2) with
    | none => none
    | some q => some (⟨m.1, sb.1, r.1, r.2.1⟩, q)

/-- One time step, `model.py:354-382`. `none`: a NaN arises in the snow arrays. -/
noncomputable def step (c : Site) (f : Forcing) (s : State) : Option (MultiLayer.Fluxes ℝ × State) :=
  match prepare c f s with
  | none => none
  | some p =>
    match energy c f s p with
    | none => none
    | some e =>
      match Heat.snowHeatConduction (boundary c s e.ground) p with
      | none => none
      | some p2 =>
        match massStep c f e p2 with
        | none => none
        | some (fl, q) => some (fl, { snow := q, soilTemp := soilStep c s e.ground q, ts := e.ts })

/-- The time steps of a run, `model.py:220-250`. -/
noncomputable def run (c : Site) : List Forcing → State → Option (List (MultiLayer.Fluxes ℝ) × State)
  | [], s => some ([], s)
  | f :: fs, s =>
    match step c f s with
    | none => none
    | some (x, s') =>
      match run c fs s' with
      | none => none
      | some (xs, q) => some (x :: xs, q)

end Verif.Coupled
