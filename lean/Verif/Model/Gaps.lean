import Verif.Model.Coupled

/-!
# The coupled multilayer model with missing weather data

As `Model/Coupled`, but every meteorological value may be missing (`none` = NaN), and NaN is carried through every
operation of `surface_properties`, the surface energy balance and the snow model: `model.py:354-382`,
`surface.py:7-202, 449-787`, `snow.py:9-101, 137-244`, `multilayermodel.py:61-210`. Pressure depends on elevation only
(`model.py:823`) and is present. Fluxes that are written but not used later (sensible heat, net radiation of the end of
the step) are left out.
-/

namespace Verif.Gaps

open Verif.MultiLayer (Pixel Layer)
open Verif.Atmosphere (cp rv)
open Verif.Surface (lf sigma)
open Verif.Coupled (Site State Compaction)
open Classical

/-- Meteorological values of one time step, `none` = NaN. -/
structure Weather where
  temp : Option ℝ
  wetBulb : Option ℝ
  specHum : Option ℝ
  swIn : Option ℝ
  lwIn : Option ℝ
  wind : Option ℝ
  rain : Option ℝ
  snow : Option ℝ
  /-- density of dry air -/
  density : Option ℝ
  /-- latent heat of vaporization -/
  latVap : Option ℝ
  /-- saturation specific humidity at the pressure of the pixel, `surface.py:522-539` -/
  qsat : ℝ → ℝ

/-! ## Snow before the energy balance -/

/-- The selected compaction kernel on the active layers, `snow.py:104-134`. -/
noncomputable def compactLayers (c : Site) (temp : Option ℝ) (Ls : List (Layer ℝ)) : Option (List Snow.DLayer) :=
  match c.compaction with
  | .anderson => Snow.anderson c.dt temp (Ls.map Coupled.toD)
  | .empirical e => (Ls.map Coupled.toD).mapM (Snow.empiricalLayer e c.dt)

/-- `compaction`, `multilayermodel.py:64-65`. -/
noncomputable def compaction (c : Site) (temp : Option ℝ) (p : Pixel ℝ) : Option (Pixel ℝ) :=
  match compactLayers c temp (p.layers.take p.n) with
  | none => none
  | some Ds => some (p.setActive
      (List.zipWith (fun (L : Layer ℝ) D => { L with thick := D.thick }) (p.layers.take p.n) Ds))

/-- `accumulation`, `multilayermodel.py:67-75`. `none`: the first layer is initialised with a missing air temperature
(line 205); the temperature of an existing layer is not touched. -/
noncomputable def accumulation (c : Site) (w : Weather) (p : Pixel ℝ) : Option (Pixel ℝ) :=
  if w.temp = none ∧ p.n = 0 ∧ ∃ x, w.snow = some x ∧ 0 < x then none
  else some (MultiLayer.accumulation c.albedo.max (w.temp.getD 0) (Snow.freshSnowDensity w.wetBulb) w.snow p)

/-- `albedo_aging`, `multilayermodel.py:61-62`, `snow.py:39-73`. -/
noncomputable def ageing (c : Site) (w : Weather) (ts : ℝ) (p : Pixel ℝ) : Pixel ℝ :=
  { p with albedo := Snow.albedo c.albedo c.dt (if c.ageByAir then w.temp else some ts) w.snow p.albedo }

/-- Compaction, accumulation, ageing and `update_properties`, `model.py:354-362`. -/
noncomputable def prepare (c : Site) (w : Weather) (s : State) : Option (Pixel ℝ) :=
  match compaction c w.temp s.snow with
  | none => none
  | some p0 =>
    match accumulation c w p0 with
    | none => none
    | some p1 => some (MultiLayer.updateHeatCap (ageing c w s.ts p1))

/-! ## Surface energy balance -/

/-- Turbulent exchange coefficient, `surface.py:449-495`: without air temperature or wind speed the stability factor is
1 (line 444). -/
noncomputable def exchange (c : Site) (w : Weather) (ts : ℝ) (p : Pixel ℝ) : ℝ :=
  let z0 := Surface.roughness (Coupled.fraction c p) c.snowRough c.soilRough
  let zt := Surface.measurementHeight c.adjust c.zt (MultiLayer.depth p)
  let sf := match c.stab with
    | none => 1
    | some b => Surface.stability b zt c.zw z0 w.temp (some ts) w.wind
  Surface.exchange zt c.zw z0 sf

/-- A pixel at the beginning of `multilayer_energy_balance`. -/
structure Surf where
  dt : ℝ
  w : Weather
  albedo : Option ℝ
  exch : ℝ
  /-- surface conductance -/
  gs : Option ℝ
  swe : ℝ
  ice : List ℝ
  ts : ℝ
  layerTemp : ℝ
  layerCond : ℝ
  layerThick : ℝ

/-- `surface_properties`, `surface.py:28-97`. Without soil moisture the unfrozen fraction is never written
(`soil.py:116, 207-209`) and keeps its initial NaN, and so does the conductance. -/
noncomputable def surf (c : Site) (w : Weather) (s : State) (p : Pixel ℝ) : Surf where
  dt := c.dt
  w := w
  albedo := Surface.albedo (Coupled.fraction c p) p.albedo c.soilAlbedo
  exch := exchange c w s.ts p
  gs := if 0 < c.moisture then
      some (Surface.conductance c.gsat (Soil.fracUnfrozen c.soil c.moisture (s.soilTemp 0)) c.soil.sat c.soil.crit)
    else none
  swe := MultiLayer.swe p
  ice := p.layers.map Layer.ice
  ts := s.ts
  layerTemp := Surface.layerTemp (Coupled.top Layer.thick p) (Coupled.soilDx c 0) (Coupled.top Layer.temp p)
    (s.soilTemp 0)
  layerCond := Surface.layerCond (Coupled.top Layer.thick p) (Coupled.soilDx c 0) c.snowCond (Coupled.soilLam c s 0)
  layerThick := Surface.layerThickness (Coupled.top Layer.thick p) (Coupled.soilDx c 0)

namespace Surf
variable (b : Surf)

/-- Ice content of the top layer. -/
def ice0 : ℝ := b.ice.headD 0

/-- `rhoa_CH_Ua`, `surface.py:652-656, 733-737`. -/
noncomputable def transfer : Option ℝ :=
  b.w.density.bind fun d => b.w.wind.map fun u => d * b.exch * u

/-- `calc_moisture_availability`, `surface.py:565-571`; comparison with a missing humidity is false. -/
noncomputable def avail : Option ℝ :=
  if 0 < b.swe then some 1
  else if ∃ q, b.w.specHum = some q ∧ b.w.qsat b.ts < q then some 1
  else b.gs.bind fun g => b.w.wind.map fun u => g / (g + b.exch * u)

/-- `calc_latent_heat`, `surface.py:590-595`. -/
noncomputable def latHeat (ts : ℝ) : Option ℝ :=
  b.w.latVap.map fun l => if 0 < b.ice0 ∨ ts < Atmosphere.T0 then l + lf else l

/-- `calc_radiation_balance`, `surface.py:513-519`. -/
noncomputable def netRad (ts : ℝ) : Option ℝ :=
  b.albedo.bind fun a => b.w.swIn.bind fun sw => b.w.lwIn.map fun lw => sw - a * sw + lw - 99 / 100 * sigma * ts ^ 4

/-- `calc_surface_flux`, `surface.py:617-622`. -/
noncomputable def groundFlux (ts : ℝ) : ℝ := 2 * b.layerCond * (ts - b.layerTemp) / b.layerThick

/-- Sensible heat flux, `surface.py:659-661`. -/
noncomputable def sensFlux (ts : ℝ) : Option ℝ := b.transfer.bind fun r => b.w.temp.map fun t => cp * r * (t - ts)

/-- Moisture flux, `surface.py:664-668`. -/
noncomputable def moistFlux (qs : ℝ) : Option ℝ :=
  b.avail.bind fun a => b.transfer.bind fun r => b.w.specHum.map fun q => a * r * (q - qs)

/-- Latent heat flux, `surface.py:669`. -/
noncomputable def latFlux (ts : ℝ) : Option ℝ :=
  (b.latHeat ts).bind fun l => (b.moistFlux (b.w.qsat ts)).map fun m => l * m

/-- `calc_advective_heat`, `surface.py:692-703`. -/
noncomputable def advHeat (ts : ℝ) : Option ℝ :=
  b.w.temp.bind fun t => b.w.rain.bind fun r => b.w.wetBulb.bind fun wb => b.w.snow.map fun s =>
    (Surface.cWater * (t - ts) * r + Surface.cIce * (wb - ts) * s) / b.dt

/-- Sum of the fluxes, `surface.py:747-751` and 180-184. -/
noncomputable def balance (ts : ℝ) : Option ℝ :=
  (b.netRad ts).bind fun n => (b.sensFlux ts).bind fun h => (b.latFlux ts).bind fun l =>
    (b.advHeat ts).map fun a => n + h + l + a - b.groundFlux ts

/-- Denominator, `surface.py:739-743, 754-762`. -/
noncomputable def slope : Option ℝ :=
  (b.latHeat b.ts).bind fun l => b.avail.bind fun a => b.transfer.map fun r =>
    (cp + l * a * (l * b.w.qsat b.ts / (rv * b.ts ^ 2))) * r + 2 * b.layerCond / b.layerThick + 4 * sigma * b.ts ^ 3

/-- `surf_temp_change` of `solve_energy_balance` for a melt, with NaN replaced by 0 (`surface.py:706-763, 777`). -/
noncomputable def tempChange (melt : ℝ) : ℝ :=
  ((b.balance b.ts).bind fun x => b.slope.map fun d => (x - lf * (melt / b.dt)) / d).getD 0

/-- `surf_heat_flux_change`, `surface.py:769-771, 779`: NaN exactly if the temperature change is. -/
noncomputable def groundChange (melt : ℝ) : ℝ := 2 * b.layerCond * b.tempChange melt / b.layerThick

/-- Condition for melt, `surface.py:151-153`. -/
def Melts : Prop := Atmosphere.T0 < b.ts + b.tempChange 0 ∧ 0 < b.ice0

/-- Condition for partial melt, `surface.py:165`. -/
def Partially : Prop := b.Melts ∧ b.ts + b.tempChange b.ice.sum < Atmosphere.T0

/-- What the rest of the time step uses. -/
structure Result where
  ts : ℝ
  ground : ℝ
  melt : Option ℝ
  moist : Option ℝ

/-- `multilayer_energy_balance`, `surface.py:109-202`; the moisture flux is computed again at the end (line 202) with
the saturation humidity of lines 132 or 172. -/
noncomputable def energyBalance : Result :=
  if b.Partially then
    ⟨Atmosphere.T0, b.groundFlux Atmosphere.T0, (b.balance Atmosphere.T0).map fun x => max (x / lf * b.dt) 0,
      b.moistFlux (b.w.qsat Atmosphere.T0)⟩
  else
    let m := if b.Melts then b.ice.sum else 0
    ⟨b.ts + b.tempChange m, b.groundFlux b.ts + b.groundChange m, some m, b.moistFlux (b.w.qsat b.ts)⟩

/-- The linear equation has no solution, `surface.py:739-762` (division of a number by zero; outside of the model). -/
def Singular : Prop := b.balance b.ts ≠ none ∧ (b.ts = 0 ∨ b.slope = some 0)

end Surf

/-! ## Time step and run -/

/-- Melt, sublimation, runoff, `update_properties` and `update_layers`, `model.py:375-379`. `none` also if the first
layer is initialised by resublimation with a missing air temperature. -/
noncomputable def massStep (c : Site) (w : Weather) (ts melt : ℝ) (moist : Option ℝ) (p2 : Pixel ℝ) :
    Option (MultiLayer.Fluxes ℝ × Pixel ℝ) :=
  let m := MultiLayer.melt melt p2
  if w.temp = none ∧ m.2.n = 0 ∧ MultiLayer.sublAmount c.dt ts moist m.2 < 0 then none
  else
    let sb := MultiLayer.sublimation c.dt ts c.albedo.max (w.temp.getD 0) (Snow.freshSnowDensity w.wetBulb) moist m.2
    match sb.2 with
    | none => none
    | some p4 =>
      let r := MultiLayer.runoff c.lwcMethod c.maxFrac w.rain p4
      match MultiLayer.updateLayers c.minThickness (MultiLayer.updateHeatCap r.2.2) with
      | none => none
      | some q => some (⟨m.1, sb.1, r.1, r.2.1⟩, q)

/-- One time step, `model.py:354-382`. `none`: a NaN arises in the snow arrays, or the energy balance is singular. -/
noncomputable def step (c : Site) (w : Weather) (s : State) : Option (MultiLayer.Fluxes ℝ × State) :=
  match prepare c w s with
  | none => none
  | some p =>
    let b := surf c w s p
    if b.Singular then none
    else
      let e := b.energyBalance
      match e.melt with
      | none => none
      | some melt =>
        match Heat.snowHeatConduction (Coupled.boundary c s e.ground) p with
        | none => none
        | some p2 =>
          match massStep c w e.ts melt e.moist p2 with
          | none => none
          | some (fl, q) => some (fl, { snow := q, soilTemp := Coupled.soilStep c s e.ground q, ts := e.ts })

/-- The time steps of a run, `model.py:220-250`. -/
noncomputable def run (c : Site) : List Weather → State → Option (List (MultiLayer.Fluxes ℝ) × State)
  | [], s => some ([], s)
  | w :: ws, s =>
    match step c w s with
    | none => none
    | some (x, s') =>
      match run c ws s' with
      | none => none
      | some (xs, q) => some (x :: xs, q)

end Verif.Gaps
