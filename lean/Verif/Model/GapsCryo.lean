import Verif.Model.CoupledCryo
import Verif.Model.Gaps

/-!
# The coupled cryolayer model with missing weather data

As `Model/CoupledCryo`, but every meteorological value may be missing (`none` = NaN), and NaN is carried through every
operation: `model.py:354-377`, `surface.py:7-41, 205-345, 449-703, 790-903`, `snow.py:9-101, 137-244`,
`cryolayermodel.py:94-297`. Pressure depends on elevation only (`model.py:823`) and is present.
-/

namespace Verif.GapsCryo

open Verif.Cryo (CPixel CLayer)
open Verif.CoupledCryo (Site Search Forcing)
open Classical

/-- Meteorological values of a pixel in one time step, `none` = NaN. -/
structure Weather where
  temp : Option ℝ
  wetBulb : Option ℝ
  specHum : Option ℝ
  press : ℝ
  swIn : Option ℝ
  lwIn : Option ℝ
  wind : Option ℝ
  rain : Option ℝ
  snow : Option ℝ
  firnDate : Bool

/-- The values with those derived from temperature and pressure: dry air density `model.py:847`, latent heat
`surface.py:590`, saturation humidity `surface.py:522-539`. -/
noncomputable def Weather.all (w : Weather) : Gaps.Weather where
  temp := w.temp
  wetBulb := w.wetBulb
  specHum := w.specHum
  swIn := w.swIn
  lwIn := w.lwIn
  wind := w.wind
  rain := w.rain
  snow := w.snow
  density := w.temp.map fun t => Atmosphere.modelDensity t w.press
  latVap := w.temp.map Atmosphere.latentHeat
  qsat := fun t => (SurfaceTemp.satHumidity w.press t).getD 0

/-- State of a pixel between two time steps; surface temperature may be NaN. -/
structure State where
  snow : CPixel ℝ
  ts : Option ℝ

/-! ## Snow before the energy balance -/

/-- `compaction`, `cryolayermodel.py:126-174`. -/
noncomputable def compaction (c : Site) (temp : Option ℝ) (p : CPixel ℝ) : Option (CPixel ℝ) :=
  match Snow.anderson c.dt temp [CoupledCryo.toD p.new, CoupledCryo.toD p.old],
      Cryo.compactFirn c.iceDens c.dt p.firn, Cryo.compactIce c.iceDens p.ice with
  | some [n, o], some f, some i =>
    some { p with new := CoupledCryo.compacted p.new n, old := CoupledCryo.compacted p.old o, firn := f, ice := i }
  | _, _, _ => none

/-- `albedo` of the pixel, `snow.py:39-73`. -/
noncomputable def aged (c : Site) (w : Weather) (ts : Option ℝ) : Option ℝ → Option ℝ :=
  Snow.albedo c.albedo c.dt (if c.ageByAir then w.temp else ts) w.snow

/-- Fresh snow density, `cryolayermodel.py:183, 272`. -/
noncomputable def fresh (w : Weather) : ℝ := Snow.freshSnowDensity w.wetBulb

/-- Compaction, accumulation, ageing and `update_properties`, `model.py:354-360`. -/
noncomputable def prepare (c : Site) (w : Weather) (s : State) : Option (CPixel ℝ) :=
  match compaction c w.temp s.snow with
  | none => none
  | some p0 => some (Cryo.updateProperties (Cryo.albedoAging c.single c.firnAlb c.iceAlb (aged c w s.ts)
      (Cryo.accumulation c.single c.albedo.max (fresh w) w.snow p0)))

/-! ## Surface -/

/-- Turbulent exchange coefficient, `surface.py:41, 449-495`; the stability factor is 1 if a value is missing
(line 444). -/
noncomputable def exchange (c : Site) (w : Weather) (ts : Option ℝ) (p : CPixel ℝ) : ℝ :=
  let z0 := Surface.roughness (CoupledCryo.fraction c p) c.snowRough c.soilRough
  let zt := Surface.measurementHeight c.adjust c.zt p.depth
  let sf := match c.stab with
    | none => 1
    | some b => Surface.stability b zt c.zw z0 w.temp ts w.wind
  Surface.exchange zt c.zw z0 sf

/-- `surface_properties`, `surface.py:28-42`, for the flux functions. The conductance belongs to the other
snow model and is missing, and so does the surface layer, whose zeros are not used; neither is the surface temperature, which is an argument. -/
noncomputable def surf (c : Site) (w : Weather) (ts : Option ℝ) (p : CPixel ℝ) : Gaps.Surf where
  dt := c.dt
  w := w.all
  albedo := Surface.albedo (CoupledCryo.fraction c p) p.albedo c.soilAlbedo
  exch := exchange c w ts p
  gs := none
  swe := p.swe
  ice := (CoupledCryo.layers p).map CLayer.ice
  ts := 0
  layerTemp := 0
  layerCond := 0
  layerThick := 0

/-- A pixel at the beginning of `cryo_layer_energy_balance`. -/
structure Prep where
  snow : CPixel ℝ
  surf : Gaps.Surf

/-- Up to `surface_properties`, `model.py:354-365`. -/
noncomputable def prep (c : Site) (w : Weather) (s : State) : Option Prep :=
  (prepare c w s).map fun p => ⟨p, surf c w s.ts p⟩

/-- `lat_heat` of the pixel, computed at air temperature (`surface.py:229, 241`) and not updated. -/
noncomputable def Prep.lat (x : Prep) : Option ℝ := x.surf.w.temp.bind x.surf.latHeat

/-- `energy_balance_remainder` of a snow-covered pixel, `surface.py:824-840` (moisture availability 1, line 570). -/
noncomputable def Prep.balance (c : Site) (x : Prep) (t : ℝ) : Option ℝ :=
  (x.surf.netRad t).bind fun n => (x.surf.sensFlux t).bind fun h => x.lat.bind fun l =>
    x.surf.transfer.bind fun r => x.surf.w.specHum.bind fun q => (x.surf.advHeat t).map fun a =>
      n + h + l * (1 * r * (q - x.surf.w.qsat t)) + a - c.heatFlux

/-- `frosties`, `surface.py:233`; comparison with a missing temperature is false. -/
def Prep.Frosty (x : Prep) : Prop := 0 < x.snow.swe ∧ ∃ t, x.surf.w.temp = some t ∧ t < Atmosphere.T0

/-! ## Search for the surface temperature -/

/-- `iterate_surface_temperature`, `surface.py:843-903`, as `CoupledCryo.search`. In the secant method a pixel whose
balance is NaN leaves the loop in the first round (line 884: comparison with NaN) with the second start value, the
melting point. A balance is NaN at all temperatures or at none. -/
noncomputable def search (m : Search) (bal : ℕ → ℝ → Option ℝ) (idxs : List ℕ) (air : ℕ → ℝ) :
    Option ((ℕ → ℝ) × (ℕ → ℝ)) :=
  match m with
  | .legacy =>
    let ts := SurfaceTemp.legacy (idxs.map fun i => ⟨air i, bal i⟩)
    let r := fun i => if i ∈ idxs then ts.getD (idxs.idxOf i) 0 else air i
    some (r, r)
  | .secant =>
    let known := idxs.filter fun i => (bal i Atmosphere.T0).isSome
    (CoupledCryo.search .secant (fun i t => (bal i t).getD 0) known air).map fun r =>
      (fun i => if i ∈ known then r.1 i else Atmosphere.T0, fun i => if i ∈ known then r.2 i else Atmosphere.T0)

/-! ## After the search -/

/-- Surface temperature after the energy balance, `surface.py:229, 250, 341`; `t`: result of the search. Snow without a
known air temperature is neither in `melties` nor in `frosties` and keeps the NaN of line 229. -/
noncomputable def surfaceTemp (x : Prep) (t : ℝ) : Option ℝ :=
  x.surf.w.temp.map fun a =>
    if 0 < x.snow.swe then (if a < Atmosphere.T0 then t else Atmosphere.T0) else a

/-- `moisture_flux`, `surface.py:344, 664-668`, as `CoupledCryo.moisture`. -/
noncomputable def moisture (x : Prep) (t : ℝ) : Option ℝ :=
  (surfaceTemp x t).bind fun ts => x.surf.w.temp.bind fun a =>
    if 0 < x.snow.swe ∨ ∃ q, x.surf.w.specHum = some q ∧ x.surf.w.qsat a < q then
      x.surf.transfer.bind fun r => x.surf.w.specHum.map fun q => r * (q - x.surf.w.qsat ts)
    else none

/-- Melt and refreezing of the energy balance, `surface.py:230-338`: without a known air temperature a pixel is neither
in `melties` nor in `frosties`. -/
noncomputable def melting (c : Site) (w : Weather) (x : Prep) : ℝ × ℝ × CPixel ℝ :=
  match w.temp with
  | none => (0, 0, x.snow)
  | some t => Cryo.meltAmount (CoupledCryo.cryoCfg c) (.energy t (x.balance c Atmosphere.T0)) x.snow

/-- Melt and refreezing, melt, sublimation, runoff, `update_properties` and `update_layers`, `surface.py:244-338`,
`model.py:373-377`; `te`: temperature of the last evaluation of humidity. -/
noncomputable def massStep (c : Site) (w : Weather) (x : Prep) (te : ℝ) : Option (Cryo.Fluxes ℝ × CPixel ℝ) :=
  let m := melting c w x
  let s := Cryo.sublimation c.dt (fresh w) c.albedo.max c.single (moisture x te) (Cryo.melt m.1 m.2.2)
  let r := Cryo.runoff c.lwcMethod c.maxFrac w.rain s.2
  match Cryo.updateLayers c.oldDensity c.iceDens w.firnDate (Cryo.updateProperties r.2) with
  | none => none
  | some q => some (⟨m.1, m.2.1, s.1, r.1⟩, q)

/-- The remaining calls for a pixel, given the results of the search. -/
noncomputable def finish (c : Site) (w : Weather) (x : Prep) (t te : ℝ) : Option (Cryo.Fluxes ℝ × State) :=
  match massStep c w x te with
  | none => none
  | some (fl, q) => some (fl, ⟨q, surfaceTemp x t⟩)

/-! ## Time step and run of a domain -/

/-- States of all pixels; `none`: NaN has arisen in the snow of the pixel. -/
abbrev States := ℕ → Option State

/-- All pixels before the energy balance. -/
noncomputable def preps (c : Site) (w : ℕ → Weather) (s : States) (i : ℕ) : Option Prep := (s i).bind (prep c (w i))

/-- The pixels of the domain `idxs` whose surface temperature is searched. -/
noncomputable def frosties (c : Site) (idxs : List ℕ) (w : ℕ → Weather) (s : States) : List ℕ :=
  idxs.filter fun i => decide (∃ x, preps c w s i = some x ∧ x.Frosty)

/-- Balance of a pixel; only used for `frosties`. -/
noncomputable def balances (c : Site) (w : ℕ → Weather) (s : States) (i : ℕ) (t : ℝ) : Option ℝ :=
  (preps c w s i).bind fun x => x.balance c t

/-- One time step of the domain, `model.py:354-377`; `none`: the search does not end. -/
noncomputable def step (c : Site) (idxs : List ℕ) (w : ℕ → Weather) (s : States) :
    Option ((ℕ → Option (Cryo.Fluxes ℝ)) × States) :=
  match search c.search (balances c w s) (frosties c idxs w s) (fun i => ((w i).temp).getD 0) with
  | none => none
  | some (t, te) =>
    let r := fun i => (preps c w s i).bind fun x => finish c (w i) x (t i) (te i)
    some (fun i => (r i).map Prod.fst, fun i => (r i).map Prod.snd)

/-- The time steps of a run, `model.py:220-250`. -/
noncomputable def run (c : Site) (idxs : List ℕ) : List (ℕ → Weather) → States →
    Option (List (ℕ → Option (Cryo.Fluxes ℝ)) × States)
  | [], s => some ([], s)
  | w :: ws, s =>
    match step c idxs w s with
    | none => none
    | some (x, s') =>
      match run c idxs ws s' with
      | none => none
      | some (xs, q) => some (x :: xs, q)

end Verif.GapsCryo
