import Verif.Model.Irradiance
import Verif.Model.ClearSkyField
import Verif.Model.GridGeom

/-!
# Radiation stations around the grid

Mirrors `openamundsen/modules/radiation/irradiance.py:92-157, 159-283` with an extended grid
(`openamundsen/model.py:688-768`). The cells of the extended grid at the stations have an elevation and a normal
vector; without missing values the terrain of the extended grid is `Model/Terrain`, `Model/SkyView`,
`Model/Shadows`.
-/

namespace Verif.ExtIrradiance

open Verif.Irradiance Verif.Idw Verif.Stations Verif.ClearSkyField

/-- A station in a time step: projected coordinates and measurements (`none`: NaN). -/
structure Stn where
  x : ℝ
  y : ℝ
  temp : Option ℝ
  hum : Option ℝ
  sw : Option ℝ
  cloud : Option ℝ
  /-- result of `cloud_fraction_from_humidity`, `irradiance.py:240-249` -/
  humFraction : Option ℝ

/-- A cell of the extended grid: elevation, sky view factor, normal vector, shadow (1: lit, 0: shaded). -/
structure Cell where
  elev : ℝ
  svf : ℝ
  normal : ℝ × ℝ × ℝ
  shadow : ℝ

/-- The extended grid, `model.py:754-766`. -/
structure Ext where
  geom : Geom ℝ
  off : ℤ × ℤ
  cell : ℕ → ℕ → Cell

/-- Quantities common to all stations: settings and sun (`Sky`), albedo of soil, albedos of the domain,
`irradiance.py:124-128, 141-154`. -/
structure Env where
  sky : Sky
  soil : ℝ
  albedos : List (Option ℝ)

/-- Row and column of a station in the extended grid, `irradiance.py:99-100`. -/
noncomputable def extRowCol (g : Geom ℝ) (e : Ext) (s : Stn) : ℤ × ℤ :=
  ((rowcol g s.x s.y).1 + e.off.1, (rowcol g s.x s.y).2 + e.off.2)

/-- `stations_within_ext_grid`, `irradiance.py:103-108`. -/
noncomputable def withinExt (g : Geom ℝ) (e : Ext) (s : Stn) : Bool :=
  let rc := extRowCol g e s
  decide (0 ≤ rc.1) && decide (0 ≤ rc.2) && decide (rc.1 < e.geom.rows) && decide (rc.2 < e.geom.cols)

/-- Stations for which a clear-sky value is calculated, `irradiance.py:110-115`. -/
noncomputable def around (g : Geom ℝ) (e : Ext) (st : List Stn) : List Stn :=
  (st.filter fun s => withinExt g e s && !withinExtent g s.x s.y).filter fun s =>
    s.temp.isSome && s.hum.isSome

/-- Inputs of the clear-sky formulas for a station, `irradiance.py:123-124, 130-147`. Pressure and vapour pressure are
defined for all elevations below 44 km and temperatures above -237 °C. -/
noncomputable def stnPx (g : Geom ℝ) (e : Ext) (s : Stn) : Px :=
  let c := e.cell (extRowCol g e s).1.toNat (extRowCol g e s).2.toNat
  let temp := s.temp.getD 0
  { roi := true
    elev := c.elev
    svf := c.svf
    normal := c.normal
    press := (Atmosphere.pressure c.elev).getD 0
    water := Atmosphere.precipitableWater temp ((Atmosphere.vaporPressure temp (s.hum.getD 0)).getD 0)
    shadow := c.shadow }

/-- `extended_grid_stations_clear_sky_shortwave_irradiance`, `irradiance.py:92-157`: stations with their clear-sky
values. -/
noncomputable def extSky (v : Env) (g : Geom ℝ) (e : Ext) (st : List Stn) : List (Stn × ℝ) :=
  let sel := around g e st
  sel.zip (ClearSkyField.stations v.sky v.soil v.albedos (sel.map (stnPx g e)))

/-- `rad_ds_extgrid` and the clear-sky values at its stations, `irradiance.py:194-201, 261`. -/
noncomputable def extRad (v : Env) (g : Geom ℝ) (e : Option Ext) (st : List Stn) : List (Stn × ℝ) :=
  match e with
  | none => []
  | some e => (extSky v g e st).filter fun p => p.1.sw.isSome

/-- Clear-sky irradiance of the grid in the cell of a station, `irradiance.py:257`; `sky` is `sw_in_clearsky`. -/
noncomputable def gridSky (g : Geom ℝ) (sky : ℕ → ℕ → Option ℝ) (s : Stn) : Option ℝ :=
  sky (rowcol g s.x s.y).1.toNat (rowcol g s.x s.y).2.toNat

/-- The station as `Model/Irradiance` sees it. -/
noncomputable def toStation (g : Geom ℝ) (sky : ℕ → ℕ → Option ℝ) (s : Stn) : Station where
  x := s.x
  y := s.y
  cloud := s.cloud
  sw := s.sw
  within := withinExtent g s.x s.y
  clearSky := if withinExtent g s.x s.y then gridSky g sky s else none
  tempHum := s.temp.isSome && s.hum.isSome
  humFraction := s.humFraction

/-- `ds_rad`, `irradiance.py:186-189`. -/
noncomputable def gridRad (g : Geom ℝ) (st : List Stn) : List Stn :=
  (st.filter fun s => withinExtent g s.x s.y).filter fun s => s.sw.isSome

/-- The chain of fallbacks, `irradiance.py:171-222`. -/
noncomputable def chooseMethod (v : Env) (g : Geom ℝ) (e : Option Ext) (m night : Method) (fallback sunUp : Bool)
    (st : List Stn) : Method :=
  let m1 := if m = .prescribed ∧ (st.filter fun s => s.cloud.isSome).length = 0 ∧ fallback = true then
      .clearSkyFraction else m
  let m2 := if m1 = .clearSkyFraction then
      if sunUp then
        if (gridRad g st).length + (extRad v g e st).length = 0 ∧ fallback = true then .humidity else m1
      else night
    else m1
  if m2 = .humidity ∧ (st.filter fun s => s.temp.isSome && s.hum.isSome).length = 0 ∧ fallback = true then .constant
  else m2

/-- Positions and cloud factors of the radiation stations, `irradiance.py:254-264`. -/
noncomputable def radFactors (v : Env) (g : Geom ℝ) (sky : ℕ → ℕ → Option ℝ) (e : Option Ext) (st : List Stn) :
    List (ℝ × ℝ × Option ℝ) :=
  (gridRad g st).map (fun s => (s.x, s.y, ratio s.sw (gridSky g sky s))) ++
    (extRad v g e st).map fun p => (p.1.x, p.1.y, ratio p.1.sw (some p.2))

/-- `cloud_factor` of the pixel at `t`, `irradiance.py:224-280`; `prev`: value of the previous time step. -/
noncomputable def cloudFactorAt (v : Env) (g : Geom ℝ) (sky : ℕ → ℕ → Option ℝ) (e : Option Ext) (m : Method)
    (st : List Stn) (t : ℝ × ℝ) (prev : Option ℝ) : Option ℝ :=
  match m with
  | .clearSkyFraction =>
    let l := radFactors v g sky e st
    ((idw 2 0 (l.map fun p => some p.1) (l.map fun p => some p.2.1) (l.map fun p => p.2.2) [t]).bind
      fun r => r.head?.join).map (Atmosphere.clip 0 1)
  | m => Irradiance.cloudFactorAt m (st.map (toStation g sky)) t prev

/-- Cloud factor and `sw_in` of a pixel, `irradiance.py:280, 283`. -/
noncomputable def shortwave (v : Env) (g : Geom ℝ) (sky : ℕ → ℕ → Option ℝ) (e : Option Ext) (m night : Method)
    (fallback sunUp : Bool) (st : List Stn) (t : ℝ × ℝ) (prev clearSky : Option ℝ) : Option ℝ × Option ℝ :=
  let f := cloudFactorAt v g sky e (chooseMethod v g e m night fallback sunUp st) st t prev
  (f, f.bind fun f => clearSky.map fun c => c * f)

/-- Input of one time step of the run. -/
structure StepIn where
  env : Env
  sunUp : Bool
  stations : List Stn
  sky : ℕ → ℕ → Option ℝ
  clearSky : Option ℝ
  /-- shadows of the extended grid change with time -/
  cell : ℕ → ℕ → Cell

/-- Cloud factor of a pixel after a sequence of time steps; initially NaN. The grid, and whether there is an extended
grid, do not change. -/
noncomputable def runFactor (g : Geom ℝ) (e : Option Ext) (m night : Method) (fallback : Bool) (t : ℝ × ℝ)
    (steps : List StepIn) : Option ℝ :=
  steps.foldl (fun prev i => (shortwave i.env g i.sky (e.map fun e => { e with cell := i.cell }) m night fallback
    i.sunUp i.stations t prev i.clearSky).1) none

end Verif.ExtIrradiance
