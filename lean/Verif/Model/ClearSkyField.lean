import Verif.Model.ClearSky

/-!
# Clear-sky irradiance over the grid

Mirrors `openamundsen/modules/radiation/irradiance.py:18-158` and the parts of
`_clear_sky_shortwave_irradiance` that involve all pixels
(`openamundsen/modules/radiation/clearsky.py:84-106, 182-196`). A grid is a list of pixels; shadows are
given (`Model/Shadows`, `Model/ShadowGrid`).
-/

namespace Verif.ClearSkyField

open Verif.ClearSky (Input)

/-- Settings and quantities common to all pixels, `irradiance.py:66-82`. -/
structure Sky where
  ozone : ℝ
  visibility : ℝ
  ssa : ℝ
  clearSkyAlbedo : ℝ
  dayAngle : ℝ
  sun : ℝ × ℝ × ℝ

/-- A pixel: whether it is in the ROI, elevation, sky view factor, normal vector, pressure, precipitable
water, shadow (1: lit, 0: shaded). -/
structure Px where
  roi : Bool
  elev : ℝ
  svf : ℝ
  normal : ℝ × ℝ × ℝ
  press : ℝ
  water : ℝ
  shadow : ℝ

/-- Cosine of the angle of incidence, `clearsky.py:101-106`. -/
noncomputable def incidence (k : Sky) (x : Px) : ℝ := max (Terrain.incidence k.sun x.normal) 0

/-- `np.mean`. -/
noncomputable def mean (l : List ℝ) : ℝ := l.sum / l.length

/-- `sun_frac`, `clearsky.py:183`. -/
noncomputable def sunFrac (xs : List Px) : ℝ :=
  mean ((xs.filter Px.roi).map Px.shadow)

open Classical in
/-- `mean_sun_aoi`, `clearsky.py:184-188`. -/
noncomputable def meanAoi (k : Sky) (xs : List Px) : ℝ :=
  let lit := (xs.filter Px.roi).filter fun x => decide (x.shadow = 1)
  if 0 < lit.length then mean (lit.map (incidence k)) else 0

/-- Inputs of the pixel formulas (`Model/ClearSky`) for a pixel of the field `xs`. -/
noncomputable def pxInput (k : Sky) (xs : List Px) (albedo : ℝ) (x : Px) : Input where
  press := x.press
  water := x.water
  elev := x.elev
  ozone := k.ozone
  visibility := k.visibility
  ssa := k.ssa
  clearSkyAlbedo := k.clearSkyAlbedo
  groundAlbedo := albedo
  svf := x.svf
  dayAngle := k.dayAngle
  sun := k.sun
  normal := x.normal
  shadow := x.shadow
  sunFrac := sunFrac xs
  meanAoi := meanAoi k xs

/-- Mean of the surface albedo over the ROI: NaN if a value is missing (or there is none), then the
albedo of soil, `irradiance.py:22-26, 126-128`. -/
noncomputable def meanAlbedo (soil : ℝ) (albedos : List (Option ℝ)) : ℝ :=
  match albedos.mapM id with
  | none => soil
  | some [] => soil
  | some l => mean l

/-- Values of the three clear-sky fields in a pixel. -/
structure Irr where
  sw : ℝ
  dir : ℝ
  diff : ℝ

/-- `clear_sky_shortwave_irradiance`, `irradiance.py:18-89`: fields before (`old`) and after the time
step, in the order of the pixels; `albedos` are the surface albedos in the ROI. -/
noncomputable def field (k : Sky) (sunUp : Bool) (soil : ℝ) (albedos : List (Option ℝ)) (xs : List Px)
    (old : List (Option Irr)) : List (Option Irr) :=
  let a := meanAlbedo soil albedos
  let dir (x : Px) : ℝ := if sunUp then (pxInput k xs a x).direct else 0
  let diff (x : Px) : ℝ := if sunUp then (pxInput k xs a x).diffuse else 0
  List.zipWith (fun x o => if x.roi then some ⟨dir x + diff x, dir x, diff x⟩ else o) xs old

/-- `extended_grid_stations_clear_sky_shortwave_irradiance`, `irradiance.py:92-157`, for the pixels of the
extended grid of the selected stations: without a region of interest all of them count
(`clearsky.py:86-87`). -/
noncomputable def stations (k : Sky) (soil : ℝ) (albedos : List (Option ℝ)) (xs : List Px) : List ℝ :=
  let ys := xs.map fun x => { x with roi := true }
  ys.map fun x => (pxInput k ys (meanAlbedo soil albedos) x).direct +
    (pxInput k ys (meanAlbedo soil albedos) x).diffuse

end Verif.ClearSkyField
