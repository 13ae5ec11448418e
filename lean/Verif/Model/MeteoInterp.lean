import Verif.Model.Idw
import Verif.Model.Atmosphere
import Verif.Model.Config

/-!
# Interpolation of station data with elevation trends, wind field correction

Mirrors `openamundsen/meteo/interpolation.py:60-79, 144-208, 358-591` for one target point.
-/

namespace Verif.MeteoInterp

open Verif.Idw (Pt loop)
open Verif.Atmosphere (clip dewPoint rhFromDew fmod)

/-- A station with complete coordinates (`_param_station_data` drops the others), its value (for
humidity: after conversion to a dew point, possibly missing) and its temperature. -/
structure Stn where
  x : ℝ
  y : ℝ
  z : ℝ
  v : Option ℝ
  temp : ℝ

/-- A target point. -/
structure Target where
  x : ℝ
  y : ℝ
  z : ℝ
  temp : ℝ

/-- `interpolation.idw` with default power 2 and no smoothing for one target (see
`Verif.Idw.idw_eq`). -/
noncomputable def idwAt (ps : List Pt) (t : Target) : Option ℝ :=
  if ps.length = 0 then none else some (loop 2 0 t.x t.y ps 0 0)

/-- The points of the stations with a value, the value transformed by `g`. -/
def pts (g : Stn → ℝ → ℝ) (st : List Stn) : List Pt :=
  st.filterMap fun s => s.v.map fun v => ⟨s.x, s.y, g s v⟩

/-- The values without the missing ones. -/
def vals (st : List Stn) : List ℝ := st.filterMap Stn.v

/-- Elevations and values. -/
def pairs (st : List Stn) : List (ℝ × ℝ) := st.filterMap fun s => s.v.map fun v => (s.z, v)

/-- `np.nanmean` of a non-empty list. -/
noncomputable def mean (xs : List ℝ) : ℝ := xs.sum / xs.length

/-- Slope of the least squares line. -/
noncomputable def ols (ps : List (ℝ × ℝ)) : ℝ :=
  let zm := mean (ps.map Prod.fst)
  let vm := mean (ps.map Prod.snd)
  (ps.map fun p => (p.1 - zm) * (p.2 - vm)).sum / (ps.map fun p => (p.1 - zm) ^ 2).sum

open Classical in
/-- `_linear_fit`, `interpolation.py:60-79`: the slope returned by `np.polyfit(x, y, 1)`. `polyfit`
scales the columns of the design matrix by their Euclidean norms and takes the minimum norm least
squares solution; this is the least squares line if there are two different abscissas, and `mean(y) /
(2 c)` if all abscissas are equal to `c ≠ 0` (see `C57_fit` and `C57_fit_flat`). With all abscissas 0 the scaling is
0/0 and `lstsq` raises. -/
noncomputable def linearFit (ps : List (ℝ × ℝ)) : Option ℝ :=
  match ps with
  | [] => some 0
  | [_] => some 0
  | p :: q :: rest =>
    if ∀ r ∈ q :: rest, r.1 = p.1 then
      if p.1 = 0 then none else some (mean ((p :: q :: rest).map Prod.snd) / (2 * p.1))
    else some (ols (p :: q :: rest))

/-- Detrend, interpolate, retrend, `interpolation.py:448-461` (linear) and `480-493` (piecewise), for a
trend function `f` of elevation. -/
noncomputable def trendInterp (f : ℝ → ℝ) (st : List Stn) (t : Target) : Option ℝ :=
  (idwAt (pts (fun s v => v - f s.z) st) t).map (· + f t.z)

/-- `trend_method`. For `piecewise`, the fitted function (or none if no fit was possible) is a
parameter: `pwlf` is not modelled. -/
inductive Trend
  | fixed
  | fractional
  | regression
  | piecewise (fit : List (ℝ × ℝ) → Option (ℝ → ℝ))
  | adjustment

open Classical in
/-- The factor of the adjustment factor method, `interpolation.py:499-504`. -/
noncomputable def factor (lapse d : ℝ) : Option ℝ :=
  if 1 - lapse * d = 0 then none else some ((1 + lapse * d) / (1 - lapse * d))

open Classical in
/-- The trend part of `interpolate_param`, `interpolation.py:435-510`. Outer `none`: exception; inner
`none`: NaN or infinite (the infinite value of the adjustment factor at its singularity, which without
extrapolation would be clipped to the range of the data, counts as missing). -/
noncomputable def trended (tr : Trend) (lapse : ℝ) (st : List Stn) (t : Target) : Option (Option ℝ) :=
  match tr with
  | .fixed => some (trendInterp (fun z => lapse * z) st t)
  | .fractional =>
    some (if vals st = [] then none else trendInterp (fun z => lapse * mean (vals st) * z) st t)
  | .regression =>
    if ∃ s ∈ st, s.v = none then some none
    else (linearFit (pairs st)).map fun k => trendInterp (fun z => k * z) st t
  | .piecewise fit => some ((fit (pairs st)).bind fun f => trendInterp f st t)
  | .adjustment =>
    some ((idwAt (pts (fun _ v => v) st) t).bind fun v =>
      (idwAt (st.map fun s => ⟨s.x, s.y, s.z⟩) t).bind fun z =>
        (factor lapse (t.z - z)).map fun a => v * a)

/-- Supported parameters. -/
inductive Param
  | temp
  | precip
  | relHum
  | windSpeed
  | windVec
  deriving DecidableEq

/-- `ALLOWED_METEO_VAR_RANGES`, `constants.py:107-115` (`none`: no upper limit / not listed). -/
noncomputable def Param.allowed : Param → Option (ℝ × Option ℝ)
  | .temp => some (0, none)
  | .precip => some (0, none)
  | .relHum => some (0, some 100)
  | .windSpeed => some (1 / 10, none)
  | .windVec => none

/-- Clipping to the allowed range, `interpolation.py:527-529`. -/
noncomputable def clipAllowed (p : Param) (x : ℝ) : ℝ :=
  match p.allowed with
  | none => x
  | some (lo, none) => max lo x
  | some (lo, some hi) => clip lo hi x

/-- Clipping to the range of the data, `interpolation.py:520-525`. -/
noncomputable def clipData (extrapolate : Bool) (data : List ℝ) (x : ℝ) : ℝ :=
  if extrapolate then x
  else
    match data.min?, data.max? with
    | some lo, some hi => clip lo hi x
    | _, _ => x

/-- Replacement of humidities by dew points, `interpolation.py:426-433`. -/
noncomputable def toDew (st : List Stn) : List Stn :=
  st.map fun s => { s with v := s.v.bind fun rh => dewPoint s.temp rh }

/-- `interpolate_param`, `interpolation.py:358-531`, for one target. Outer `none`: exception. -/
noncomputable def interpolate (p : Param) (tr : Trend) (lapse : ℝ) (extrapolate : Bool) (st : List Stn)
    (t : Target) : Option (Option ℝ) :=
  if st.length = 0 then some (if p = .precip then some 0 else none)
  else
    let data := if p = .relHum then toDew st else st
    (trended tr lapse data t).map fun r =>
      let r := if p = .relHum then r.bind fun td => rhFromDew t.temp td else r
      r.map fun x => clipAllowed p (clipData extrapolate (vals data) x)

/-! ## Wind field correction -/

/-- A grid cell: interpolated wind speed and direction, slope and aspect (degrees), scaled
curvature. -/
structure Cell where
  speed : ℝ
  dir : ℝ
  slope : ℝ
  aspect : ℝ
  curv : ℝ

/-- Degrees to radians. -/
noncomputable def rad (x : ℝ) : ℝ := x * (Real.pi / 180)

/-- Slope in the direction of the wind, `interpolation.py:575-578`. -/
noncomputable def windSlope (c : Cell) : ℝ := rad c.slope * Real.cos (rad (c.dir - c.aspect))

/-- Corrected speed and direction of a cell with scaled slope `s`, `interpolation.py:580-591`. -/
noncomputable def correctCell (slopeWeight curvWeight s : ℝ) (c : Cell) : ℝ × ℝ :=
  (c.speed * (1 + slopeWeight * s + curvWeight * c.curv),
    fmod (c.dir + -(1 / 2) * s * Real.sin (-2 * rad (c.dir - c.aspect))) 360)

/-- `_liston_wind_correction`, `interpolation.py:574-591`, followed by the clipping of the wind speed
(`321-324`). `none`: missing. -/
noncomputable def liston (slopeWeight curvWeight : ℝ) (cells : List Cell) : List (Option (ℝ × ℝ)) :=
  match Verif.Config.normalize (cells.map fun c => some (windSlope c)) (-(1 / 2)) (1 / 2) with
  | none => cells.map fun _ => none
  | some ss => List.zipWith (fun c s => s.map fun s =>
      (max (1 / 10) (correctCell slopeWeight curvWeight s c).1,
        (correctCell slopeWeight curvWeight s c).2)) cells ss

end Verif.MeteoInterp
