import Mathlib.Algebra.Order.Field.Basic

/-!
# Precipitation phase

Mirrors `openamundsen/meteo/atmosphere.py:585-627` and `openamundsen/model.py:849-877`.
-/

namespace Verif.Precip

variable {K : Type*} [Field K] [LinearOrder K] [IsStrictOrderedRing K]

/-- `precipitation_phase`, `atmosphere.py:585-627` (method `linear`), for one temperature (`none` =
NaN). Outer `none`: the `ValueError` for a negative range. `(nan < x) * 1.0` is 0, `nan.clip` is
NaN. -/
def phase (thr range : K) (temp : Option K) : Option (Option K) :=
  if range < 0 then none
  else if range = 0 then
    some (match temp with
      | none => some 0
      | some t => some (if t < thr then 1 else 0))
  else
    let t1 := thr - range / 2
    let t2 := thr + range / 2
    some (temp.map fun t => min (max (1 - (t - t1) / (t2 - t1)) 0) 1)

/-- Configuration of the phase calculation. -/
structure Cfg (K : Type*) where
  thr : K
  range : K
  enforce : Bool
  hasSrf : Bool

/-- Inputs of one ROI pixel: elevation (`none`: NaN; `model.py:609-624` keeps NaN out of the ROI read
from file, but pixels of stations added by `model.py:184-193` may be without elevation), the
temperature used for the phase (air or wet-bulb temperature, `model.py:850-854`), precipitation, snow
redistribution factor. -/
structure Px (K : Type*) where
  elev : Option K
  temp : Option K
  precip : Option K
  srf : Option K

/-- Outputs of one ROI pixel. -/
structure Out (K : Type*) where
  snow : Option K
  rain : Option K
  precip : Option K

/-- NaN-propagating binary operation. -/
def op2 (f : K → K → K) : Option K → Option K → Option K
  | some a, some b => some (f a b)
  | _, _ => none

/-- Snowfall fraction with `np.nan_to_num(snowfall_frac, nan=0.0)`, `model.py:856-861`. -/
def frac (c : Cfg K) (p : Px K) : K :=
  match phase c.thr c.range p.temp with
  | some (some f) => f
  | _ => 0

/-- `np.max` of a nonempty array: NaN if any element is NaN; here also `none` for the empty list. -/
def npMax (l : List (Option K)) : Option K :=
  if none ∈ l then none else (l.filterMap id).max?

/-- `np.max(roi_dem[rain_pixels])`, `none` if NaN or if `not np.any(rain_pixels)`,
`model.py:867-869`. -/
def maxRainElev (c : Cfg K) (pxs : List (Px K)) : Option K :=
  npMax ((pxs.filter fun p => decide (frac c p = 0)).map Px.elev)

/-- `model.py:862-870`; the comparison with NaN on either side is false. -/
def enforced (c : Cfg K) (pxs : List (Px K)) (p : Px K) : K :=
  if c.enforce then
    match maxRainElev c pxs, p.elev with
    | some m, some z => if z ≤ m then 0 else frac c p
    | _, _ => frac c p
  else frac c p

/-- `model.py:871-877`. -/
def partition (c : Cfg K) (p : Px K) (f : K) : Out K :=
  let snow := p.precip.map (f * ·)
  let rain := p.precip.map ((1 - f) * ·)
  if c.hasSrf then
    let snow' := op2 (· * ·) snow p.srf
    { snow := snow', rain := rain, precip := op2 (· + ·) snow' rain }
  else { snow := snow, rain := rain, precip := p.precip }

/-- Phase calculation of one time step over the ROI, `model.py:849-877`; `none`: exception. -/
def process (c : Cfg K) (pxs : List (Px K)) : Option (List (Out K)) :=
  if c.range < 0 then none
  else some (pxs.map fun p => partition c p (enforced c pxs p))

end Verif.Precip
