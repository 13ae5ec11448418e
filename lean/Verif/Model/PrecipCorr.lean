import Verif.Model.Atmosphere
import Mathlib.Analysis.SpecialFunctions.Trigonometric.Arctan

/-!
# Correction of station precipitation

Mirrors `openamundsen/meteo/precipcorr.py:14-22, 113-222` for one station and time step.
-/

namespace Verif.PrecipCorr

/-- One record: recorded precipitation (may be missing), air temperature (°C), wind speed, and snowfall
fraction of precipitation (0 where the phase cannot be determined, `precipcorr.py:113`). Missing
temperatures and winds are those left after interpolation between stations. -/
structure Rec where
  precip : Option ℝ
  tempC : Option ℝ
  wind : Option ℝ
  snowfrac : ℝ

/-- Gauges of the "wmo" method in the schema. -/
inductive WmoGauge
  | nipher
  | tretyakov
  | usSh
  | usUnsh
  | hellmann
  deriving DecidableEq

/-- Gauges of the "kochendorfer" method. -/
inductive KochGauge
  | usUn
  | allSa
  | norSa
  | usSa
  | usDa
  | usBda
  | usSdfir
  deriving DecidableEq

/-- `KOCHENDORFER_COEFFS`, `precipcorr.py:14-22`: (a, b, c, max_U). -/
noncomputable def KochGauge.coeffs : KochGauge → ℝ × ℝ × ℝ × ℝ
  | .usUn => (45 / 1000, 121 / 100, 66 / 100, 8)
  | .allSa => (3 / 100, 104 / 100, 57 / 100, 12)
  | .norSa => (5 / 100, 66 / 100, 23 / 100, 12)
  | .usSa => (3 / 100, 106 / 100, 63 / 100, 12)
  | .usDa => (21 / 1000, 74 / 100, 66 / 100, 8)
  | .usBda => (1 / 100, 48 / 100, 51 / 100, 8)
  | .usSdfir => (4 / 1000, 0, 0, 8)

/-- Correction methods. -/
inductive Method
  | constantScf (scf : ℝ)
  | wmo (gauge : WmoGauge)
  | kochendorfer (gauge : KochGauge)

/-- Heights of the log wind profile of the "wmo" method (measurement heights of wind and temperature,
roughness length) and the largest float, by which `nan_to_num` replaces an infinite factor. -/
structure Env where
  windHeight : ℝ
  tempHeight : ℝ
  rough : ℝ
  huge : ℝ

/-- `precips > 0`. -/
def Rec.wet (r : Rec) : Prop := ∃ p, r.precip = some p ∧ 0 < p

open Classical in
/-- Catch ratio (percent) of the Hellmann gauge, `precipcorr.py:148-151, 181-192`; `none`: NaN. -/
noncomputable def hellmann (env : Env) (r : Rec) : Option ℝ :=
  let u : Option ℝ := r.wind.map fun w =>
    min (Atmosphere.logWind w env.windHeight env.tempHeight env.rough) 7
  if r.wet ∧ r.snowfrac = 1 then
    u.map fun u => 100 + 113 / 100 * u ^ 2 - 1945 / 100 * u
  else if r.wet ∧ 0 < r.snowfrac ∧ r.snowfrac < 1 then
    match u, r.tempC with
    | some u, some t => some (9663 / 100 + 41 / 100 * u ^ 2 - 984 / 100 * u + 595 / 100 * t)
    | _, _ => none
  else some 100

open Classical in
/-- Catch ratio (fraction) of the Kochendorfer transfer functions, `precipcorr.py:197-214`. -/
noncomputable def koch (g : KochGauge) (r : Rec) : Option ℝ :=
  let (a, b, c, maxWind) := g.coeffs
  if r.wet then
    match r.wind, r.tempC with
    | some w, some t => some (Real.exp (-a * min w maxWind * (1 - Real.arctan (b * t) + c)))
    | _, _ => none
  else some 1

open Classical in
/-- Correction factor after `nan_to_num`, `precipcorr.py:145-219`; `none`: `NotImplementedError`. For
the "wmo" method every gauge but `hellmann` reaches the `else` of the second `if`. -/
noncomputable def factor (env : Env) (m : Method) (r : Rec) : Option ℝ :=
  match m with
  | .constantScf scf => some (1 + r.snowfrac * (scf - 1))
  | .wmo .hellmann =>
    match hellmann env r with
    | none => some 1
    | some cr => some (if cr = 0 then env.huge else 1 / (cr / 100))
  | .wmo _ => none
  | .kochendorfer g =>
    match koch g r with
    | none => some 1
    | some cr => some (1 / cr)

/-- The loop over the configured methods, `precipcorr.py:121-222` (the masks are computed once from the
original records). -/
noncomputable def correct (env : Env) (ms : List Method) (r : Rec) : Option (Option ℝ) :=
  ms.foldl (fun acc m => acc.bind fun p => (factor env m r).map fun f => p.map (· * f)) (some r.precip)

end Verif.PrecipCorr
