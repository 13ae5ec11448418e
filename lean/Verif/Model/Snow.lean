import Verif.Model.MultiLayer
import Mathlib.Analysis.SpecialFunctions.Exp
import Mathlib.Analysis.SpecialFunctions.Pow.Real
import Mathlib.Analysis.Complex.Trigonometric

/-!
# Snow properties shared by both snow models

Mirrors `openamundsen/modules/snow/snow.py`, per pixel, over the real numbers.
-/

namespace Verif.Snow

open Real

/-! ## Albedo -/

/-- `config.snow.albedo.refresh_method`, `snow.py:63-71`. -/
inductive Refresh
  | binary
  | continuous

/-- `config.snow.albedo` (timescales in hours, `refresh_snowfall` in kg m-2 h-1). -/
structure AlbedoCfg where
  min : ℝ
  max : ℝ
  coldTimescale : ℝ
  meltingTimescale : ℝ
  refreshSnowfall : ℝ
  refresh : Refresh

/-- Decay timescale in seconds, `snow.py:51-55`; a missing temperature compares false. -/
noncomputable def decayTimescale (c : AlbedoCfg) (temp : Option ℝ) : ℝ :=
  match temp with
  | none => 3600 * c.coldTimescale
  | some T => if T0 ≤ T then 3600 * c.meltingTimescale else 3600 * c.coldTimescale

/-- Albedo decay, `snow.py:56-58`. -/
noncomputable def decay (c : AlbedoCfg) (dt : ℝ) (temp : Option ℝ) (a : ℝ) : ℝ :=
  c.min + (a - c.min) * exp (-1 / decayTimescale c temp * dt)

/-- `albedo` for one pixel, `snow.py:50-73`. `a = none` is NaN (snow-free). -/
noncomputable def albedo (c : AlbedoCfg) (dt : ℝ) (temp snowfall : Option ℝ) (a : Option ℝ) :
    Option ℝ :=
  let rate := nanToZero (snowfall.map (· / dt))
  let refreshRate := c.refreshSnowfall / 3600
  match c.refresh with
  | .binary => if refreshRate ≤ rate then some c.max else a.map (decay c dt temp)
  | .continuous =>
    if refreshRate = 0 ∧ rate = 0 then none
    else
      let f := if refreshRate = 0 then 1 else Min.min 1 (rate / refreshRate)
      a.map fun a => decay c dt temp a + (c.max - decay c dt temp a) * f

/-! ## Fresh snow density -/

/-- `fresh_snow_density`, `snow.py:97-101`. -/
noncomputable def freshSnowDensity (temp : Option ℝ) : ℝ :=
  match temp with
  | none => 100
  | some T => 50 + 17 / 10 * (Max.max T (T0 - 15) - (T0 - 15)) ^ (3 / 2 : ℝ)

/-! ## Compaction -/

/-- The entries of one layer used by the compaction kernels. -/
structure DLayer where
  thick : ℝ
  ice : ℝ
  lwc : ℝ
  temp : ℝ
  dens : Option ℝ

/-- Densification rate (h-1 times density), `snow.py:215-236`; zero for missing air temperature
(the rate is NaN and is replaced). -/
noncomputable def andersonRate (airTemp : Option ℝ) (load rho lwc : ℝ) : ℝ :=
  match airTemp with
  | none => 0
  | some T =>
    let c6 := if 150 < rho then exp (-(46 / 1000) * (rho - 150)) else 1
    let c4 : ℝ := if 0 < lwc then 2 / 100 else 1 / 100
    let compact := 1 / 1000 * load * exp (-(8 / 100) * (T0 - T) - 21 / 1000 * rho)
    let metamorph := c4 * exp (-(4 / 100) * (T0 - T)) * c6
    rho * (compact + metamorph)

/-- Body of the layer loop, `snow.py:206-244`: returns the load above the next layer and the
compacted layer, `none` if the new thickness is `0/0` (NaN). -/
noncomputable def andersonLayer (dtH : ℝ) (airTemp : Option ℝ) (load : ℝ) (L : DLayer) :
    Option (ℝ × DLayer) :=
  if 0 < L.thick then
    let m := L.ice + L.lwc
    let load1 := load + m / 2
    let rho := m / L.thick
    let rho' := rho + andersonRate airTemp load1 rho L.lwc * dtH
    if rho' = 0 then none
    else some (load1 + m / 2, { L with dens := some rho', thick := m / rho' })
  else some (load, L)

/-- `_compaction_anderson` for one pixel, `snow.py:191-244`, with the timestep in seconds. -/
noncomputable def andersonLoop (dtH : ℝ) (airTemp : Option ℝ) (load : ℝ) :
    List DLayer → Option (List DLayer)
  | [] => some []
  | L :: Ls =>
    match andersonLayer dtH airTemp load L with
    | none => none
    | some (load', L') =>
      match andersonLoop dtH airTemp load' Ls with
      | none => none
      | some Ls' => some (L' :: Ls')

/-- `_compaction_anderson`, `snow.py:191-244`. -/
noncomputable def anderson (dt : ℝ) (airTemp : Option ℝ) (Ls : List DLayer) :
    Option (List DLayer) :=
  andersonLoop (dt / 3600) airTemp 0 Ls

/-- Parameters of the empirical compaction (timescale in seconds, `snow.py:121-124`). -/
structure EmpiricalCfg where
  timescale : ℝ
  maxCold : ℝ
  maxMelting : ℝ

/-- Maximum density of a layer, `snow.py:317-320`. -/
noncomputable def maxDensity (c : EmpiricalCfg) (L : DLayer) : ℝ :=
  if L.temp < T0 then c.maxCold else c.maxMelting

/-- Body of the layer loop of `_compaction_empirical`, `snow.py:310-332`; `none` for `0/0`. -/
noncomputable def empiricalLayer (c : EmpiricalCfg) (dt : ℝ) (L : DLayer) : Option DLayer :=
  if 0 < L.thick then
    let m := L.ice + L.lwc
    let rho := m / L.thick
    let mx := maxDensity c L
    if rho < mx then
      let rho' := mx + (rho - mx) * exp (-dt / c.timescale)
      if rho' = 0 then none else some { L with dens := some rho', thick := m / rho' }
    else some { L with dens := some rho }
  else some L

/-! ## Bulk properties -/

/-- `snow.depth`, `snow.py:352`. -/
def depth (Ls : List DLayer) : ℝ := (Ls.map DLayer.thick).sum

/-- `snow.swe`, `snow.py:353`. -/
def swe (Ls : List DLayer) : ℝ := (Ls.map fun L => L.ice + L.lwc).sum

/-- `snow.area_fraction`, `snow.py:355-361`. -/
noncomputable def areaFraction (scale : ℝ) (Ls : List DLayer) : ℝ :=
  if 0 < scale then tanh (depth Ls / scale) else if 0 < depth Ls then 1 else 0

end Verif.Snow
