import Mathlib.Analysis.SpecialFunctions.Pow.Real
import Mathlib.Analysis.SpecialFunctions.Log.Basic

/-!
# Canopy model

Mirrors `openamundsen/modules/canopy/canopy.py:21-236`, one forest pixel.
-/

namespace Verif.Canopy

/-- `T0`, `constants.py:15`. -/
noncomputable def T0 : ℝ := 27315 / 100

/-! ## Canopy snow -/

/-- Configuration (`configschema.yml:955-961`) and time step in seconds. -/
structure SnowCfg where
  expCoeff : ℝ
  ddf : ℝ
  dt : ℝ

/-- Inputs of one time step: interception capacity (`max_interception_storage_coefficient * lai_eff`,
`canopy.py:187-189`), snowfall and rainfall above the canopy, sublimation loss rate coefficient
(`canopy.py:128-184`: mass loss rate of an ice sphere over its mass, NaN replaced by 0; taken as an
arbitrary number here), air temperature. -/
structure SnowIn where
  cap : ℝ
  snowfall : ℝ
  rainfall : ℝ
  rate : ℝ
  temp : ℝ

/-- Results of one time step. -/
structure SnowOut where
  load : ℝ
  intercepted : ℝ
  subl : ℝ
  melt : ℝ
  snowfall : ℝ
  precip : ℝ

open Classical in
/-- `1 - np.exp(-snowfall / max_interception_storage)`, `canopy.py:192`; `none` = NaN (`0 / 0`); a
division of a positive snowfall by zero gives an infinite argument and the factor 1. -/
noncomputable def fillFactor (snowfall cap : ℝ) : Option ℝ :=
  if cap = 0 then (if snowfall = 0 then none else some 1)
  else some (1 - Real.exp (-snowfall / cap))

open Classical in
/-- `CanopyModel.snow`, `canopy.py:186-236`; `none` = NaN load. -/
noncomputable def snowStep (c : SnowCfg) (load : ℝ) (i : SnowIn) : Option SnowOut :=
  (fillFactor i.snowfall i.cap).map fun f =>
    let newLoad := load + 7 / 10 * (i.cap - load) * f
    let intercepted := max (newLoad - load) 0
    let exposure := if 0 < newLoad then c.expCoeff * (newLoad / i.cap) ^ (-(4 : ℝ) / 10) else 0
    let subl := max (min (-exposure * newLoad * i.rate * c.dt) newLoad) 0
    let load1 := newLoad - subl
    let melt := min (c.ddf * max (i.temp - T0) 0 * c.dt / (3600 * 24)) load1
    let load2 := load1 - melt
    let snowfall := i.snowfall - intercepted + melt
    { load := load2, intercepted := intercepted, subl := subl, melt := melt,
      snowfall := snowfall, precip := snowfall + i.rainfall }

/-- A run over several time steps: final load and the results of the steps. -/
noncomputable def snowRun (c : SnowCfg) : ℝ → List SnowIn → Option (ℝ × List SnowOut)
  | load, [] => some (load, [])
  | load, i :: is =>
    match snowStep c load i with
    | none => none
    | some o =>
      match snowRun c o.load is with
      | none => none
      | some (l, os) => some (l, o :: os)

/-! ## 24 h temperatures -/

/-- Ring buffer of the temperatures (`last_24h_temps`, `_temp_idx`), `canopy.py:23-31`; the buffer is
initially all NaN. `timestep` in whole seconds; `int(24 * 3600 / timestep)`. -/
structure Ring (K : Type*) where
  buf : List (Option K)
  idx : ℕ

def ringSize (timestep : ℕ) : ℕ := max (24 * 3600 / timestep) 1

def ringInit (K : Type*) (timestep : ℕ) : Ring K := ⟨List.replicate (ringSize timestep) none, 0⟩

/-- `canopy.py:82-85`. -/
def Ring.push {K : Type*} (r : Ring K) (t : Option K) : Ring K :=
  let buf := r.buf.set r.idx t
  let idx := r.idx + 1
  { buf := buf, idx := if idx = buf.length then 0 else idx }

/-- `np.nanmean`, `canopy.py:89`; `none` for an all-NaN slice. -/
def nanmean {K : Type*} [Field K] [DecidableEq K] (l : List (Option K)) : Option K :=
  let xs := l.filterMap id
  if xs.length = 0 then none else some (xs.sum / xs.length)

/-! ## Meteorology -/

/-- Canopy fraction, `canopy.py:76`; `log 0` is minus infinity, clipped to 0. -/
noncomputable def canopyFrac (lai : ℝ) : ℝ :=
  if lai ≤ 0 then 0 else min (max (55 / 100 + 29 / 100 * Real.log lai) 0) 1

/-- Configuration of the meteorology modification. -/
structure MetCfg where
  extinction : ℝ
  tempScale : ℝ
  flowCoeff : ℝ

/-- Meteorology of one forest pixel. -/
structure Met where
  sw : ℝ
  lw : ℝ
  temp : ℝ
  relHum : ℝ
  wind : ℝ

/-- `STEFAN_BOLTZMANN`, `constants.py:32`. -/
noncomputable def sigma : ℝ := 5670374419 / 10 ^ 17

/-- `CanopyModel.meteorology`, `canopy.py:67-118`, for a pixel whose 24 h mean is available. -/
noncomputable def metStep (c : MetCfg) (lai mean24 : ℝ) (m : Met) : Met :=
  let cf := canopyFrac lai
  let deltaT := min (max ((mean24 - T0) / 3) (-2)) 2
  let temp := m.temp - cf * (m.temp - (c.tempScale * (m.temp - mean24) + mean24 - deltaT))
  { sw := m.sw * Real.exp (-c.extinction * lai)
    temp := temp
    lw := (1 - cf) * m.lw + cf * sigma * temp ^ 4
    relHum := min (max (m.relHum * (1 + 1 / 10 * cf)) 0) 100
    wind := m.wind * Real.exp (-(4 / 10) * (c.flowCoeff * lai)) }

/-- Whether the array operation of `canopy.py:91-104` is possible for the forest pixels: the canopy
fraction has one element per forest pixel, the temperatures one per forest pixel with a finite 24 h
mean. Shapes `(n,)` and `(m,)` fit if they are equal, or if `n = 1`; with `m = 1 < n` the product has
shape `(n,)`, which cannot be subtracted in place. -/
def shapesFit (means : List (Option ℝ)) : Bool :=
  let n := means.length
  let m := (means.filter Option.isSome).length
  n = m || n = 1

end Verif.Canopy
