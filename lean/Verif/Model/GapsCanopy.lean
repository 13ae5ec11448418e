import Verif.Model.Canopy

/-!
# Canopy snow with missing weather data

`CanopyModel.snow`, `canopy.py:186-236`, one forest pixel; `none` = NaN in every array. `np.minimum` and `clip` return
NaN if an argument is NaN; a comparison with NaN is false.
-/

namespace Verif.GapsCanopy

open Verif.Canopy (SnowCfg fillFactor)
open Classical

/-- Inputs of one time step, as `Canopy.SnowIn`. The loss rate of an ice sphere is a number: NaN is replaced by 0
(`canopy.py:176`). -/
structure In where
  cap : ℝ
  snowfall : Option ℝ
  rainfall : Option ℝ
  rate : ℝ
  temp : Option ℝ

/-- Results of one time step. -/
structure Out where
  load : Option ℝ
  intercepted : Option ℝ
  subl : Option ℝ
  melt : Option ℝ
  snowfall : Option ℝ
  precip : Option ℝ

/-- Interception, `canopy.py:190-192`. -/
noncomputable def newLoad (load : Option ℝ) (i : In) : Option ℝ :=
  load.bind fun l => i.snowfall.bind fun s => (fillFactor s i.cap).map fun f => l + 7 / 10 * (i.cap - l) * f

/-- Exposure coefficient, `canopy.py:199-203`; zero where the load is NaN. -/
noncomputable def exposure (c : SnowCfg) (cap : ℝ) : Option ℝ → ℝ
  | none => 0
  | some l => if 0 < l then c.expCoeff * (l / cap) ^ (-(4 : ℝ) / 10) else 0

/-- `CanopyModel.snow`, `canopy.py:186-236`. -/
noncomputable def step (c : SnowCfg) (load : Option ℝ) (i : In) : Out :=
  let n := newLoad load i
  let intercepted := load.bind fun l => n.map fun n => max (n - l) 0
  let subl := n.map fun l => max (min (-(exposure c i.cap n) * l * i.rate * c.dt) l) 0
  let load1 := n.bind fun l => subl.map fun s => l - s
  let melt := i.temp.bind fun t => load1.map fun l => min (c.ddf * max (t - Canopy.T0) 0 * c.dt / (3600 * 24)) l
  let load2 := load1.bind fun l => melt.map fun m => l - m
  let snowfall := i.snowfall.bind fun s => intercepted.bind fun a => melt.map fun m => s - a + m
  { load := load2, intercepted := intercepted, subl := subl, melt := melt, snowfall := snowfall,
    precip := snowfall.bind fun s => i.rainfall.map fun r => s + r }

/-- The time steps of a run: final load and the results of the steps. -/
noncomputable def run (c : SnowCfg) : Option ℝ → List In → Option ℝ × List Out
  | load, [] => (load, [])
  | load, i :: is =>
    let o := step c load i
    let r := run c o.load is
    (r.1, o :: r.2)

end Verif.GapsCanopy
