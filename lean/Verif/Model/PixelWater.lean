import Verif.Model.Canopy
import Verif.Model.CryoLayer
import Verif.Model.MultiLayerStep
import Verif.Model.Precip

/-!
# Water path of one pixel through a time step

The sequence `precipitation phase → canopy snow → snow model` of `openamundsen/model.py:338-381,
849-877` for one pixel, with missing values. The canopy part is `CanopyModel.snow`,
`openamundsen/modules/canopy/canopy.py:186-236`, with NaN as `none` (`Model/Canopy.snowStep` is the
same computation with all inputs given; `Props/PixelWater` relates both).
-/

namespace Verif.PixelWater

open Verif.Canopy (SnowCfg T0 fillFactor)

/-- Inputs of the canopy snow model of one time step. The sublimation loss rate is a number also if
variables are missing (`canopy.py:176`). -/
structure CanopyIn where
  cap : ℝ
  rate : ℝ
  temp : Option ℝ

/-- Results of the canopy snow model of one time step, `none` = NaN. -/
structure CanopyOut where
  load : Option ℝ
  intercepted : Option ℝ
  subl : Option ℝ
  melt : Option ℝ
  snowfall : Option ℝ
  precip : Option ℝ

open Classical in
/-- `exposure_coeff`, `canopy.py:199-203`; comparisons with NaN are false, so it is 0 for a NaN
load (and the product with the load NaN). -/
noncomputable def exposure (c : SnowCfg) (cap newLoad : ℝ) : ℝ :=
  if 0 < newLoad then c.expCoeff * (newLoad / cap) ^ (-(4 : ℝ) / 10) else 0

/-- `CanopyModel.snow` from the load update on, `canopy.py:186-236`: `np.minimum`, `clip` and the
arithmetic operations give NaN if an operand is NaN. -/
noncomputable def canopyStep (c : SnowCfg) (i : CanopyIn) (load snowfall rainfall : Option ℝ) :
    CanopyOut :=
  let newLoad : Option ℝ := load.bind fun l => snowfall.bind fun s =>
    (fillFactor s i.cap).map fun f => l + 7 / 10 * (i.cap - l) * f
  let intercepted := load.bind fun l => newLoad.map fun n => max (n - l) 0
  let subl := newLoad.map fun n => max (min (-exposure c i.cap n * n * i.rate * c.dt) n) 0
  let load1 := newLoad.bind fun n => subl.map fun s => n - s
  let melt := i.temp.bind fun t =>
    load1.map fun l => min (c.ddf * max (t - T0) 0 * c.dt / (3600 * 24)) l
  let load2 := load1.bind fun l => melt.map fun m => l - m
  let snow1 := snowfall.bind fun s => intercepted.bind fun x => melt.map fun m => s - x + m
  { load := load2, intercepted := intercepted, subl := subl, melt := melt, snowfall := snow1,
    precip := snow1.bind fun s => rainfall.map fun r => s + r }

/-- Inputs of one time step: precipitation above the canopy, already divided into its phases
(`model.py:849-877`, `Model/Precip.process`); inputs of the canopy; other inputs of the snow model. -/
structure PixelIn (E : Type*) where
  above : Precip.Out ℝ
  canopy : CanopyIn
  snow : E

/-- Recorded fluxes of one time step. -/
structure PixelFlux (F : Type*) where
  /-- sublimation of intercepted snow, NaN outside of the forest -/
  canopySubl : Option ℝ
  /-- snowfall and rainfall reaching the ground -/
  snowfall : Option ℝ
  rainfall : Option ℝ
  snow : F

/-- Canopy and snow model of one pixel and time step, `model.py:348-377`: the canopy model works on
forest pixels only (`pos = self.forest_pos`), the load of other pixels stays as it is (NaN). `snow`
is the step of the snow model with snowfall and rainfall at the ground. -/
noncomputable def pixelStep {E F P : Type*} (forest : Bool) (cc : SnowCfg)
    (snow : Option ℝ → Option ℝ → E → P → Option (F × P)) (i : PixelIn E)
    (st : Option ℝ × P) : Option (PixelFlux F × (Option ℝ × P)) :=
  let o := canopyStep cc i.canopy st.1 i.above.snow i.above.rain
  let snowfall := if forest then o.snowfall else i.above.snow
  (snow snowfall i.above.rain i.snow st.2).map fun r =>
    (⟨if forest then o.subl else none, snowfall, i.above.rain, r.1⟩,
      (if forest then o.load else st.1, r.2))

/-- A run over several time steps. -/
noncomputable def pixelRun {E F P : Type*} (forest : Bool) (cc : SnowCfg)
    (snow : Option ℝ → Option ℝ → E → P → Option (F × P)) :
    List (PixelIn E) → Option ℝ × P → Option (List (PixelFlux F) × (Option ℝ × P))
  | [], st => some ([], st)
  | i :: is, st =>
    (pixelStep forest cc snow i st).bind fun r =>
      (pixelRun forest cc snow is r.2).map fun q => (r.1 :: q.1, q.2)

/-- The cryolayer model fed with the precipitation at the ground (`cryolayermodel.py:176-185,
286` use `s.meteo.snowfall` and `s.meteo.rainfall`). -/
noncomputable def cryo (c : Cryo.Cfg ℝ) (snowfall rainfall : Option ℝ) (e : Cryo.StepIn ℝ) (p : Cryo.CPixel ℝ) :
    Option (Cryo.Fluxes ℝ × Cryo.CPixel ℝ) :=
  Cryo.step c { e with snowfall := snowfall, rainfall := rainfall } p

/-- The multilayer model fed with the precipitation at the ground. -/
noncomputable def multi (c : MultiLayer.Cfg ℝ) (snowfall rainfall : Option ℝ) (e : MultiLayer.StepIn ℝ)
    (p : MultiLayer.Pixel ℝ) : Option (MultiLayer.Fluxes ℝ × MultiLayer.Pixel ℝ) :=
  MultiLayer.step c { e with snowfall := snowfall, rainfall := rainfall } p

end Verif.PixelWater
