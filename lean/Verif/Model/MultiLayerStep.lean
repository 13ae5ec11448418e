import Verif.Model.MultiLayer

/-!
# One time step of the multilayer model for one pixel

The calls of `_model_interface` (`model.py:351-377`) that touch the snow arrays, in their order.
The results of the parts that do not move mass are inputs of the step, so that the theorems hold
for every value they may produce: the layer thicknesses computed by `compaction`, the layer
temperatures computed by `heat_conduction`, the melt demand, moisture flux and surface temperature
computed by the energy balance. Snow management (an optional external package) is not modelled.
-/

namespace Verif.MultiLayer

variable {K : Type*} [Field K] [LinearOrder K]

/-- Inputs of one time step. -/
structure StepIn (K : Type*) where
  /-- snowfall and rainfall of the step (kg m-2), `none` is NaN -/
  snowfall : Option K
  rainfall : Option K
  airTemp : K
  surfTemp : K
  /-- density of fresh snow, used by accumulation and resublimation -/
  freshDensity : K
  /-- thickness of layer `k` after compaction, given the active layers -/
  compacted : List (Layer K) → ℕ → K
  /-- albedo after `albedo_aging` (`multilayermodel.py:61-62`), given the albedo before -/
  aged : Option K → Option K
  /-- temperature of layer `k` after heat conduction -/
  conducted : ℕ → K
  meltDemand : K
  moistureFlux : Option K

/-- Configuration constants of a run. -/
structure Cfg (K : Type*) where
  dt : K
  albMax : K
  lwcMethod : LwcMethod
  maxFrac : K
  minThickness : List K

/-- Mass fluxes reported for one step. -/
structure Fluxes (K : Type*) where
  melt : K
  sublimation : K
  runoff : K
  refreezing : K

/-- `compaction` (`multilayermodel.py:63-64`): sets the thickness of active layers only. -/
def compact (f : List (Layer K) → ℕ → K) (p : Pixel K) : Pixel K :=
  let Ls := p.layers.take p.n
  p.setActive (Ls.mapIdx fun k L => { L with thick := f Ls k })

/-- `heat_conduction` (`multilayermodel.py:77-91`): sets the temperature of active layers only. -/
def conduct (f : ℕ → K) (p : Pixel K) : Pixel K :=
  p.setActive ((p.layers.take p.n).mapIdx fun k L => { L with temp := f k })

/-- One time step, `model.py:351-377`. `none` if a NaN thickness, weight or temperature arises. -/
def step (c : Cfg K) (e : StepIn K) (p : Pixel K) : Option (Fluxes K × Pixel K) :=
  let p1 := accumulation c.albMax e.airTemp e.freshDensity e.snowfall (compact e.compacted p)
  let p1a := { p1 with albedo := e.aged p1.albedo }
  let p2 := conduct e.conducted (updateHeatCap p1a)
  let m := melt e.meltDemand p2
  let s := sublimation c.dt e.surfTemp c.albMax e.airTemp e.freshDensity e.moistureFlux m.2
  match s.2 with
  | none => none
  | some p4 =>
    let r := runoff c.lwcMethod c.maxFrac e.rainfall p4
    match updateLayers c.minThickness (updateHeatCap r.2.2) with
    | none => none
    | some q => some (⟨m.1, s.1, r.1, r.2.1⟩, q)

/-- A run over a list of steps; returns the flux records and the final pixel. -/
def run (c : Cfg K) : List (StepIn K) → Pixel K → Option (List (Fluxes K) × Pixel K)
  | [], p => some ([], p)
  | e :: es, p =>
    match step c e p with
    | none => none
    | some (f, p') =>
      match run c es p' with
      | none => none
      | some (fs, q) => some (f :: fs, q)

end Verif.MultiLayer
