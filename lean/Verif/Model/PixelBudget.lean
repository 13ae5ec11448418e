import Verif.Model.PixelWater
import Verif.Model.EvapoClass

/-!
# Water path of one pixel with evapotranspiration

The sequence `canopy snow → snow model → evapotranspiration` of `openamundsen/model.py:345-388` for one
pixel. Evapotranspiration reads the rainfall and the snow water equivalent
(`evapotranspiration.py:245, 473, 516, 552`); it does not read the runoff of the snow model.
-/

namespace Verif.PixelBudget

open Verif.Canopy (SnowCfg)
open Verif.PixelWater (PixelIn PixelFlux pixelStep)
open Verif.EvapoClass (Kind PxIn PxSt classStep resetPx)

/-- Inputs of a time step; rainfall and snow cover of `soil` are replaced by those of the pixel. -/
structure In (E : Type*) where
  px : PixelIn E
  soil : PxIn ℝ

/-- Fluxes of a time step: those of canopy and snow model, evapotranspiration and percolation, and
whether the pixel was snow-covered. -/
structure Flux (F : Type*) where
  water : PixelFlux F
  covered : Bool
  et : Option ℝ
  dp : ℝ

/-- Inputs of the evapotranspiration of a pixel: `s.meteo.rainfall` and `s.snow.swe > 0`. -/
def soilIn {E F : Type*} (i : In E) (w : PixelFlux F) (covered : Bool) : PxIn ℝ :=
  { i.soil with et := { i.soil.et with rain := w.rainfall, snow := covered } }

/-- A time step of a pixel of land cover class kind `k`, `model.py:345-388`. `cover` tells from the result
of the snow model whether `s.snow.swe > 0`; this is the snow water equivalent of the last
`update_properties`, before `update_layers`. -/
noncomputable def budgetStep {E F P : Type*} (forest : Bool) (cc : SnowCfg)
    (snow : Option ℝ → Option ℝ → E → P → Option (F × P)) (cover : F → P → Bool) (k : Kind ℝ) (i : In E)
    (st : (Option ℝ × P) × PxSt ℝ) : Option (Flux F × ((Option ℝ × P) × PxSt ℝ)) :=
  (pixelStep forest cc snow i.px st.1).bind fun r =>
    let covered := cover r.1.snow r.2.2
    (classStep k (soilIn i r.1 covered) (resetPx st.2)).map fun y =>
      (⟨r.1, covered, y.et, y.dp⟩, (r.2, y))

/-- A run over several time steps. -/
noncomputable def budgetRun {E F P : Type*} (forest : Bool) (cc : SnowCfg)
    (snow : Option ℝ → Option ℝ → E → P → Option (F × P)) (cover : F → P → Bool) (k : Kind ℝ) :
    List (In E) → (Option ℝ × P) × PxSt ℝ → Option (List (Flux F) × ((Option ℝ × P) × PxSt ℝ))
  | [], st => some ([], st)
  | i :: is, st =>
    (budgetStep forest cc snow cover k i st).bind fun r =>
      (budgetRun forest cc snow cover k is r.2).map fun q => (r.1 :: q.1, q.2)

end Verif.PixelBudget
