import Verif.Model.Evapo

/-!
# Evapotranspiration of a time step over the land cover classes

Mirrors `EvapotranspirationModel.evapotranspiration`,
`openamundsen/modules/evapotranspiration/evapotranspiration.py:240-352`, with the methods called there
(`_single_coeff_crop_et` 412-416, `_dual_coeff_crop_et` 418-496, `_water_stress_coefficient` 498-506,
`_root_zone_water_balance` 508-539, `_sealed_evaporation` 541-598). Crop coefficients, exposed fraction
and potential evaporation of sealed surfaces are inputs (`Model/CropCoeff`, `Model/SealedEvap`,
`Model/RefEvapo`).
-/

namespace Verif.EvapoClass

open Verif.Evapo

variable {K : Type*} [Field K] [LinearOrder K] [IsStrictOrderedRing K]

/-- Kinds of land cover classes: sealed surfaces with their maximum interception; other surfaces with
single or dual crop coefficients, water bodies or not. -/
inductive Kind (K : Type*) where
  | sealed (maxInt : K)
  | crop (dual water : Bool)

/-- Inputs of a pixel. -/
structure PxIn (K : Type*) where
  soil : Soil K
  et : EtIn K
  /-- potential evaporation of sealed surfaces -/
  pot : Option K

/-- Fields of a pixel: depletions, sealed interception and results of the time step; `none` = NaN. -/
structure PxSt (K : Type*) where
  st : St K
  int : K
  evap : Option K
  transp : Option K
  et : Option K
  dp : K
  stress : Option K

/-- Lines 247-251: deep percolation and stress coefficient are reset in every pixel of the ROI. -/
def resetPx (x : PxSt K) : PxSt K := { x with dp := 0, stress := none }

/-- Lines 265-271 and `_sealed_evaporation`. -/
def sealedClass (maxInt : K) (i : PxIn K) (x : PxSt K) : PxSt K :=
  let r := sealedStep maxInt x.int ⟨i.et.snow, i.et.rain, i.pot⟩
  { x with int := r.1, evap := some r.2.evap, transp := some 0, et := some (r.2.evap + 0),
           dp := r.2.dp }

/-- Standard conditions of a class with a single crop coefficient, lines 329-332 and 412-416. -/
def singleStandard (snowfree : Bool) (i : PxIn K) (x : PxSt K) : PxSt K :=
  { x with et := some (if snowfree then i.et.kcb * nn i.et.etRef else 0) }

/-- Standard conditions of a class with dual crop coefficients, lines 333-338 and 418-496; `none`: a
number divided by a zero exposed fraction. -/
def dualStandard (snowfree : Bool) (i : PxIn K) (x : PxSt K) : Option (PxSt K) :=
  if snowfree then
    let evap := ke i.soil x.st.de i.et * nn i.et.etRef
    let transp := i.et.kcb * nn i.et.etRef
    (surfaceBalance i.soil x.st (nn i.et.rain) evap i.et.few).map fun r =>
      { x with st := { x.st with dpe := r.1, de := r.2 }, evap := some evap, transp := some transp,
               et := some (evap + transp) }
  else some { x with evap := some 0, transp := some 0, et := some 0 }

/-- Water stress, lines 342-351; `none`: the coefficient is NaN. -/
def stressed (dual snowfree : Bool) (i : PxIn K) (x : PxSt K) : Option (PxSt K) :=
  if snowfree then
    (Evapo.stress i.soil x.st.dr).map fun ks =>
      if dual then
        let transp := x.transp.map (· * ks)
        { x with stress := some ks, transp := transp,
                 et := x.evap.bind fun e => transp.map fun t => e + t }
      else { x with stress := some ks, et := x.et.map (· * ks) }
  else some x

/-- Root zone, line 352 and 508-539, also for snow-covered pixels. -/
def rootZone (i : PxIn K) (x : PxSt K) : PxSt K :=
  let r := rootBalance i.soil x.st.dr (nn i.et.rain) (nn x.et)
  { x with st := { x.st with dr := r.2 }, dp := r.1 }

/-- One class that is not sealed, lines 273-352: the snow cover of water bodies is ignored, they have
neither water stress nor a root zone. -/
def cropClass (dual water : Bool) (i : PxIn K) (x : PxSt K) : Option (PxSt K) :=
  let snowfree := water || !i.et.snow
  (if dual then dualStandard snowfree i x else some (singleStandard snowfree i x)).bind fun y =>
    if water then some y else (stressed dual snowfree i y).map (rootZone i)

/-- A pixel of a class. -/
def classStep (k : Kind K) (i : PxIn K) (x : PxSt K) : Option (PxSt K) :=
  match k with
  | .sealed m => some (sealedClass m i x)
  | .crop dual water => cropClass dual water i x

section grid
variable {P : Type*}

/-- One round of the loop of lines 257-352 for the class `id`; `none`: a pixel without defined
state. -/
def applyClass (lc : P → Option ℕ) (inp : P → PxIn K) (g : P → Option (PxSt K)) (c : ℕ × Kind K) :
    P → Option (PxSt K) :=
  fun p => if lc p = some c.1 then (g p).bind (classStep c.2 (inp p)) else g p

/-- A time step over the grid; `roi` are the pixels of the region of interest, `lc` their land cover
class, `classes` the classes with parameters in the order of the loop (that of a Python set). -/
def gridStep (roi : P → Bool) (lc : P → Option ℕ) (classes : List (ℕ × Kind K)) (inp : P → PxIn K)
    (g : P → Option (PxSt K)) : P → Option (PxSt K) :=
  classes.foldl (applyClass lc inp) fun p => if roi p then (g p).map resetPx else g p

/-- A run over several time steps. -/
def gridRun (roi : P → Bool) (lc : P → Option ℕ) (classes : List (ℕ × Kind K)) :
    List (P → PxIn K) → (P → Option (PxSt K)) → P → Option (PxSt K)
  | [], g => g
  | i :: is, g => gridRun roi lc classes is (gridStep roi lc classes i g)

end grid

end Verif.EvapoClass
