import Mathlib.Algebra.Order.Field.Basic
import Mathlib.Analysis.SpecialFunctions.Pow.Real

/-!
# Evapotranspiration

Mirrors `openamundsen/modules/evapotranspiration/evapotranspiration.py:162-212, 240-352, 412-598`, one pixel.
The reference evapotranspiration (Penman-Monteith, `evapotranspiration.py:354-410`) is an input.
-/

namespace Verif.Evapo

section
variable {K : Type*} [Field K] [LinearOrder K] [IsStrictOrderedRing K]

/-- Soil and plant parameters of a pixel: total and readily evaporable water, total and readily
available water, `evapotranspiration.py:162-206`. -/
structure Soil (K : Type*) where
  tew : K
  rew : K
  taw : K
  raw : K

/-- State of a non-sealed pixel: depletion of the evaporation layer, its last percolation, depletion
of the root zone. -/
structure St (K : Type*) where
  de : K
  dpe : K
  dr : K

/-- Inputs of a time step. `kcb` is the (basal) crop coefficient, `kmax` the upper limit, `few` the
exposed and wetted soil fraction. -/
structure EtIn (K : Type*) where
  snow : Bool
  etRef : Option K
  rain : Option K
  kcb : K
  kmax : K
  few : K

/-- Outputs of a time step. -/
structure EtOut (K : Type*) where
  evap : K
  transp : K
  et : K
  dp : K

/-- `np.nan_to_num` / replacing NaN by 0. -/
def nn (x : Option K) : K := x.getD 0

/-- Initial state, `evapotranspiration.py:186-191, 208-212`: at field capacity. -/
def init : St K := ⟨0, 0, 0⟩

/-- Evaporation reduction coefficient, `evapotranspiration.py:454-459`. -/
def kr (s : Soil K) (de : K) : K := if s.rew < de then (s.tew - de) / (s.tew - s.rew) else 1

/-- Evaporation coefficient, `evapotranspiration.py:462-465`. -/
def ke (s : Soil K) (de : K) (i : EtIn K) : K :=
  min (kr s de * (i.kmax - i.kcb)) (i.few * i.kmax)

/-- Water balance of the evaporation layer, `evapotranspiration.py:472-496`: new percolation and
depletion. Irrigation, runoff and soil transpiration are zero in the code. `none`: division of a
number by a zero exposed fraction. -/
def surfaceBalance (s : Soil K) (st : St K) (rain evap few : K) : Option (K × K) :=
  if few = 0 then none
  else
    let dpe := max (rain - st.dpe) 0
    let de := max (st.de - rain + evap / few + dpe) 0
    some (dpe, min de s.tew)

/-- `_water_stress_coefficient`, `evapotranspiration.py:498-506`; `none` = NaN. -/
def stress (s : Soil K) (dr : K) : Option K :=
  if s.taw = s.raw then
    if dr = s.taw then none else if dr < s.taw then some 1 else some 0
  else some (min (max ((s.taw - dr) / (s.taw - s.raw)) 0) 1)

/-- `_root_zone_water_balance`, `evapotranspiration.py:508-539`: deep percolation and depletion. -/
def rootBalance (s : Soil K) (dr rain et : K) : K × K :=
  let dp := max (rain - et - dr) 0
  let d := max (dr - rain + et + dp) 0
  (dp, min d s.taw)

/-- One time step of a class with a single crop coefficient, `evapotranspiration.py:329-352`,
`_single_coeff_crop_et` 412-416; snow-covered pixels have no evapotranspiration but take part in
the root zone balance (line 352 passes `pos`). -/
def singleStep (s : Soil K) (st : St K) (i : EtIn K) : Option (St K × EtOut K) :=
  let finish (et : K) : St K × EtOut K :=
    let (dp, dr) := rootBalance s st.dr (nn i.rain) et
    ({ st with dr := dr }, ⟨0, 0, et, dp⟩)
  if i.snow then some (finish 0)
  else (stress s st.dr).map fun ks => finish (i.kcb * nn i.etRef * ks)

/-- One time step of a class with dual crop coefficients, `evapotranspiration.py:333-352`,
`_dual_coeff_crop_et` 418-496. -/
def dualStep (s : Soil K) (st : St K) (i : EtIn K) : Option (St K × EtOut K) :=
  if i.snow then
    let (dp, dr) := rootBalance s st.dr (nn i.rain) 0
    some ({ st with dr := dr }, ⟨0, 0, 0, dp⟩)
  else
    let evap := ke s st.de i * nn i.etRef
    match surfaceBalance s st (nn i.rain) evap i.few, stress s st.dr with
    | some (dpe, de), some ks =>
      let transp := i.kcb * nn i.etRef * ks
      let et := evap + transp
      let (dp, dr) := rootBalance s st.dr (nn i.rain) et
      some (⟨de, dpe, dr⟩, ⟨evap, transp, et, dp⟩)
    | _, _ => none

/-- A run over several time steps with a step function. -/
def runSteps {S I O : Type*} (step : S → I → Option (S × O)) : S → List I → Option (S × List O)
  | s, [] => some (s, [])
  | s, i :: is =>
    match step s i with
    | none => none
    | some (s', o) =>
      match runSteps step s' is with
      | none => none
      | some (s'', os) => some (s'', o :: os)

/-! ## Sealed surfaces -/

/-- Inputs for a sealed pixel: snow cover, rainfall, potential evaporation of the time step in
kg m-2 (`evapotranspiration.py:562-594`, NaN possible). -/
structure SealedIn (K : Type*) where
  snow : Bool
  rain : Option K
  pot : Option K

/-- Outputs for a sealed pixel. -/
structure SealedOut (K : Type*) where
  evap : K
  dp : K

/-- `_sealed_evaporation`, `evapotranspiration.py:541-598`, and lines 265-270 for snow-covered pixels;
`deep_percolation` is set to 0 at the beginning of the time step (line 251). State: interception. -/
def sealedStep (maxInt : K) (int : K) (i : SealedIn K) : K × SealedOut K :=
  if i.snow then (int, ⟨0, 0⟩)
  else
    match i.rain with
    | some r =>
      if 0 < r then
        let int1 := int + r
        let runoff := max (int1 - maxInt) 0
        (int1 - runoff, ⟨0, runoff⟩)
      else
        let e := min (max (nn i.pot) 0) int
        (int - e, ⟨e, 0⟩)
    | none =>
      let e := min (max (nn i.pot) 0) int
      (int - e, ⟨e, 0⟩)

/-- A run of a sealed pixel. -/
def sealedRun (maxInt : K) : K → List (SealedIn K) → K × List (SealedOut K)
  | int, [] => (int, [])
  | int, i :: is =>
    let (int', o) := sealedStep maxInt int i
    let (fin, os) := sealedRun maxInt int' is
    (fin, o :: os)

/-- Upper limit of the crop coefficient, `evapotranspiration.py:433`. -/
def maxCropCoeff (climCorr kcb : K) : K := max (12 / 10 + climCorr) (kcb + 5 / 100)

end

/-- Vegetation fraction for classes that are not sparse, `evapotranspiration.py:441-444`. -/
noncomputable def vegFrac (kcb kmin kmax height : ℝ) : ℝ :=
  (max (kcb - kmin) (1 / 100) / (kmax - kmin)) ^ (1 + 5 / 10 * height)

/-- Exposed and wetted soil fraction, `evapotranspiration.py:446-451`. -/
noncomputable def exposedFrac (veg : ℝ) : ℝ := min (1 - veg) 1

end Verif.Evapo
