import Verif.Basic
import Mathlib.Algebra.Module.Prod

/-!
# Multilayer snow model, per pixel

Mirrors `openamundsen/modules/snow/multilayermodel.py`. The arrays `thickness[:, i, j]`,
`ice_content[:, i, j]`, ... of one pixel are a list of layers (top first, as many entries as
`config.snow.min_thickness`), of which the first `n = num_layers[i, j]` are active.
The kernels loop `for k in range(num_layers[i, j])`; here they recurse over `layers.take n` and
leave `layers.drop n` alone.
-/

namespace Verif.MultiLayer

variable {K : Type*} [Field K] [LinearOrder K]

/-- One slot of the layer arrays: `thickness`, `ice_content`, `liquid_water_content`, `temp`,
`heat_cap` (`multilayermodel.py:12-59`). -/
structure Layer (K : Type*) where
  thick : K
  ice : K
  lwc : K
  temp : K
  heatCap : K

/-- One pixel: `num_layers`, the layer arrays and the albedo (`none` is NaN). -/
structure Pixel (K : Type*) where
  n : ℕ
  layers : List (Layer K)
  albedo : Option K

/-- Replace the active part of the layer arrays. -/
def Pixel.setActive (p : Pixel K) (Ls : List (Layer K)) : Pixel K :=
  { p with layers := Ls ++ p.layers.drop p.n }

/-! ## Melt -/

/-- State carried through the melt loop: remaining demand and actual melt. -/
structure MeltAcc (K : Type*) where
  change : K
  actual : K

/-- Body of the melt loop for one layer, `multilayermodel.py:272-289`. -/
def meltLayer (s : MeltAcc K) (L : Layer K) : MeltAcc K × Layer K :=
  let cc := L.heatCap * (T0 - L.temp)
  let change := if cc < 0 then s.change - cc / LF else s.change
  let temp := if cc < 0 then T0 else L.temp
  if 0 < change then
    if L.ice < change then
      (⟨change - L.ice, s.actual + L.ice⟩,
        { L with thick := 0, lwc := L.lwc + L.ice, ice := 0, temp := temp })
    else
      (⟨0, s.actual + change⟩,
        { L with thick := L.thick * (1 - change / L.ice), ice := L.ice - change,
                 lwc := L.lwc + change, temp := temp })
  else
    (⟨change, s.actual⟩, { L with temp := temp })

/-- The loop `for k in range(num_layers)` of `_melt`, `multilayermodel.py:271-289`. -/
def meltLoop (s : MeltAcc K) : List (Layer K) → MeltAcc K × List (Layer K)
  | [] => (s, [])
  | L :: Ls =>
    let r := meltLayer s L
    let r' := meltLoop r.1 Ls
    (r'.1, r.2 :: r'.2)

/-- `_melt` for one pixel, `multilayermodel.py:264-291`: takes the melt demand, returns the
reported melt and the new pixel. -/
def melt (demand : K) (p : Pixel K) : K × Pixel K :=
  let r := meltLoop ⟨demand, 0⟩ (p.layers.take p.n)
  (r.1.actual, p.setActive r.2)

/-! ## Sublimation -/

/-- Body of the sublimation loop for one layer, `multilayermodel.py:341-348`. The result is
`none` where the code computes `0/0` (the thickness becomes NaN); `x/0` with `x ≠ 0` cannot occur
in the second branch for non-negative remaining change. -/
def sublLayer (change : K) (L : Layer K) : Option (K × Layer K) :=
  if L.ice < change then
    some (change - L.ice, { L with thick := 0, ice := 0 })
  else if L.ice = 0 then none
  else some (0, { L with thick := L.thick * (1 - change / L.ice), ice := L.ice - change })

/-- The layer loop of `_sublimation`, `multilayermodel.py:340-348`. -/
def sublLoop (change : K) : List (Layer K) → Option (K × List (Layer K))
  | [] => some (change, [])
  | L :: Ls => do
    let r ← sublLayer change L
    let r' ← sublLoop r.1 Ls
    pure (r'.1, r.2 :: r'.2)

/-- `_sublimation` for one pixel, `multilayermodel.py:333-348`. -/
def sublKernel (subl : K) (p : Pixel K) : Option (Pixel K) :=
  let change := max subl 0
  if 0 < change then do
    let r ← sublLoop change (p.layers.take p.n)
    pure (p.setActive r.2)
  else pure p

/-! ## Adding snow -/

/-- `add_snow` for one pixel of `pos` with `albedo=None`, `multilayermodel.py:176-210`.
`iceAmount` may be missing (`np.nan_to_num`, line 190). `airTemp` is `s.meteo.temp`, assumed
present where snow is added (a NaN air temperature would make the layer temperature NaN). -/
def addSnow (albMax airTemp density : K) (iceAmount : Option K) (lwcAmount : K) (p : Pixel K) :
    Pixel K :=
  let m := nanToZero iceAmount
  let init := p.n = 0 ∧ 0 < m
  let albedo := if init then some albMax else p.albedo
  let n := if init then 1 else p.n
  match p.layers with
  | [] => { p with n := n, albedo := albedo }
  | L :: Ls =>
    { n := n, albedo := albedo,
      layers := { L with temp := if init then min airTemp T0 else L.temp,
                         ice := L.ice + m, lwc := L.lwc + lwcAmount,
                         thick := L.thick + m / density } :: Ls }

/-- Sum of `ice_content[:, pos]` over all slots (`.sum(axis=0)`). -/
def iceSum (Ls : List (Layer K)) : K := (Ls.map Layer.ice).sum

/-- The amount stored in `s.snow.sublimation` before resublimation and sublimation are applied,
`multilayermodel.py:113-118`. `moistureFlux = none` is NaN. -/
def sublAmount (dt surfTemp : K) (moistureFlux : Option K) (p : Pixel K) : K :=
  let top := match p.layers with
    | [] => 0
    | L :: _ => L.ice
  if 0 < top ∨ surfTemp < T0 then
    min (nanToZero (moistureFlux.map fun f => -1 * f * dt)) (iceSum p.layers)
  else 0

/-- `MultilayerSnowModel.sublimation` for one pixel, `multilayermodel.py:108-137`: returns the
reported sublimation (negative for resublimation) and the new pixel (`none`: NaN thickness). -/
def sublimation (dt surfTemp albMax airTemp density : K) (moistureFlux : Option K) (p : Pixel K) :
    K × Option (Pixel K) :=
  let subl := sublAmount dt surfTemp moistureFlux p
  let frost := -(min subl 0)
  let p1 := if 0 < frost then addSnow albMax airTemp density (some frost) 0 p else p
  (subl, sublKernel subl p1)

/-- `accumulation` for one pixel, `multilayermodel.py:67-75`; `snowfall = none` is NaN
(`NaN > 0` is false). -/
def accumulation (albMax airTemp density : K) (snowfall : Option K) (p : Pixel K) : Pixel K :=
  match snowfall with
  | some f => if 0 < f then addSnow albMax airTemp density (some f) 0 p else p
  | none => p

/-! ## Runoff -/

/-- State carried through the runoff loop. -/
structure RunoffAcc (K : Type*) where
  runoff : K
  refreezing : K

/-- Body of the runoff loop for one layer with its maximum liquid water content,
`multilayermodel.py:421-439`. -/
def runoffLayer (s : RunoffAcc K) (L : Layer K) (maxLwc : K) : RunoffAcc K × Layer K :=
  let l1 := L.lwc + s.runoff
  let runoff := if maxLwc < l1 then l1 - maxLwc else 0
  let l2 := if maxLwc < l1 then maxLwc else l1
  let cc := L.heatCap * (T0 - L.temp)
  if 0 < cc then
    let d := min l2 (cc / LF)
    (⟨runoff, s.refreezing + d⟩,
      { L with lwc := l2 - d, ice := L.ice + d, temp := L.temp + LF * d / L.heatCap })
  else
    (⟨runoff, s.refreezing⟩, { L with lwc := l2 })

/-- The layer loop of `_runoff`, `multilayermodel.py:420-439`. -/
def runoffLoop (s : RunoffAcc K) : List (Layer K × K) → RunoffAcc K × List (Layer K)
  | [] => (s, [])
  | (L, m) :: Ls =>
    let r := runoffLayer s L m
    let r' := runoffLoop r.1 Ls
    (r'.1, r.2 :: r'.2)

/-- `max_liquid_water_content`, `snow.py:396-414`: method `pore_volume_fraction` or
`mass_fraction`. -/
inductive LwcMethod
  | poreVolume
  | massFraction

/-- `max_liquid_water_content` for one layer, `snow.py:399-412`. -/
def maxLwc (m : LwcMethod) (maxFrac thick ice : K) : K :=
  match m with
  | .poreVolume =>
    let porosity := if 0 < thick then 1 - ice / (iceDensity * thick) else 0
    waterDensity * thick * porosity * maxFrac
  | .massFraction => maxFrac * ice

/-- `_runoff` for one pixel, `multilayermodel.py:410-439` with `runoff()` (139-154) supplying the
retention capacity; `rainfall = none` is NaN. Returns runoff, refreezing, new pixel. -/
def runoff (m : LwcMethod) (maxFrac : K) (rainfall : Option K) (p : Pixel K) :
    K × K × Pixel K :=
  let Ls := (p.layers.take p.n).map fun L => (L, maxLwc m maxFrac L.thick L.ice)
  let r := runoffLoop ⟨nanToZero rainfall, 0⟩ Ls
  (r.1.runoff, r.1.refreezing, p.setActive r.2)

/-! ## Bulk properties -/

/-- `snow_properties` (`snow.py:350-366`): depth. -/
def depth (p : Pixel K) : K := (p.layers.map Layer.thick).sum

/-- `snow_properties`: SWE, `snow.py:353`. -/
def swe (p : Pixel K) : K := (p.layers.map fun L => L.ice + L.lwc).sum

/-- `snow_properties`: areal heat capacity, `snow.py:364-366`. -/
def updateHeatCap (p : Pixel K) : Pixel K :=
  { p with layers := p.layers.map fun L => { L with heatCap := L.ice * cIce + L.lwc * cWater } }

/-! ## Relayering -/

/-- The new layer thicknesses, `multilayermodel.py:594-601`: the loop over `min_thickness`,
started with `new = depth`; slots after the `break` keep thickness 0. -/
def newThickness (new : K) : List K → List K
  | [] => []
  | m :: ms =>
    let new' := new - m
    if new' ≤ m ∨ ms = [] then (m + new') :: ms.map fun _ => 0
    else m :: newThickness new' ms

/-- Thin layers are set to zero, `multilayermodel.py:605-607`. -/
def dropThin (ths : List K) : List K := ths.map fun t => if t < 1 / 1000000 then 0 else t

/-- An old layer during redistribution: remaining thickness and remaining contents
`(ice, lwc, energy)`; any `K`-module serves as contents. -/
structure OldLayer (K M : Type*) where
  thick : K
  cont : M

/-- State of the redistribution: `k_new`, `new_thickness` and the contents of the new layers. -/
structure RelayerAcc (K M : Type*) where
  kNew : ℕ
  newTh : K
  cont : ℕ → M

/-- `weight = min(new_thickness / thickness_prev, 1.0)`, `multilayermodel.py:616`, with IEEE
division: `x/0 = inf` for `x > 0`, hence weight 1; `0/0` is NaN (`none`). -/
def weight (new old : K) : Option K :=
  if old = 0 then (if 0 < new then some 1 else none) else some (min (new / old) 1)

/-- The `while True` loop for one old layer, `multilayermodel.py:615-639`. `none` is a NaN weight
or a write behind the end of the arrays (`k_new >= maxLayers`). -/
def relayerOld {M : Type*} [AddCommGroup M] [Module K M] (maxLayers ns : ℕ) (ths : ℕ → K)
    (o : OldLayer K M) (a : RelayerAcc K M) : Option (RelayerAcc K M) :=
  if maxLayers ≤ a.kNew then none
  else
    match weight a.newTh o.thick with
    | none => none
    | some w =>
      let cont := Function.update a.cont a.kNew (a.cont a.kNew + w • o.cont)
      if w = 1 then
        some { a with newTh := a.newTh - o.thick, cont := cont }
      else if ns ≤ a.kNew + 1 then
        some { a with kNew := a.kNew + 1, cont := cont }
      else
        relayerOld maxLayers ns ths ⟨o.thick * (1 - w), (1 - w) • o.cont⟩
          ⟨a.kNew + 1, if w < 1 then ths (a.kNew + 1) else a.newTh, cont⟩
termination_by ns - a.kNew

/-- The loop over the old layers, `multilayermodel.py:614-639`. -/
def relayerLoop {M : Type*} [AddCommGroup M] [Module K M] (maxLayers ns : ℕ) (ths : ℕ → K) :
    List (OldLayer K M) → RelayerAcc K M → Option (RelayerAcc K M)
  | [], a => some a
  | o :: os, a => do
    let a' ← relayerOld maxLayers ns ths o a
    relayerLoop maxLayers ns ths os a'

/-- Old layer with contents `(ice, lwc, energy)`, `multilayermodel.py:574-577`. -/
def toOld (L : Layer K) : OldLayer K (K × K × K) :=
  ⟨L.thick, (L.ice, L.lwc, L.heatCap * (L.temp - T0))⟩

/-- Slot `k` after relayering, `multilayermodel.py:643-648` for `k < ns`; for the other slots the
contents collected so far (zero unless the loop overran), temperature `T0` and the stale heat
capacity. The density (650-653) is a function of the other fields and not stored. -/
def newLayer (ns : ℕ) (ths : ℕ → K) (cont : ℕ → K × K × K) (oldHeatCap : K) (k : ℕ) : Layer K :=
  let ice := (cont k).1
  let lwc := (cont k).2.1
  if k < ns then
    let hc := ice * cIce + lwc * cWater
    { thick := ths k, ice := ice, lwc := lwc, heatCap := hc, temp := T0 + (cont k).2.2 / hc }
  else
    { thick := ths k, ice := ice, lwc := lwc, heatCap := oldHeatCap, temp := T0 }

/-- `_update_layers` for one pixel, `multilayermodel.py:572-653`, and the albedo reset of line 171.
`none`: NaN contents (including the `0/0` of line 648 for a massless layer) or out-of-bounds write.
The number of slots is `min_thickness.length`. -/
def updateLayers (minTh : List K) (p : Pixel K) : Option (Pixel K) :=
  let d := depth p
  let hcOld := fun k => ((p.layers[k]?).map Layer.heatCap).getD 0
  if 0 < d then
    let thl := dropThin (newThickness d minTh)
    let ths := fun k => thl.getD k 0
    let ns := thl.countP fun t => decide (0 < t)
    match relayerLoop minTh.length ns ths ((p.layers.take p.n).map toOld)
        ⟨0, ths 0, fun _ => 0⟩ with
    | none => none
    | some a =>
      if ∀ k < ns, (a.cont k).1 * cIce + (a.cont k).2.1 * cWater ≠ 0 then
        some { n := ns, albedo := if ns = 0 then none else p.albedo,
               layers := (List.range minTh.length).map fun k =>
                 newLayer ns ths a.cont (hcOld k) k }
      else none
  else
    some { n := 0, albedo := none,
           layers := (List.range minTh.length).map fun k =>
             newLayer 0 (fun _ => 0) (fun _ => 0) (hcOld k) k }

end Verif.MultiLayer
