import Verif.Model.MultiLayer

/-!
# Cryolayer snow model, per pixel

Mirrors `openamundsen/modules/snow/cryolayermodel.py` and the melt and refreezing part of
`cryo_layer_energy_balance` in `openamundsen/surface.py`. A pixel has exactly four layers
(`num_cryo_layers = 4`, `cryolayermodel.py:26`), so the loops over layers are unrolled.
-/

namespace Verif.Cryo

open Verif.MultiLayer (LwcMethod maxLwc)

variable {K : Type*} [Field K] [LinearOrder K]

/-- One layer: `thickness`, `ice_content`, `liquid_water_content`, `cold_content`, `density`,
`layer_albedo` (`cryolayermodel.py:28-67`); `none` is NaN. -/
structure CLayer (K : Type*) where
  thick : K
  ice : K
  lwc : K
  cc : K
  dens : Option K
  alb : Option K

/-- `ice_content + liquid_water_content`. -/
def CLayer.we (L : CLayer K) : K := L.ice + L.lwc

/-- A pixel: the layers NEW_SNOW, OLD_SNOW, FIRN, ICE (`cryolayermodel.py:15-20`) and
`snow.albedo`. -/
structure CPixel (K : Type*) where
  new : CLayer K
  old : CLayer K
  firn : CLayer K
  ice : CLayer K
  albedo : Option K

/-- `swe`, `snow.py:353`. -/
def CPixel.swe (p : CPixel K) : K := p.new.we + p.old.we + p.firn.we + p.ice.we

/-- `ice_content.sum(axis=0)`. -/
def CPixel.iceSum (p : CPixel K) : K := p.new.ice + p.old.ice + p.firn.ice + p.ice.ice

/-- `thickness.sum(axis=0)`. -/
def CPixel.depth (p : CPixel K) : K := p.new.thick + p.old.thick + p.firn.thick + p.ice.thick

/-! ## Melt and sublimation -/

/-- Body of the melt loop (`cryolayermodel.py:228-238`): remaining demand and layer. -/
def meltLayer (d : K) (L : CLayer K) : K × CLayer K :=
  if 0 < d ∧ 0 < L.ice then
    let x := min d L.ice
    (d - x, { L with thick := L.thick * (1 - x / L.ice), ice := L.ice - x, lwc := L.lwc + x })
  else (d, L)

/-- `melt`, `cryolayermodel.py:222-238`. -/
def melt (d : K) (p : CPixel K) : CPixel K :=
  let a := meltLayer d p.new
  let b := meltLayer a.1 p.old
  let c := meltLayer b.1 p.firn
  let e := meltLayer c.1 p.ice
  { p with new := a.2, old := b.2, firn := c.2, ice := e.2 }

/-- Body of the sublimation loop (`cryolayermodel.py:260-269`). -/
def sublLayer (d : K) (L : CLayer K) : K × CLayer K :=
  if 0 < d ∧ 0 < L.ice then
    let x := min d L.ice
    (d - x, { L with thick := L.thick * (1 - x / L.ice), ice := L.ice - x })
  else (d, L)

/-- The loop `cryolayermodel.py:260-269`: remaining change and pixel. -/
def sublLoop (d : K) (p : CPixel K) : K × CPixel K :=
  let a := sublLayer d p.new
  let b := sublLayer a.1 p.old
  let c := sublLayer b.1 p.firn
  let e := sublLayer c.1 p.ice
  (e.1, { p with new := a.2, old := b.2, firn := c.2, ice := e.2 })

/-- `add_snow` with `albedo=None` for one pixel of `pos`, `cryolayermodel.py:420-464`. A zero total
thickness would give a NaN density. -/
def addSnow (single : Bool) (albMax density amount : K) (p : CPixel K) : CPixel K :=
  let init := p.new.ice = 0 ∧ 0 < amount
  let alb :=
    if init then (if single ∧ 0 < p.old.thick then p.old.alb else some albMax) else p.new.alb
  let thick := p.new.thick + amount / density
  let ice := p.new.ice + amount
  { p with
    new := { p.new with ice := ice, thick := thick, alb := alb,
                        dens := if thick = 0 then none else some ((ice + p.new.lwc) / thick) }
    albedo := if init then alb else p.albedo }

/-- `sublimation`, `cryolayermodel.py:240-277`: reported amount and new pixel. -/
def sublimation (dt density albMax : K) (single : Bool) (moistureFlux : Option K) (p : CPixel K) :
    K × CPixel K :=
  let pot := nanToZero (moistureFlux.map fun f => -1 * f * dt)
  let subl := if 0 < p.iceSum then min pot p.iceSum else 0
  let r := sublLoop subl p
  (subl, if r.1 < 0 then addSnow single albMax density (-r.1) r.2 else r.2)

/-- `accumulation`, `cryolayermodel.py:176-184`. -/
def accumulation (single : Bool) (albMax density : K) (snowfall : Option K) (p : CPixel K) :
    CPixel K :=
  match snowfall with
  | some f => if 0 < f then addSnow single albMax density f p else p
  | none => p

/-! ## Runoff -/

/-- Body of the runoff loop (`cryolayermodel.py:289-295`): water arriving from above, layer. -/
def runoffLayer (r cap : K) (L : CLayer K) : K × CLayer K :=
  if 0 < L.ice + L.lwc then
    let l := L.lwc + r
    let out := max (l - cap) 0
    (out, { L with lwc := l - out })
  else (r, L)

/-- `runoff`, `cryolayermodel.py:279-297`; firn and ice have no capacity (line 284). -/
def runoff (m : LwcMethod) (maxFrac : K) (rainfall : Option K) (p : CPixel K) : K × CPixel K :=
  let a := runoffLayer (nanToZero rainfall) (maxLwc m maxFrac p.new.thick p.new.ice) p.new
  let b := runoffLayer a.1 (maxLwc m maxFrac p.old.thick p.old.ice) p.old
  let c := runoffLayer b.1 0 p.firn
  let e := runoffLayer c.1 0 p.ice
  (e.1, { p with new := a.2, old := b.2, firn := c.2, ice := e.2 })

/-! ## Layer updates -/

/-- `reset_layer`, `cryolayermodel.py:355-366`. -/
def emptyLayer : CLayer K := { thick := 0, ice := 0, lwc := 0, cc := 0, dens := none, alb := none }

/-- Weighted mean of two possibly missing values, `cryolayermodel.py:398-403`. -/
def wmean (w1 w2 : K) (x y : Option K) : Option K :=
  match x, y with
  | some a, some b => some (w1 * a + w2 * b)
  | _, _ => none

/-- The merged destination layer, `cryolayermodel.py:386-406`; `none` for a NaN thickness. -/
def mergeLayer (src dst : CLayer K) : Option (CLayer K) :=
  let s := src.we + dst.we
  if s = 0 then none
  else
    let w1 := src.we / s
    let w2 := dst.we / s
    match wmean w1 w2 src.dens dst.dens with
    | none => none
    | some d =>
      if d = 0 then none
      else some { ice := dst.ice + src.ice, lwc := dst.lwc + src.lwc, cc := dst.cc + src.cc,
                  dens := some d, alb := wmean w1 w2 src.alb dst.alb,
                  thick := (dst.ice + src.ice + (dst.lwc + src.lwc)) / d }

/-- `layer_transition` for one pixel, `cryolayermodel.py:368-408`: new source and destination. -/
def transition (pos : Bool) (src dst : CLayer K) : Option (CLayer K × CLayer K) :=
  if pos then
    if 0 < src.thick then
      if 0 < dst.thick then
        match mergeLayer src dst with
        | none => none
        | some d => some (emptyLayer, d)
      else if dst.thick = 0 then
        some (emptyLayer, src)
      else some (emptyLayer, dst)
    else some (emptyLayer, dst)
  else some (src, dst)

/-- Reset of empty layers and thickness update, `cryolayermodel.py:304-312`; `none` for NaN. -/
def refresh (L : CLayer K) : Option (CLayer K) :=
  if L.we ≤ 0 then some emptyLayer
  else
    match L.dens with
    | none => none
    | some d => if d = 0 then none else some { L with thick := L.we / d }

/-- Comparison `density >= threshold` (NaN compares false). -/
def densAtLeast (L : CLayer K) (x : K) : Bool :=
  match L.dens with
  | none => false
  | some d => decide (x ≤ d)

/-- `update_layers`, `cryolayermodel.py:299-334` (depth and number of layers are derived). -/
def updateLayers (oldDensity iceDens : K) (firnDate : Bool) (p : CPixel K) : Option (CPixel K) := do
  let n0 ← refresh p.new
  let o0 ← refresh p.old
  let f0 ← refresh p.firn
  let i0 ← refresh p.ice
  let (n1, o1) ← transition (densAtLeast n0 oldDensity) n0 o0
  let (o2, f1) ← transition firnDate o1 f0
  let (f2, i1) ← transition (densAtLeast f1 iceDens) f1 i0
  pure { p with new := n1, old := o2, firn := f2, ice := i1 }

/-- Density update of one layer, `cryolayermodel.py:348-353`. -/
def updDens (L : CLayer K) : CLayer K :=
  if 0 < L.thick then { L with dens := some ((L.ice + L.lwc) / L.thick) } else L

/-- `update_properties`, `cryolayermodel.py:340-353`: densities, and the albedo of the uppermost
layer. -/
def updateProperties (p : CPixel K) : CPixel K :=
  { new := updDens p.new, old := updDens p.old, firn := updDens p.firn, ice := updDens p.ice,
    albedo := if 0 < p.new.thick then p.new.alb else if 0 < p.old.thick then p.old.alb
      else if 0 < p.firn.thick then p.firn.alb else if 0 < p.ice.thick then p.ice.alb else none }

/-! ## Albedo ageing -/

/-- `albedo_aging`, `cryolayermodel.py:95-124`, with the uppermost layer of
`update_surface_layer_type`, `410-418`; `aged` is `snow.albedo` for this pixel and step. -/
def albedoAging (single : Bool) (firnAlb iceAlb : K) (aged : Option K → Option K) (p : CPixel K) :
    CPixel K :=
  let posOld := 0 < p.old.thick
  let posNew := 0 < p.new.thick
  let a := if posNew then p.new.alb else if posOld then p.old.alb else p.albedo
  let a' := if posOld ∨ posNew then aged a else a
  let setOld := if single then posOld else posOld ∧ ¬posNew
  { new := if posNew then { p.new with alb := a' } else p.new
    old := if setOld then { p.old with alb := a' } else p.old
    firn := if 0 < p.firn.thick ∧ ¬posNew ∧ ¬posOld then { p.firn with alb := some firnAlb }
      else p.firn
    ice := if 0 < p.ice.thick ∧ ¬posNew ∧ ¬posOld ∧ ¬0 < p.firn.thick then
      { p.ice with alb := some iceAlb } else p.ice
    albedo := a' }

/-! ## Compaction of firn and ice -/

/-- Firn densification, `cryolayermodel.py:151-172`; `none` for NaN thickness. -/
def compactFirn (iceDens dt : K) (L : CLayer K) : Option (CLayer K) :=
  if 0 < L.thick then
    match L.dens with
    | none => none
    | some d =>
      let d' := d + (iceDens - 500) / (24 * (36525 / 100) * 10) * (dt / 3600)
      if d' = 0 then none else some { L with dens := some d', thick := L.we / d' }
  else some L

/-- Ice, `cryolayermodel.py:163-174`. -/
def compactIce (iceDens : K) (L : CLayer K) : Option (CLayer K) :=
  if 0 < L.thick then
    if iceDens = 0 then none else some { L with dens := some iceDens, thick := L.we / iceDens }
  else some L

/-! ## Melt -/

/-- State of the melt loop of `cryo_layer_energy_balance`: available melt time, melt. -/
structure EbAcc (K : Type*) where
  time : K
  melt : K

/-- Body of the melt loop, `surface.py:251-302`, for a pixel with air temperature at or above
freezing; `eb = none` is a NaN energy balance. -/
def ebLayer (eb : Option K) (s : EbAcc K) (L : CLayer K) : EbAcc K × CLayer K :=
  match eb with
  | none => (s, L)
  | some eb =>
    if 0 < L.thick ∧ 0 < s.time ∧ 0 < eb then
      let tm := LF * (L.ice + L.cc) / eb
      if tm < s.time then
        (⟨s.time - tm, s.melt + L.ice⟩, { L with cc := 0 })
      else
        let cc1 := L.cc - eb * s.time / LF
        (⟨s.time - tm, s.melt + -1 * min cc1 0⟩, { L with cc := max cc1 0 })
    else (s, L)

/-- The melt loop of `cryo_layer_energy_balance`, `surface.py:251-302`: melt and pixel. -/
def ebMelt (eb : Option K) (dt : K) (p : CPixel K) : K × CPixel K :=
  let a := ebLayer eb ⟨dt, 0⟩ p.new
  let b := ebLayer eb a.1 p.old
  let c := ebLayer eb b.1 p.firn
  let e := ebLayer eb c.1 p.ice
  (e.1.melt, { p with new := a.2, old := b.2, firn := c.2, ice := e.2 })

/-- Body of the refreezing loop, `surface.py:312-338`: available cold, refrozen amount, layer. -/
def refreezeLayer (capacity avail : K) (L : CLayer K) : K × K × CLayer K :=
  if 0 < L.thick ∧ 0 < avail then
    let r := min L.lwc avail
    let ice := L.ice + r
    let lwc := L.lwc - r
    let b := min (avail - r) (capacity * (ice + lwc) - L.cc)
    (avail - r - b, r, { L with ice := ice, lwc := lwc, cc := L.cc + b })
  else (avail, 0, L)

/-- Available cold, `surface.py:305-309`. -/
def availableCold (eb : Option K) (dt factor : K) : K :=
  match eb with
  | none => 0
  | some eb => max (-1 * eb * dt / LF * factor) 0

/-- The refreezing loop, `surface.py:304-338`: refreezing and pixel. NaN available cold compares
false. -/
def refreeze (eb : Option K) (dt factor capacity : K) (p : CPixel K) : K × CPixel K :=
  let a := refreezeLayer capacity (availableCold eb dt factor) p.new
  let b := refreezeLayer capacity a.1 p.old
  (a.2.1 + b.2.1, { p with new := a.2.2, old := b.2.2 })

/-- Melt methods of `temperature_index`, `cryolayermodel.py:201-213`. -/
inductive TiMethod
  | temperatureIndex
  | enhanced

/-- `temperature_index`, `cryolayermodel.py:189-220`, for one pixel. -/
def tiMelt (m : TiMethod) (dt ddf albFactor threshold temp albedo swIn : K) (p : CPixel K) : K :=
  let dtd := dt / (3600 * 24)
  let dd := (temp - threshold) * dtd
  let melt := match m with
    | .temperatureIndex => ddf * max dd 0
    | .enhanced => if dd ≤ 0 then 0 else ddf * dd + albFactor * (1 - albedo) * swIn * dtd
  if 0 < p.depth then min (max melt 0) p.iceSum else 0

/-! ## One time step -/

/-- How melt is obtained in a step. -/
inductive MeltIn (K : Type*)
  /-- energy balance: air temperature, energy balance remainder -/
  | energy (airTemp : K) (eb : Option K)
  /-- temperature index: method, air temperature, surface albedo, shortwave radiation -/
  | index (m : TiMethod) (airTemp albedo swIn : K)

/-- Configuration of a run. -/
structure Cfg (K : Type*) where
  dt : K
  albMax : K
  firnAlb : K
  iceAlb : K
  single : Bool
  lwcMethod : LwcMethod
  maxFrac : K
  oldDensity : K
  iceDens : K
  coldCapacity : K
  refreezeFactor : K
  ddf : K
  albFactor : K
  threshold : K

/-- Inputs of a step. -/
structure StepIn (K : Type*) where
  snowfall : Option K
  rainfall : Option K
  freshDensity : K
  /-- new density of the new and old snow layers after Anderson compaction -/
  compNew : CLayer K → K
  compOld : CLayer K → K
  aged : Option K → Option K
  melt : MeltIn K
  moistureFlux : Option K
  firnDate : Bool

/-- Reported fluxes. -/
structure Fluxes (K : Type*) where
  melt : K
  refreezing : K
  sublimation : K
  runoff : K

/-- Anderson compaction of a snow layer with the resulting density given
(`cryolayermodel.py:136-147`, `snow.py:206-244`). -/
def compactSnow (f : CLayer K → K) (L : CLayer K) : CLayer K :=
  if 0 < L.thick then { L with dens := some (f L), thick := L.we / f L } else L

/-- `compaction`, `cryolayermodel.py:126-174`. -/
def compaction (c : Cfg K) (e : StepIn K) (p : CPixel K) : Option (CPixel K) := do
  let f ← compactFirn c.iceDens c.dt p.firn
  let i ← compactIce c.iceDens p.ice
  pure { p with new := compactSnow e.compNew p.new, old := compactSnow e.compOld p.old,
                firn := f, ice := i }

/-- Melt, refreezing and pixel after `energy_balance` or `temperature_index`, `model.py:360-366`,
`surface.py:232-251`. -/
def meltAmount (c : Cfg K) (m : MeltIn K) (p : CPixel K) : K × K × CPixel K :=
  match m with
  | .energy airTemp eb =>
    if 0 < p.swe then
      if T0 ≤ airTemp then
        let r := ebMelt eb c.dt p
        (r.1, 0, r.2)
      else
        let r := refreeze eb c.dt c.refreezeFactor c.coldCapacity p
        (0, r.1, r.2)
    else (0, 0, p)
  | .index m airTemp albedo swIn =>
    (tiMelt m c.dt c.ddf c.albFactor c.threshold airTemp albedo swIn p, 0, p)

/-- One time step, `model.py:351-377`. -/
def step (c : Cfg K) (e : StepIn K) (p : CPixel K) : Option (Fluxes K × CPixel K) := do
  let p0 ← compaction c e p
  let p1 := accumulation c.single c.albMax e.freshDensity e.snowfall p0
  let p2 := updateProperties (albedoAging c.single c.firnAlb c.iceAlb e.aged p1)
  let m := meltAmount c e.melt p2
  let p3 := melt m.1 m.2.2
  let s := sublimation c.dt e.freshDensity c.albMax c.single e.moistureFlux p3
  let r := runoff c.lwcMethod c.maxFrac e.rainfall s.2
  let q ← updateLayers c.oldDensity c.iceDens e.firnDate (updateProperties r.2)
  pure (⟨m.1, m.2.1, s.1, r.1⟩, q)

/-- A run. -/
def run (c : Cfg K) : List (StepIn K) → CPixel K → Option (List (Fluxes K) × CPixel K)
  | [], p => some ([], p)
  | e :: es, p =>
    match step c e p with
    | none => none
    | some (f, p') =>
      match run c es p' with
      | none => none
      | some (fs, q) => some (f :: fs, q)

/-! ## Firn transition date -/

/-- The condition of `cryolayermodel.py:322-327`: months of the run's dates, index of the current
date, configured month. -/
def firnDate (firnMonth : ℕ) (months : ℕ → ℕ) (idx : ℕ) : Bool :=
  decide (months idx = firnMonth ∧ 0 < idx ∧ months (idx - 1) ≠ firnMonth)

end Verif.Cryo
