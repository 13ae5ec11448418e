import Verif.Model.MultiLayer
import Verif.Model.HeatConduction
import Verif.Model.Snow
import Verif.Model.Soil
import Verif.Model.Idw

/-!
# Parallel loops at the level of single memory accesses

The iterations of a `prange` loop run in threads that share the arrays. `Model/Grid` takes for granted that an iteration
works on the memory of its own pixel; here the bodies of the loops are programs that read and write single cells of the
shared arrays, and the threads may be interleaved between any two accesses.

Local variables and arrays created in the body belong to an iteration and are values here. `num_layers` and arrays with
missing values that a loop only reads (`rainfall`, `air_temp`) are parameters, and so is `roi_idxs`.
-/

namespace Verif.Parallel

open Verif.MultiLayer

/-- The rest of an iteration: what it does next with the shared memory, depending on the values read. -/
inductive Prog (A V : Type*)
  | done
  | read (a : A) (next : V → Prog A V)
  | write (a : A) (v : V) (next : Prog A V)

/-- Memory and the rest of every iteration. -/
structure St (I A V : Type*) where
  mem : A → V
  prog : I → Prog A V

variable {I A V : Type*} [DecidableEq I] [DecidableEq A]

/-- Iteration `i` performs its next access. -/
def tick (s : St I A V) (i : I) : St I A V :=
  match s.prog i with
  | .done => s
  | .read a next => ⟨s.mem, Function.update s.prog i (next (s.mem a))⟩
  | .write a v next => ⟨Function.update s.mem a v, Function.update s.prog i next⟩

/-- Execution under a schedule: which iteration performs the next access. -/
def exec (sched : List I) (s : St I A V) : St I A V := sched.foldl tick s

/-- The iteration running on its own. -/
def solo : Prog A V → (A → V) → A → V
  | .done, m => m
  | .read a next, m => solo (next (m a)) m
  | .write a v next, m => solo next (Function.update m a v)

/-- The shared arrays. -/
inductive Arr
  | melt | subl | refreezing | runoff | maxLwc
  | numLayers | thick | ice | lwc | temp | heatCap | density | depth
  | snowCond | soilThick | soilCond | soilTemp | flux | soilFlux
  | soilMoist | soilCap | fracUnfrozen | fracFrozen
  | thickPrev | icePrev | lwcPrev | energyPrev
  | xPoint | yPoint | zPoint | xTarget | yTarget | data
  deriving DecidableEq

/-- A cell: array, layer (0 for arrays without layers), pixel. -/
abbrev Cell (ι : Type*) := Arr × ℕ × ι

/-- Iteration `idx_num` of `for idx_num in prange(len(roi_idxs))` with `i, j = roi_idxs[idx_num]`. -/
def loop {ι : Type*} (roi : List ι) (body : ι → Prog A V) (idx : ℕ) : Prog A V :=
  match roi[idx]? with
  | none => .done
  | some p => body p

/-- Read a slice, element by element. -/
def readAll : List A → (List V → Prog A V) → Prog A V
  | [], next => next []
  | a :: as, next => .read a fun v => readAll as fun vs => next (v :: vs)

section Multilayer

variable {ι K : Type*} [DecidableEq ι] [Field K] [LinearOrder K]

/-- Body of the layer loop of `_melt`, `multilayermodel.py:272-289`, access by access. -/
def meltLayerProg (p : ι) (k : ℕ) (change actual : K) (next : K → K → Prog (Cell ι) K) : Prog (Cell ι) K :=
  .read (.heatCap, k, p) fun hc => .read (.temp, k, p) fun t =>
    let cc := hc * (T0 - t)
    let rest := fun change : K =>
      if 0 < change then
        .read (.ice, k, p) fun i0 =>
          if i0 < change then
            .read (.ice, k, p) fun i1 =>
            .write (.thick, k, p) 0 <|
            .read (.lwc, k, p) fun l => .read (.ice, k, p) fun i2 =>
            .write (.lwc, k, p) (l + i2) <|
            .read (.ice, k, p) fun i3 =>
            .write (.ice, k, p) 0 <|
            next (change - i1) (actual + i3)
          else
            .read (.thick, k, p) fun th => .read (.ice, k, p) fun i1 =>
            .write (.thick, k, p) (th * (1 - change / i1)) <|
            .read (.ice, k, p) fun i2 =>
            .write (.ice, k, p) (i2 - change) <|
            .read (.lwc, k, p) fun l =>
            .write (.lwc, k, p) (l + change) <|
            next 0 (actual + change)
      else next change actual
    if cc < 0 then .write (.temp, k, p) T0 (rest (change - cc / LF)) else rest change

/-- Layers `k`, ..., `k + m - 1` and the end of the body of `_melt`, `multilayermodel.py:271-291`. -/
def meltProg (p : ι) : ℕ → ℕ → K → K → Prog (Cell ι) K
  | 0, _, _, actual => .write (.melt, 0, p) actual .done
  | m + 1, k, change, actual => meltLayerProg p k change actual (meltProg p m (k + 1))

/-- Body of the loop of `_melt`, `multilayermodel.py:266-291`. -/
def meltBody (n : ι → ℕ) (p : ι) : Prog (Cell ι) K :=
  .read (.melt, 0, p) fun change => meltProg p (n p) 0 change 0

/-- Body of the layer loop of `_sublimation`, `multilayermodel.py:341-348`. -/
def sublLayerProg (p : ι) (k : ℕ) (change : K) (next : K → Prog (Cell ι) K) : Prog (Cell ι) K :=
  .read (.ice, k, p) fun i0 =>
    if i0 < change then
      .read (.ice, k, p) fun i1 =>
      .write (.thick, k, p) 0 <|
      .write (.ice, k, p) 0 <|
      next (change - i1)
    else
      .read (.thick, k, p) fun th => .read (.ice, k, p) fun i1 =>
      .write (.thick, k, p) (th * (1 - change / i1)) <|
      .read (.ice, k, p) fun i2 =>
      .write (.ice, k, p) (i2 - change) <|
      next 0

/-- Layers `k`, ..., `k + m - 1` of `_sublimation`, `multilayermodel.py:340-348`. -/
def sublProg (p : ι) : ℕ → ℕ → K → Prog (Cell ι) K
  | 0, _, _ => .done
  | m + 1, k, change => sublLayerProg p k change (sublProg p m (k + 1))

/-- Body of the loop of `_sublimation`, `multilayermodel.py:335-348`. -/
def sublBody (n : ι → ℕ) (p : ι) : Prog (Cell ι) K :=
  .read (.subl, 0, p) fun s => if 0 < max s 0 then sublProg p (n p) 0 (max s 0) else .done

/-- Body of the layer loop of `_runoff`, `multilayermodel.py:421-439`. -/
def runoffLayerProg (p : ι) (k : ℕ) (next : Prog (Cell ι) K) : Prog (Cell ι) K :=
  .read (.lwc, k, p) fun l0 => .read (.runoff, 0, p) fun r0 =>
  .write (.lwc, k, p) (l0 + r0) <|
  .read (.lwc, k, p) fun l1 => .read (.maxLwc, k, p) fun m1 =>
    let rest :=
      .read (.heatCap, k, p) fun hc => .read (.temp, k, p) fun t =>
        let cc := hc * (T0 - t)
        if 0 < cc then
          .read (.lwc, k, p) fun l2 =>
            let d := min l2 (cc / LF)
            .read (.lwc, k, p) fun l3 =>
            .write (.lwc, k, p) (l3 - d) <|
            .read (.ice, k, p) fun i =>
            .write (.ice, k, p) (i + d) <|
            .read (.refreezing, 0, p) fun f =>
            .write (.refreezing, 0, p) (f + d) <|
            .read (.temp, k, p) fun t1 => .read (.heatCap, k, p) fun hc1 =>
            .write (.temp, k, p) (t1 + LF * d / hc1) next
        else next
    if m1 < l1 then
      .read (.lwc, k, p) fun l2 => .read (.maxLwc, k, p) fun m2 =>
      .write (.runoff, 0, p) (l2 - m2) <|
      .read (.maxLwc, k, p) fun m3 =>
      .write (.lwc, k, p) m3 rest
    else .write (.runoff, 0, p) 0 rest

/-- Layers `k`, ..., `k + m - 1` of `_runoff`, `multilayermodel.py:420-439`. -/
def runoffProg (p : ι) : ℕ → ℕ → Prog (Cell ι) K
  | 0, _ => .done
  | m + 1, k => runoffLayerProg p k (runoffProg p m (k + 1))

/-- Body of the loop of `_runoff`, `multilayermodel.py:412-439`. The two assignments to `runoff[i, j]` in lines 416-418
(rainfall, then zero if it is missing) are one here. -/
def runoffBody (n : ι → ℕ) (rain : ι → Option K) (p : ι) : Prog (Cell ι) K :=
  .write (.refreezing, 0, p) 0 <|
  .write (.runoff, 0, p) (nanToZero (rain p)) <|
  runoffProg p (n p) 0

/-- `temp[:ns, i, j] += x`, `multilayermodel.py:504`. -/
def addTemp (p : ι) : ℕ → List K → Prog (Cell ι) K
  | _, [] => .done
  | k, x :: xs => .read (.temp, k, p) fun t => .write (.temp, k, p) (t + x) (addTemp p (k + 1) xs)

/-- Cells of the layers below `n` of an array. -/
def slice (a : Arr) (n : ℕ) (p : ι) : List (Cell ι) := (List.range n).map fun k => (a, k, p)

/-- Body of the loop of `_heat_conduction`, `multilayermodel.py:499-514`; `slots` is the number of layers of the arrays,
so that `temp[-1]` is `temp[slots - 1]`. Without a solution of the linear system (`temp_change` divides by zero) nothing is
written here. -/
def heatBody (slots : ℕ) (dt : K) (n : ι → ℕ) (p : ι) : Prog (Cell ι) K :=
  if 0 < n p then
    readAll (slice .thick (n p) p) fun dx => readAll (slice .temp (n p) p) fun T =>
    readAll (slice .snowCond (n p) p) fun lam =>
    .read (.temp, slots - 1, p) fun Tb => .read (.soilThick, 0, p) fun dxb =>
    .read (.soilCond, 0, p) fun lamb => .read (.flux, 0, p) fun g =>
    readAll (slice .heatCap (n p) p) fun hc =>
      match Heat.tempChange ⟨n p, (dx.getD · 0), (T.getD · 0), (lam.getD · 0), (hc.getD · 0), dt, Tb, dxb, lamb, g⟩ with
      | none => .done
      | some x => addTemp p 0 x
  else .done

/-- Body of the loop of `_soil_heat_flux`, `soil.py:326-339`. -/
def soilFluxBody (n : ι → ℕ) (p : ι) : Prog (Cell ι) K :=
  if n p = 0 then .read (.flux, 0, p) fun g => .write (.soilFlux, 0, p) g .done
  else
    .read (.thick, n p - 1, p) fun th => .read (.snowCond, n p - 1, p) fun lam =>
    .read (.soilThick, 0, p) fun sth => .read (.soilCond, 0, p) fun slam =>
    .read (.temp, n p - 1, p) fun t => .read (.soilTemp, 0, p) fun st =>
    .write (.soilFlux, 0, p) (2 / (th / lam + sth / slam) * (t - st)) .done

/-! ### Relayering

`num_layers_prev`, ..., `energy_prev` are full copies made before the loop (`multilayermodel.py:573-577`), shared by all
iterations, and every iteration changes its part of them; `internal_energy` is created in the iteration. `num_layers_prev`
is a parameter like `num_layers` elsewhere and so is `min_thickness`, which is only read. -/

/-- Elementwise assignment to layers `k`, ..., `k + r - 1` of an array from the same layers of other arrays. -/
def mapCol (arr : Arr) (srcs : List Arr) (f : ℕ → List K → K) (p : ι) : ℕ → ℕ → Prog (Cell ι) K → Prog (Cell ι) K
  | 0, _, next => next
  | r + 1, k, next =>
    readAll (srcs.map fun a => (a, k, p)) fun vs => .write (arr, k, p) (f k vs) (mapCol arr srcs f p r (k + 1) next)

/-- The loop over the minimum thicknesses, `multilayermodel.py:594-601`. -/
def thickProg (p : ι) : List K → ℕ → K → Prog (Cell ι) K → Prog (Cell ι) K
  | [], _, _, next => next
  | t :: ts, k, new, next =>
    .write (.thick, k, p) t <|
      if new - t ≤ t ∨ ts = [] then
        .read (.thick, k, p) fun th => .write (.thick, k, p) (th + (new - t)) next
      else thickProg p ts (k + 1) (new - t) next

/-- The `while True` loop for an old layer, `multilayermodel.py:615-639`: `en` is `internal_energy`. The iteration ends
here where the model is undefined: with a NaN weight and before a write behind the end of the arrays. -/
def whileProg (slots ns : ℕ) (p : ι) (kOld : ℕ) (kNew : ℕ) (newTh : K) (en : ℕ → K)
    (next : ℕ → K → (ℕ → K) → Prog (Cell ι) K) : Prog (Cell ι) K :=
  if slots ≤ kNew then .done
  else
    .read (.thickPrev, kOld, p) fun tp =>
      match weight newTh tp with
      | none => .done
      | some w =>
        .read (.ice, kNew, p) fun i => .read (.icePrev, kOld, p) fun ip => .write (.ice, kNew, p) (i + w * ip) <|
        .read (.lwc, kNew, p) fun l => .read (.lwcPrev, kOld, p) fun lp => .write (.lwc, kNew, p) (l + w * lp) <|
        .read (.energyPrev, kOld, p) fun ep =>
        let en' := Function.update en kNew (en kNew + w * ep)
        if w = 1 then .read (.thickPrev, kOld, p) fun tp1 => next kNew (newTh - tp1) en'
        else
          .read (.thickPrev, kOld, p) fun tp1 => .write (.thickPrev, kOld, p) (tp1 * (1 - w)) <|
          .read (.icePrev, kOld, p) fun ip1 => .write (.icePrev, kOld, p) (ip1 * (1 - w)) <|
          .read (.lwcPrev, kOld, p) fun lp1 => .write (.lwcPrev, kOld, p) (lp1 * (1 - w)) <|
          .read (.energyPrev, kOld, p) fun ep1 => .write (.energyPrev, kOld, p) (ep1 * (1 - w)) <|
          if ns ≤ kNew + 1 then next (kNew + 1) newTh en'
          else if w < 1 then
            .read (.thick, kNew + 1, p) fun th => whileProg slots ns p kOld (kNew + 1) th en' next
          else whileProg slots ns p kOld (kNew + 1) newTh en' next
termination_by ns - kNew

/-- The loop over the old layers `k`, ..., `k + r - 1`, `multilayermodel.py:614-639`. -/
def oldProg (slots ns : ℕ) (p : ι) (next : (ℕ → K) → Prog (Cell ι) K) : ℕ → ℕ → ℕ → K → (ℕ → K) → Prog (Cell ι) K
  | 0, _, _, _, en => next en
  | r + 1, k, kNew, newTh, en =>
    whileProg slots ns p k kNew newTh en fun kNew' newTh' en' => oldProg slots ns p next r (k + 1) kNew' newTh' en'

/-- The end of the body, `multilayermodel.py:641-653`, with `ns` new layers. -/
def closeProg (p : ι) (ns : ℕ) (en : ℕ → K) : Prog (Cell ι) K :=
  .write (.numLayers, 0, p) (ns : K) <|
  mapCol .heatCap [.ice, .lwc] (fun _ vs => vs.getD 0 0 * cIce + vs.getD 1 0 * cWater) p ns 0 <|
  mapCol .temp [.heatCap] (fun k vs => T0 + en k / vs.getD 0 0) p ns 0 <|
  mapCol .density [.lwc, .ice, .thick] (fun _ vs => (vs.getD 0 0 + vs.getD 1 0) / vs.getD 2 0) p ns 0 .done

/-- Body of the loop of `_update_layers`, `multilayermodel.py:581-653`. NaN densities are written as 0; thicknesses that are
not set to zero as thin are written back unchanged (605-607). -/
def layersBody (minTh : List K) (n : ι → ℕ) (p : ι) : Prog (Cell ι) K :=
  .write (.numLayers, 0, p) 0 <|
  mapCol .thick [] (fun _ _ => 0) p minTh.length 0 <|
  mapCol .ice [] (fun _ _ => 0) p minTh.length 0 <|
  mapCol .lwc [] (fun _ _ => 0) p minTh.length 0 <|
  mapCol .temp [] (fun _ _ => T0) p minTh.length 0 <|
  mapCol .density [] (fun _ _ => 0) p minTh.length 0 <|
  .read (.depth, 0, p) fun d =>
    if 0 < d then
      .read (.depth, 0, p) fun new =>
      thickProg p minTh 0 new <|
      mapCol .thick [.thick] (fun _ vs => if vs.getD 0 0 < 1 / 1000000 then 0 else vs.getD 0 0) p minTh.length 0 <|
      readAll (slice .thick minTh.length p) fun ths =>
        let ns := ths.countP fun t => decide (0 < t)
        .read (.thick, 0, p) fun th0 =>
          oldProg minTh.length ns p (closeProg p ns) (n p) 0 0 th0 fun _ => 0
    else .done

end Multilayer

section Compaction

variable {ι : Type*} [DecidableEq ι]

/-- Body of the layer loop of `_compaction_anderson`, `snow.py:206-244`. -/
noncomputable def andersonLayerProg (dtH : ℝ) (airTemp : Option ℝ) (p : ι) (k : ℕ) (load : ℝ)
    (next : ℝ → Prog (Cell ι) ℝ) : Prog (Cell ι) ℝ :=
  .read (.thick, k, p) fun th =>
    if 0 < th then
      .read (.ice, k, p) fun i => .read (.lwc, k, p) fun l =>
        let m := i + l
        let load1 := load + m / 2
        .read (.ice, k, p) fun i1 => .read (.lwc, k, p) fun l1 => .read (.thick, k, p) fun th1 =>
        .write (.density, k, p) ((i1 + l1) / th1) <|
        .read (.density, k, p) fun rho => .read (.lwc, k, p) fun l2 =>
        .read (.density, k, p) fun rho1 =>
        .write (.density, k, p) (rho1 + Snow.andersonRate airTemp load1 rho l2 * dtH) <|
        .read (.ice, k, p) fun i3 => .read (.lwc, k, p) fun l3 => .read (.density, k, p) fun rho2 =>
        .write (.thick, k, p) ((i3 + l3) / rho2) <|
        next (load1 + m / 2)
    else next load

/-- Layers `k`, ..., `k + m - 1` of `_compaction_anderson`, `snow.py:205-244`. -/
noncomputable def andersonProg (dtH : ℝ) (airTemp : Option ℝ) (p : ι) : ℕ → ℕ → ℝ → Prog (Cell ι) ℝ
  | 0, _, _ => .done
  | m + 1, k, load => andersonLayerProg dtH airTemp p k load (andersonProg dtH airTemp p m (k + 1))

/-- Body of the loop of `_compaction_anderson`, `snow.py:202-244`; the air temperature may be missing. -/
noncomputable def andersonBody (dt : ℝ) (n : ι → ℕ) (airTemp : ι → Option ℝ) (p : ι) : Prog (Cell ι) ℝ :=
  andersonProg (dt / 3600) (airTemp p) p (n p) 0 0

/-- Body of the layer loop of `_compaction_empirical`, `snow.py:311-332`. -/
noncomputable def empiricalLayerProg (c : Snow.EmpiricalCfg) (dt : ℝ) (p : ι) (k : ℕ) (next : Prog (Cell ι) ℝ) :
    Prog (Cell ι) ℝ :=
  .read (.thick, k, p) fun th =>
    if 0 < th then
      .read (.ice, k, p) fun i => .read (.lwc, k, p) fun l => .read (.thick, k, p) fun th1 =>
      .write (.density, k, p) ((i + l) / th1) <|
      .read (.temp, k, p) fun t =>
        let mx := if t < T0 then c.maxCold else c.maxMelting
        .read (.density, k, p) fun rho =>
          if rho < mx then
            .read (.density, k, p) fun rho1 =>
            .write (.density, k, p) (mx + (rho1 - mx) * Real.exp (-dt / c.timescale)) <|
            .read (.ice, k, p) fun i1 => .read (.lwc, k, p) fun l1 => .read (.density, k, p) fun rho2 =>
            .write (.thick, k, p) ((i1 + l1) / rho2) next
          else next
    else next

/-- Layers `k`, ..., `k + m - 1` of `_compaction_empirical`, `snow.py:310-332`. -/
noncomputable def empiricalProg (c : Snow.EmpiricalCfg) (dt : ℝ) (p : ι) : ℕ → ℕ → Prog (Cell ι) ℝ
  | 0, _ => .done
  | m + 1, k => empiricalLayerProg c dt p k (empiricalProg c dt p m (k + 1))

/-- Body of the loop of `_compaction_empirical`, `snow.py:308-332`. -/
noncomputable def empiricalBody (c : Snow.EmpiricalCfg) (dt : ℝ) (n : ι → ℕ) (p : ι) : Prog (Cell ι) ℝ :=
  empiricalProg c dt p (n p) 0

/-- Body of the layer loop of `_soil_properties`, `soil.py:116-209`; the rasters of soil parameters are only read and are
the value `q`. -/
noncomputable def soilLayerProg (q : Soil.Params) (p : ι) (k : ℕ) (next : Prog (Cell ι) ℝ) : Prog (Cell ι) ℝ :=
  .read (.soilMoist, k, p) fun θ =>
    if 0 < θ then
      .read (.soilTemp, k, p) fun t => .read (.soilMoist, k, p) fun θ1 =>
      .write (.fracUnfrozen, k, p) (Soil.unfrozen q θ1 t / q.sat) <|
      .write (.fracFrozen, k, p) (Soil.rhoIce / Soil.rhoWater * Soil.frozen q θ1 t / q.sat) <|
      .read (.soilTemp, k, p) fun t1 => .read (.soilThick, k, p) fun th =>
      .write (.soilCap, k, p) ((q.capDry + Soil.rhoWater * cWater * Soil.unfrozen q θ1 t +
        Soil.rhoIce * cIce * Soil.frozen q θ1 t +
        Soil.rhoWater * ((cWater - cIce) * t1 + Surface.lf) * Soil.dUnfrozen q θ1 t) * th) <|
      .read (.fracUnfrozen, k, p) fun fu => .read (.fracUnfrozen, k, p) fun fu1 => .read (.fracFrozen, k, p) fun ff =>
        let conc := q.sat * (fu / (fu1 + ff))
        let condSat := q.condDry * Soil.kWater ^ conc * Soil.kIce ^ (q.sat - conc) / Soil.kAir ^ q.sat
        .read (.soilMoist, k, p) fun θ2 =>
        .write (.soilCond, k, p) ((condSat - q.condDry) * θ2 / q.sat + q.condDry) next
    else
      .read (.soilThick, k, p) fun th => .write (.soilCap, k, p) (q.capDry * th) <|
      .write (.soilCond, k, p) q.condDry next

/-- Layers `k`, ..., `k + r - 1` of `_soil_properties`, `soil.py:115-209`. -/
noncomputable def soilProg (q : Soil.Params) (p : ι) : ℕ → ℕ → Prog (Cell ι) ℝ
  | 0, _ => .done
  | r + 1, k => soilLayerProg q p k (soilProg q p r (k + 1))

/-- Body of the loop of `_soil_properties`, `soil.py:112-209`, for `slots` soil layers. -/
noncomputable def soilBody (slots : ℕ) (q : ι → Soil.Params) (p : ι) : Prog (Cell ι) ℝ := soilProg (q p) p slots 0

end Compaction

/-! ## Interpolation: cells are (array, index, `()`) -/

open Classical in
/-- The loop over the stations for one target, `interpolation.py:36-48`. -/
noncomputable def idwProg (power smoothing : ℝ) (target : ℕ) (x y : ℝ) : ℕ → ℕ → ℝ → ℝ → Prog (Cell Unit) ℝ
  | 0, _, w, total => .write (.data, target, ()) (total / w) .done
  | m + 1, k, w, total =>
    .read (.xPoint, k, ()) fun xp => .read (.yPoint, k, ()) fun yp =>
      let d := Idw.dist smoothing ⟨xp, yp, 0⟩ x y
      if d = 0 then .read (.zPoint, k, ()) fun z => .write (.data, target, ()) z .done
      else .read (.zPoint, k, ()) fun z =>
        idwProg power smoothing target x y m (k + 1) (w + 1 / d ^ power) (total + z / d ^ power)

/-- Body of the loop of `_idw`, `interpolation.py:30-48`. -/
noncomputable def idwBody (power smoothing : ℝ) (points : ℕ) (target : ℕ) : Prog (Cell Unit) ℝ :=
  .read (.xTarget, target, ()) fun x => .read (.yTarget, target, ()) fun y =>
    idwProg power smoothing target x y points 0 0 0

end Verif.Parallel
