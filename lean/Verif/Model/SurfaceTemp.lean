import Verif.Model.Surface
import Mathlib.Algebra.Order.Floor.Semiring
import Mathlib.Data.Real.Archimedean

/-!
# Snow surface temperature of the cryo layer model

Model of `iterate_surface_temperature` and `energy_balance_remainder` in `openamundsen/surface.py`. A pixel enters
through its energy balance as a function of surface temperature; `none` is NaN.

Simplifications: real arithmetic, so that the grid of the stepwise search has no rounding errors; the unbounded loop of
the secant method is modelled by its state after any number of rounds.
-/

namespace Verif.SurfaceTemp

open Verif.Atmosphere (T0 cp)
open Verif.Surface (Pixel)
open Classical

/-- `energy_balance_remainder`, `surface.py:824-840`: moisture availability `ψ`, heat of sublimation `lat` and ground
heat flux `g` are not updated. -/
noncomputable def remainder (p : Pixel) (ψ lat g t : ℝ) : ℝ :=
  p.netRad t + p.sensFlux t + lat * (ψ * p.transfer * (p.specHum - p.qsat t)) + p.advHeat t - g

/-- `calc_saturation_specific_humidity`, `surface.py:522-539`, at a pressure and surface temperature. -/
noncomputable def satHumidity (press t : ℝ) : Option ℝ := (Atmosphere.svp t).bind (Atmosphere.specificHumidity press)

/-! ## Stepwise search -/

/-- A pixel of the `frosties` mask. -/
structure Cell where
  /-- air temperature -/
  air : ℝ
  /-- energy balance at a surface temperature -/
  bal : ℝ → Option ℝ

/-- Elements of `en_bal`, `iteraties` and `surface.temp` for a pixel. -/
structure Run where
  cell : Cell
  active : Bool
  temp : ℝ
  enBal : Option ℝ

/-- `x < 0.0` for a possible NaN. -/
def IsNeg (x : Option ℝ) : Prop := ∃ y, x = some y ∧ y < 0

/-- `s.meteo.temp[frosties].min()`, line 867; not evaluated for an empty mask. -/
noncomputable def coldest : List Cell → ℝ
  | [] => T0
  | [c] => c.air
  | c :: d :: cs => min c.air (coldest (d :: cs))

/-- Number of values of `np.arange(max_temp, min_temp - 1e-6, temp_inc)`, `surface.py:866-869`. -/
noncomputable def gridLen (minAir : ℝ) : ℕ := ⌈((minAir - 3 - 1 / 1000000) - T0) / (-(1 / 4))⌉₊

/-- Value `k` of the range. -/
noncomputable def gridTemp (k : ℕ) : ℝ := T0 + k * (-(1 / 4))

/-- Loop body for one pixel, `surface.py:870-871`. -/
noncomputable def Run.round (t : ℝ) (r : Run) : Run :=
  let r' := if r.active then { r with temp := t, enBal := r.cell.bal t } else r
  { r' with active := decide (IsNeg r'.enBal) }

/-- Stepwise search for all pixels, `surface.py:862-871`: surface temperatures. -/
noncomputable def legacy (cells : List Cell) : List ℝ :=
  ((List.range (gridLen (coldest cells))).foldl (fun rs k => rs.map (Run.round (gridTemp k)))
    (cells.map fun c => ⟨c, true, c.air, some 0⟩)).map Run.temp

/-! ## Secant method -/

/-- Tolerance, line 873. -/
noncomputable def tol : ℝ := 1 / 100

/-- An element of the compressed arrays `iteraties_idxs`, `x0`, `x1`, `y0`, `y1`. -/
structure Iterate where
  idx : ℕ
  x0 : ℝ
  x1 : ℝ
  y0 : ℝ
  y1 : ℝ

/-- Line 883; division by zero gives 0 here but infinity or NaN in the program, see `C80_secant_defined`. -/
noncomputable def Iterate.d (e : Iterate) : ℝ := (e.x1 - e.x0) / (e.y1 - e.y0) * e.y1

/-- `iter_pos`, line 884. -/
def Iterate.Goes (e : Iterate) : Prop := tol < |e.d|

/-- Lines 889-900 for one remaining element. -/
noncomputable def Iterate.next (bal : ℕ → ℝ → ℝ) (e : Iterate) : Iterate :=
  ⟨e.idx, e.x1, e.x1 - e.d, e.y1, bal e.idx (e.x1 - e.d)⟩

/-- State of the loop: arrays and surface temperatures. -/
structure Loop where
  es : List Iterate
  temp : ℕ → ℝ

/-- Writing the surface temperature of all remaining pixels, line 825. -/
noncomputable def writeTemps (es : List Iterate) (temp : ℕ → ℝ) : ℕ → ℝ :=
  es.foldl (fun θ e => Function.update θ e.idx e.x1) temp

/-- One round, `surface.py:883-900`; `none` is the `break` of line 887. -/
noncomputable def Loop.round (bal : ℕ → ℝ → ℝ) (s : Loop) : Option Loop :=
  let go := s.es.filter fun e => decide e.Goes
  if go = [] then none
  else
    let es := go.map (Iterate.next bal)
    some ⟨es, writeTemps es s.temp⟩

/-- State before the loop, `surface.py:875-880`. -/
noncomputable def Loop.start (bal : ℕ → ℝ → ℝ) (idxs : List ℕ) (temp : ℕ → ℝ) : Loop :=
  let es := idxs.map fun i => ⟨i, T0 - 10, T0, bal i (T0 - 10), bal i T0⟩
  ⟨es, writeTemps es temp⟩

/-- State after at most `n` rounds, and whether the loop has ended. -/
noncomputable def Loop.run (bal : ℕ → ℝ → ℝ) : ℕ → Loop → Loop × Bool
  | 0, s => (s, decide (s.round bal = none))
  | n + 1, s =>
    match s.round bal with
    | none => (s, true)
    | some s' => Loop.run bal n s'

/-- `iterate_surface_temperature` with the secant method, `surface.py:872-903`, for at most `n` rounds: surface temperature,
temperature of the last evaluation of saturation humidity, and whether the loop has ended. -/
noncomputable def secant (bal : ℕ → ℝ → ℝ) (idxs : List ℕ) (temp : ℕ → ℝ) (n : ℕ) : (ℕ → ℝ) × (ℕ → ℝ) × Bool :=
  let (s, ended) := Loop.run bal n (Loop.start bal idxs temp)
  (fun i => if i ∈ idxs then min (s.temp i) T0 else s.temp i, s.temp, ended)

end Verif.SurfaceTemp
