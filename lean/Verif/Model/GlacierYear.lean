import Verif.Model.Time
import Mathlib.Algebra.Order.Field.Basic

/-!
# Mass balance year of the glacier module

Mirrors `GlacierModel.update`, `openamundsen/modules/glacier/glaciermodel.py:42-56`, and the mass balance of
`_update_geometry`, `glaciermodel.py:62-66`. `update` is called at the end of a time step (`model.py:386-387`), after the
snow model. The geometry change itself is in `Verif.Model.Glacier`.
-/

namespace Verif.GlacierYear

open Verif.Time

variable {K : Type*} [Field K]

/-- `mb_end_month`, `glaciermodel.py:47`. -/
def endMonth (ms : ℕ) : ℕ := if 1 < ms then ms - 1 else 12

/-- `GlacierModel.update`, `glaciermodel.py:42-56`, for one pixel: `v` is the water equivalent of ice and firn
after the time step, `rec` the recorded one. Returns the record and, if the geometry is updated, the mass balance. -/
def update (ms month : ℕ) (f : Flags) (v : K) (rec : Option K) : Option K × Option K :=
  if month = ms ∧ f.strictFirstMonth = true then (some v, none)
  else if month = endMonth ms ∧ f.strictLastMonth = true then (rec, rec.map fun s => v - s)
  else (rec, none)

/-- The record before time step `i` of a run starting at `s`; `S (i + 1)` is the storage after time step `i`. -/
def recorded (ms y0 dt s n : ℕ) (S : ℕ → K) : ℕ → Option K
  | 0 => none
  | i + 1 => (update ms (dateOf y0 (s + i * dt)).month (flags y0 dt (s + i * dt) i n) (S (i + 1))
      (recorded ms y0 dt s n S i)).1

/-- The mass balance used for a geometry update at time step `i`; `none` if there is no update. -/
def balance (ms y0 dt s n : ℕ) (S : ℕ → K) (i : ℕ) : Option K :=
  (update ms (dateOf y0 (s + i * dt)).month (flags y0 dt (s + i * dt) i n) (S (i + 1))
      (recorded ms y0 dt s n S i)).2

end Verif.GlacierYear
