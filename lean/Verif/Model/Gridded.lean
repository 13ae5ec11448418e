import Mathlib.Algebra.Field.Basic
import Mathlib.Data.List.Basic

/-!
# Gridded output

Mirrors `openamundsen/fileio/griddedoutput.py`: aggregation and writing of one field, write dates for
frequencies that are not anchored to the calendar, interval labels.
-/

namespace Verif.Gridded

/-! ## Aggregation -/

section agg

variable {C D K : Type*} [DecidableEq D] [Field K]

/-- Aggregation functions, `configschema.yml`. -/
inductive Agg
  | sum
  | mean

/-- `OutputField.data`, `.num_aggregations`, `griddedoutput.py:65-66`; a value `none` is NaN. -/
structure FSt (C K : Type*) where
  data : Option (C → Option K)
  num : ℕ

/-- One value of the in-place updates `griddedoutput.py:218-233`. -/
def accum (a : Agg) (n : ℕ) (old cur : Option K) : Option K :=
  match old, cur with
  | some d, some x =>
    match a with
    | .sum => some (d + x)
    | .mean => some (d + (x - d) / (n + 1))
  | _, _ => none

/-- Update of the aggregate, `griddedoutput.py:205-235`. `roi c` tells whether the cell `c` (of any
layer) is in the ROI, `fill` is the fill value. -/
def aggregate (a : Agg) (roi : C → Bool) (fill : Option K) (cur : C → Option K) (s : FSt C K) :
    FSt C K :=
  let d := s.data.getD fun c => if roi c then some 0 else fill
  { data := some fun c => if roi c then accum a s.num (d c) (cur c) else d c
    num := s.num + 1 }

/-- `update` for one field, `griddedoutput.py:195-338`: the new state and, at a write date, the written
record: its index in the time dimension and the field. The conversion to float32 on writing is not
modelled. -/
def update (agg : Option Agg) (roi : C → Bool) (fill : Option K) (write : List D) (date : D)
    (cur : C → Option K) (s : FSt C K) : FSt C K × Option (ℕ × (C → Option K)) :=
  let s1 :=
    match agg with
    | none => s
    | some a => aggregate a roi fill cur s
  if date ∈ write then
    let data :=
      match agg with
      | none => cur
      | some _ => s1.data.getD cur
    (⟨none, 0⟩, some (write.idxOf date, data))
  else (s1, none)

/-- The updates of a run over the history of dates and fields; the written records in order. -/
def run (agg : Option Agg) (roi : C → Bool) (fill : Option K) (write : List D) :
    List (D × (C → Option K)) → FSt C K → List (ℕ × (C → Option K))
  | [], _ => []
  | (d, cur) :: hist, s =>
    match update agg roi fill write d cur s with
    | (s', some o) => o :: run agg roi fill write hist s'
    | (s', none) => run agg roi fill write hist s'

end agg

/-! ## Write dates -/

/-- `pd.date_range(start, end, freq)` for a fixed frequency of `f` seconds. -/
def dateRange (a b f : ℤ) : List ℤ :=
  if b < a then [] else (List.range (((b - a) / f).toNat + 1)).map fun k : ℕ => a + (k : ℤ) * f

/-- `_freq_write_dates`, `griddedoutput.py:685-747`, for a model time axis of `n` dates from `t0` with
time step `dt` and an output frequency of `f` seconds that is not anchored; `none`: `ValueError`. -/
def freqWriteDates (t0 dt : ℤ) (n : ℕ) (f : ℤ) (agg : Bool) : Option (List ℤ) :=
  let last := t0 + ((n : ℤ) - 1) * dt
  if f < dt then none
  else if ¬ dt ∣ f then none
  else if agg then some (dateRange (t0 + f - dt) last f)
  else some (dateRange t0 last f)

/-- The write dates of a field, `griddedoutput.py:104-116`: limited to the run. -/
def fieldWriteDates (t0 dt : ℤ) (n : ℕ) (f : ℤ) (agg : Bool) : Option (List ℤ) :=
  (freqWriteDates t0 dt n f agg).map fun ws =>
    ws.filter fun w => decide (t0 ≤ w ∧ w ≤ t0 + ((n : ℤ) - 1) * dt)

/-- Start of the interval in the file name, `griddedoutput.py:284-289`. -/
def labelStart (t0 dt : ℤ) (write : List ℤ) (idx : ℕ) : ℤ :=
  if idx = 0 then t0 else write.getD (idx - 1) 0 + dt

/-- `time_bounds`, `griddedoutput.py:384-386`. -/
def timeBounds (t0 : ℤ) (write : List ℤ) (idx : ℕ) : ℤ × ℤ :=
  (if idx = 0 then t0 else write.getD (idx - 1) 0, write.getD idx 0)

end Verif.Gridded
