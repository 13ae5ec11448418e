import Verif.Model.Time
import Mathlib.Data.List.Basic

/-!
# Write dates of gridded outputs with monthly and yearly frequencies

Mirrors `openamundsen/fileio/griddedoutput.py:685-758` for offsets that are anchored to the calendar.
Instants are seconds since 1 January of a year `y0`.
-/

namespace Verif.WriteDates

open Verif.Time

/-- Division of time into periods: start of the period with a given number, number of the period of an
instant. -/
structure Cal where
  bnd : ℕ → ℤ
  per : ℤ → ℕ

/-- Days from 1 January of `y0` to the start of the `k`-th month. -/
def monthStart (y0 : ℕ) : ℕ → ℕ
  | 0 => 0
  | k + 1 => monthStart y0 k + monthLen (y0 + k / 12) (k % 12 + 1)

/-- Months, counted from January of `y0`. -/
def months (y0 : ℕ) : Cal where
  bnd k := monthStart y0 k * DAY
  per t := 12 * ((dateOf y0 t.toNat).year - y0) + ((dateOf y0 t.toNat).month - 1)

/-- Years, counted from `y0`. -/
def years (y0 : ℕ) : Cal where
  bnd k := monthStart y0 (12 * k) * DAY
  per t := (dateOf y0 t.toNat).year - y0

/-- The model dates. -/
def dates (t0 dt : ℤ) (n : ℕ) : List ℤ := (List.range n).map fun i : ℕ => t0 + i * dt

/-- `period_end_dates`, `griddedoutput.py:716-724`: the periods from the first to the last model date,
converted to the start of their last unit of the time step's frequency. `u` is the length of that unit: for a time step
of `3h` it is an hour, because the conversion ignores the multiplier. -/
def periodEnds (c : Cal) (u t0 tN : ℤ) : List ℤ :=
  (List.range (c.per tN - c.per t0 + 1)).map fun j => c.bnd (c.per t0 + j + 1) - u

/-- Write dates of aggregated fields, `griddedoutput.py:708-735`; `none`: exception. -/
def aggDates (c : Cal) (u t0 dt : ℤ) (n : ℕ) : Option (List ℤ) :=
  if DAY < dt then none
  else
    let tN := t0 + ((n : ℤ) - 1) * dt
    let pe0 := c.bnd (c.per t0 + 1) - u
    match ((dates t0 dt n).filter fun t => decide (t ≤ pe0)).getLast? with
    | none => none
    | some d0 =>
      let w := (periodEnds c u t0 tN).map fun e => e + (d0 - pe0)
      let w1 := if DAY < pe0 - d0 then w.tail else w
      match w1.getLast? with
      | none => some w1
      | some e => some (if tN < e then w1.dropLast else w1)

/-- Write dates of instantaneous fields for `ME` and `YE`, `griddedoutput.py:742-756`: `pd.date_range` returns the
last days of the periods with the time of day of the start date. -/
def instEnd (c : Cal) (t0 dt : ℤ) (n : ℕ) : List ℤ :=
  let tN := t0 + ((n : ℤ) - 1) * dt
  let w := ((List.range (c.per tN - c.per t0 + 1)).map fun j =>
    c.bnd (c.per t0 + j + 1) - DAY + t0 % DAY).filter fun t => decide (t ≤ tN)
  if dt < DAY then w.map fun t => t + (DAY - dt) else w

/-- Write dates of instantaneous fields for `MS` and `YS`, `griddedoutput.py:742-746`: first days of the periods with
the time of day of the start date. -/
def instBegin (c : Cal) (t0 dt : ℤ) (n : ℕ) : List ℤ :=
  let tN := t0 + ((n : ℤ) - 1) * dt
  ((List.range (c.per tN - c.per t0 + 1)).map fun j => c.bnd (c.per t0 + j) + t0 % DAY).filter
    fun t => decide (t0 ≤ t ∧ t ≤ tN)

end Verif.WriteDates
