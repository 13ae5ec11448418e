import Mathlib.Data.List.Basic
import Mathlib.Data.Int.Order.Basic
import Mathlib.Tactic.Ring
import Mathlib.Tactic.Linarith

/-!
# Time axis and calendar

Mirrors `openamundsen/conf.py:89-110`, `217-227`, `openamundsen/model.py:314-324` and
`model.py:898-976`. Instants are whole numbers of seconds; `pd.date_range` with a fixed step is
modelled by its loop; the calendar is the proleptic Gregorian one, defined by its successor
function.
-/

namespace Verif.Time

/-- Seconds per day. -/
def DAY : ℤ := 86400

/-- `pd.date_range(start, end, freq)` for a fixed positive step (`conf.py:221-225`,
`model.py:319-323`). -/
def dateRange (s e dt : ℤ) : List ℤ :=
  if _h : 0 < dt ∧ s ≤ e then s :: dateRange (s + dt) e dt else []
termination_by (e - s + 1).toNat
decreasing_by omega

/-- Result of the date checks. -/
inductive Check
  | accepted (dates : List ℤ)
  /-- "End date must be after start date" (`conf.py:218`) -/
  | startAfterEnd
  /-- "Start/end date is not compatible with timestep" (`conf.py:227`) -/
  | incompatible

/-- `conf.py:217-227`. -/
def checkDates (s e dt : ℤ) : Check :=
  if e < s then .startAfterEnd
  else
    let dates := dateRange s e dt
    if dates.getLast? = some e then .accepted dates else .incompatible

/-- `_parse_end_date`, `conf.py:89-110`; `dateOnly` is whether no time of day was given, `date` the
parsed instant. -/
def parseEndDate (dateOnly : Bool) (date dt : ℤ) : ℤ :=
  if dateOnly ∧ dt < DAY then date + (DAY - dt) else date

/-! ## Calendar -/

/-- Leap years of the Gregorian calendar. -/
def leap (y : ℕ) : Bool := (y % 4 = 0 ∧ y % 100 ≠ 0) ∨ y % 400 = 0

/-- Length of month `m` (1 to 12) of year `y`. -/
def monthLen (y m : ℕ) : ℕ :=
  match m with
  | 2 => if leap y then 29 else 28
  | 4 => 30
  | 6 => 30
  | 9 => 30
  | 11 => 30
  | _ => 31

/-- A calendar date. -/
structure Date where
  year : ℕ
  month : ℕ
  day : ℕ
  deriving DecidableEq

/-- The day after. -/
def Date.next (d : Date) : Date :=
  if d.day < monthLen d.year d.month then { d with day := d.day + 1 }
  else if d.month < 12 then { year := d.year, month := d.month + 1, day := 1 }
  else { year := d.year + 1, month := 1, day := 1 }

/-- The date `n` days after 1 January of year `y0`. -/
def civil (y0 : ℕ) : ℕ → Date
  | 0 => { year := y0, month := 1, day := 1 }
  | n + 1 => (civil y0 n).next

/-- The date of an instant given in seconds since 1 January of year `y0`. -/
def dateOf (y0 t : ℕ) : Date := civil y0 (t / 86400)

/-! ## Time step properties -/

/-- The flags of `timestep_props`, `model.py:941-957`. -/
structure Flags where
  strictFirstYear : Bool
  strictFirstMonth : Bool
  strictFirstDay : Bool
  firstYear : Bool
  firstMonth : Bool
  firstDay : Bool
  strictLastYear : Bool
  strictLastMonth : Bool
  strictLastDay : Bool
  lastYear : Bool
  lastMonth : Bool
  lastDay : Bool

/-- `timestep_props`, `model.py:938-976`: instants in seconds since 1 January of year `y0`, `i` the
index of the date, `n` the number of dates. -/
def flags (y0 dt t i n : ℕ) : Flags :=
  let d := dateOf y0 t
  let p := dateOf y0 (t - dt)
  let q := dateOf y0 (t + dt)
  let first := decide (i = 0)
  let last := decide (i + 1 = n)
  { strictFirstYear := decide (p.year ≠ d.year)
    strictFirstMonth := decide (p.month ≠ d.month)
    strictFirstDay := decide (p.day ≠ d.day)
    firstYear := decide (p.year ≠ d.year) || first
    firstMonth := decide (p.month ≠ d.month) || first
    firstDay := decide (p.day ≠ d.day) || first
    strictLastYear := decide (q.year ≠ d.year)
    strictLastMonth := decide (q.month ≠ d.month)
    strictLastDay := decide (q.day ≠ d.day)
    lastYear := decide (q.year ≠ d.year) || last
    lastMonth := decide (q.month ≠ d.month) || last
    lastDay := decide (q.day ≠ d.day) || last }

end Verif.Time
