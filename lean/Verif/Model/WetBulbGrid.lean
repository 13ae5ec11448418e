import Verif.Model.Atmosphere

/-!
# The wet-bulb iteration over a whole grid

`openamundsen/meteo/atmosphere.py:318-346`: one `while True` loop for all elements of the arrays.
-/

namespace Verif.WetBulbGrid

open Verif.Atmosphere

/-- The inputs of one element of the arrays. -/
structure Cell where
  /-- air temperature -/
  temp : ℝ
  /-- vapor pressure -/
  vap : ℝ
  /-- psychrometric constant -/
  psych : ℝ

/-- One element during the iteration: its inputs and `x0`, `x1`, `y0`, `y1`. -/
structure Run where
  /-- the inputs -/
  cell : Cell
  /-- second last iterate -/
  x0 : ℝ
  /-- last iterate -/
  x1 : ℝ
  /-- difference at `x0` -/
  y0 : ℝ
  /-- difference at `x1` -/
  y1 : ℝ

/-- The start values, `atmosphere.py:324-328`; `none`: an element with a missing input or NaN start values. -/
noncomputable def startRun (c : Option Cell) : Option Run :=
  c.bind fun c =>
    match vpDiff c.temp (c.temp - 10) c.vap c.psych, vpDiff c.temp c.temp c.vap c.psych with
    | some y0, some y1 => some ⟨c, c.temp - 10, c.temp, y0, y1⟩
    | _, _ => none

/-- `d`, `atmosphere.py:331`. -/
noncomputable def Run.d (r : Run) : ℝ := (r.x1 - r.x0) / (r.y1 - r.y0) * r.y1

/-- `iter_pos`, `atmosphere.py:332`: comparisons with NaN are false. A step with a zero denominator (infinite or NaN) is
taken to end the iteration of the element. -/
def moving : Option Run → Prop
  | none => False
  | some r => r.y1 - r.y0 ≠ 0 ∧ 1 / 100 < |r.d|

open Classical in
/-- The assignments to the elements of `iter_pos`, `atmosphere.py:337-344`. -/
noncomputable def step (s : Option Run) : Option Run :=
  if moving s then
    s.bind fun r => (vpDiff r.cell.temp (r.x1 - r.d) r.cell.vap r.cell.psych).map fun y =>
      ⟨r.cell, r.x1, r.x1 - r.d, r.y1, y⟩
  else s

open Classical in
/-- The value returned for an element, NaN after a zero denominator. -/
noncomputable def value (s : Option Run) : Option ℝ :=
  s.bind fun r => if r.y1 - r.y0 = 0 then none else some r.x1

open Classical in
/-- The loop, `atmosphere.py:330-346`, with fuel in place of `while True`: it ends in the first round in which no
element of the whole grid is to be iterated further. -/
noncomputable def loop : ℕ → List (Option Run) → Option (List (Option ℝ))
  | 0, _ => none
  | n + 1, l => if ∃ s ∈ l, moving s then loop n (l.map step) else some (l.map value)

/-- `wet_bulb_temperature` for arrays, `atmosphere.py:293-346`. -/
noncomputable def wetBulbs (n : ℕ) (l : List (Option Cell)) : Option (List (Option ℝ)) :=
  loop n (l.map startRun)

end Verif.WetBulbGrid
