import Mathlib.Analysis.SpecialFunctions.Trigonometric.Inverse

/-!
# Position of the sun

Mirrors `openamundsen/modules/radiation/sunparams.py:7-226`. Dates enter as day of year and fractional hour of
the local day. `DAYS_PER_YEAR = 365.25` (`constants.py`).
-/

namespace Verif.Sun

open Real

/-- Degrees to radians. -/
noncomputable def rad (x : ℝ) : ℝ := x * (π / 180)

/-- `day_angle`, `sunparams.py:24`. -/
noncomputable def dayAngle (doy : ℝ) : ℝ := 2 * π / (36525 / 100) * (doy - 1)

/-- `equation_of_time` (minutes), `sunparams.py:52-66`. -/
noncomputable def equationOfTime (doy : ℝ) : ℝ :=
  let da := dayAngle doy
  24 * 60 / (2 * π) * (75 / 10000000 + 1868 / 1000000 * cos da - 32077 / 1000000 * sin da -
    14615 / 1000000 * cos (2 * da) - 40849 / 1000000 * sin (2 * da))

/-- `declination_angle` (degrees), `sunparams.py:90-100`. -/
noncomputable def declination (doy : ℝ) : ℝ :=
  let x := rad (360 / (36525 / 100) * (doy - 79346 / 1000))
  3723 / 10000 + 232567 / 10000 * sin x - 7580 / 10000 * cos x + 1149 / 10000 * sin (2 * x) +
    3656 / 10000 * cos (2 * x) - 1712 / 10000 * sin (3 * x) + 201 / 10000 * cos (3 * x)

/-- `hour_angle` (degrees), `sunparams.py:128-136`. -/
noncomputable def hourAngle (hour timezone lon eot : ℝ) : ℝ :=
  let lstm := 15 * timezone
  let tc := 4 * (lon - lstm) + eot
  let lst := hour + tc / 60
  15 * (lst - 12)

/-- `sun_vector` (to the east, to the south, up), `sunparams.py:167-177`. -/
noncomputable def sunVector (lat ha dec : ℝ) : ℝ × ℝ × ℝ :=
  (-sin (rad ha) * cos (rad dec),
    sin (rad lat) * cos (rad ha) * cos (rad dec) - cos (rad lat) * sin (rad dec),
    cos (rad lat) * cos (rad ha) * cos (rad dec) + sin (rad lat) * sin (rad dec))

/-- `zenith_angle` (degrees), `sunparams.py:216`. -/
noncomputable def zenith (sv : ℝ × ℝ × ℝ) : ℝ := arccos sv.2.2 * (180 / π)

/-- `sun_over_horizon`, `sunparams.py:225`. -/
def sunOverHorizon (sv : ℝ × ℝ × ℝ) : Prop := zenith sv < 90

/-- `sun_parameters(...)["sun_vector"]`, `sunparams.py:210-215`. -/
noncomputable def sunAt (doy hour lon lat timezone : ℝ) : ℝ × ℝ × ℝ :=
  sunVector lat (hourAngle hour timezone lon (equationOfTime doy)) (declination doy)

end Verif.Sun
