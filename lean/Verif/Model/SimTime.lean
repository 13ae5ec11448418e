import Verif.Model.Sun
import Verif.Model.Time

/-!
# Simulation time zone

Mirrors `openamundsen/model.py:329-333` (`_prepare_time_steps`), `model.py:880-886` (`_irradiance`) and
`openamundsen/modules/radiation/sunparams.py:128-136, 209-225`.

Dates are seconds since 1 January of a year `y0`, 0:00, in the time zone they refer to; they are not negative.
-/

namespace Verif.SimTime

open Verif.Time

/-- `_simulation_timezone_shift` (s), `model.py:329-333`; `none`: no `simulation_timezone`. -/
def shift (timezone : ℤ) (sim : Option ℤ) : ℤ :=
  match sim with
  | none => 0
  | some s => (timezone - s) * 3600

/-- `date.dayofyear`. -/
def dayOfYear (d : Date) : ℕ :=
  ((List.range (d.month - 1)).map fun m => monthLen d.year (m + 1)).sum + d.day

/-- Calendar day of a date. -/
def calendarDay (y0 : ℕ) (t : ℤ) : Date := civil y0 (t / 86400).toNat

/-- `(date - date.normalize()).total_seconds() / 3600`, `sunparams.py:129`. -/
noncomputable def hourOfDay (t : ℤ) : ℝ := ((t % 86400 : ℤ) : ℝ) / 3600

/-- `sun_parameters(date, lon, lat, timezone)["sun_vector"]`, `sunparams.py:209-214`. -/
noncomputable def sunParameters (y0 : ℕ) (t : ℤ) (lon lat : ℝ) (timezone : ℤ) : ℝ × ℝ × ℝ :=
  Sun.sunAt (dayOfYear (calendarDay y0 t)) (hourOfDay t) lon lat timezone

/-- Sun vector of a time step, `model.py:880-886`; `date` is the date of the simulation. -/
noncomputable def sunOfStep (y0 : ℕ) (timezone : ℤ) (sim : Option ℤ) (lon lat : ℝ) (date : ℤ) : ℝ × ℝ × ℝ :=
  sunParameters y0 (date + shift timezone sim) lon lat timezone

end Verif.SimTime
