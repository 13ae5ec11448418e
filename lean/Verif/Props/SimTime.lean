import Verif.Model.SimTime
import Mathlib.Tactic.Linarith
import Mathlib.Tactic.FieldSimp
import Mathlib.Tactic.NormNum
import Mathlib.Tactic.Ring
import Mathlib.Tactic.IntervalCases

/-!
# Simulation time zone (C117)

An instant is given in seconds of universal time since 1 January of year `y0`. A clock in time zone `s`
shows `instant + 3600 * s`.
-/

namespace Verif.SimTime

open Verif.Time Verif.Sun Real

/-! ## Specification -/

/-- What a clock in a time zone shows at an instant. -/
def clock (s instant : ℤ) : ℤ := instant + 3600 * s

/-- Sun vector at an instant: the hour angle advances by 15 degrees per hour of universal time and by one degree per
degree of longitude; declination and equation of time are those of day `doy` of the year. -/
noncomputable def sunAtInstant (doy : ℕ) (lon lat : ℝ) (instant : ℤ) : ℝ × ℝ × ℝ :=
  sunVector lat (15 * ((instant : ℝ) / 3600 - 12) + lon + equationOfTime doy / 4) (declination doy)

/-! ## Helpers -/

theorem sunVector_int (lat ha dec : ℝ) (k : ℤ) : sunVector lat (ha + 360 * k) dec = sunVector lat ha dec := by
  have h : rad (ha + 360 * k) = rad ha + k * (2 * π) := by unfold rad; ring
  simp only [sunVector, h, sin_add_int_mul_two_pi, cos_add_int_mul_two_pi]

/-! ## Properties -/

/-- **C117.** The sun of a time step is the sun of its instant: the dates of the simulation are those of a clock in the
simulation time zone, or in the time zone of the region if there is none; the calendar day is the one in the region. -/
theorem C117_instant (y0 : ℕ) (timezone : ℤ) (sim : Option ℤ) (lon lat : ℝ) (instant : ℤ) :
    sunOfStep y0 timezone sim lon lat (clock (sim.getD timezone) instant) =
      sunAtInstant (dayOfYear (civil y0 (clock timezone instant / 86400).toNat)) lon lat instant := by
  have hs : clock (sim.getD timezone) instant + shift timezone sim = clock timezone instant := by
    cases sim <;> simp [clock, shift] <;> ring
  unfold sunOfStep
  rw [hs]
  unfold sunParameters sunAtInstant sunAt calendarDay
  generalize (dayOfYear (civil y0 (clock timezone instant / 86400).toNat) : ℝ) = doy
  have hh : hourOfDay (clock timezone instant) =
      (instant : ℝ) / 3600 + timezone - 24 * ((clock timezone instant / 86400 : ℤ) : ℝ) := by
    have e : clock timezone instant % 86400 = clock timezone instant - 86400 * (clock timezone instant / 86400) := by
      rw [Int.emod_def]
    unfold hourOfDay
    rw [e]
    push_cast
    have : ((clock timezone instant : ℤ) : ℝ) = instant + 3600 * timezone := by simp [clock]
    rw [this]
    ring
  rw [hh]
  set k : ℤ := clock timezone instant / 86400
  have ha : hourAngle ((instant : ℝ) / 3600 + timezone - 24 * (k : ℝ)) timezone lon (equationOfTime doy) =
      15 * ((instant : ℝ) / 3600 - 12) + lon + equationOfTime doy / 4 + 360 * ((-k : ℤ) : ℝ) := by
    unfold hourAngle
    push_cast
    ring
  rw [ha, sunVector_int]

/-- **C117.** Whichever time zone the simulation dates refer to, the sun at an instant is the same. -/
theorem C117_simulation_timezone (y0 : ℕ) (timezone s s' : ℤ) (lon lat : ℝ) (date : ℤ) :
    sunOfStep y0 timezone (some s) lon lat date =
      sunOfStep y0 timezone (some s') lon lat (date + 3600 * (s' - s)) ∧
    sunOfStep y0 timezone none lon lat date = sunOfStep y0 timezone (some timezone) lon lat date := by
  constructor
  · have h1 := C117_instant y0 timezone (some s) lon lat (date - 3600 * s)
    have h2 := C117_instant y0 timezone (some s') lon lat (date - 3600 * s)
    simp only [Option.getD_some, clock] at h1 h2
    rw [show date - 3600 * s + 3600 * s = date by ring] at h1
    rw [show date - 3600 * s + 3600 * s' = date + 3600 * (s' - s) by ring] at h2
    rw [h1, h2]
  · simp [sunOfStep, shift]

/-- **C117.** The time zone of the region enters only through the calendar day: two time zones with the same local day
have the same sun at an instant. -/
theorem C117_region (y0 : ℕ) (timezone timezone' : ℤ) (sim : ℤ) (lon lat : ℝ) (date : ℤ)
    (h : (date + 3600 * (timezone - sim)) / 86400 = (date + 3600 * (timezone' - sim)) / 86400) :
    sunOfStep y0 timezone (some sim) lon lat date = sunOfStep y0 timezone' (some sim) lon lat date := by
  have h1 := C117_instant y0 timezone (some sim) lon lat (date - 3600 * sim)
  have h2 := C117_instant y0 timezone' (some sim) lon lat (date - 3600 * sim)
  simp only [Option.getD_some, clock] at h1 h2
  rw [show date - 3600 * sim + 3600 * sim = date by ring] at h1 h2
  rw [show date - 3600 * sim + 3600 * timezone = date + 3600 * (timezone - sim) by ring] at h1
  rw [show date - 3600 * sim + 3600 * timezone' = date + 3600 * (timezone' - sim) by ring] at h2
  rw [h1, h2, h]

theorem civil_valid (y0 : ℕ) : ∀ n, 1 ≤ (civil y0 n).month ∧ (civil y0 n).month ≤ 12 ∧ 1 ≤ (civil y0 n).day ∧
    (civil y0 n).day ≤ monthLen (civil y0 n).year (civil y0 n).month := by
  have hlen : ∀ y m, 1 ≤ monthLen y m := by
    intro y m; unfold monthLen; split <;> (try split) <;> norm_num
  intro n
  induction n with
  | zero => exact ⟨le_refl _, by norm_num [civil], le_refl _, hlen _ _⟩
  | succ n ih =>
    obtain ⟨h1, h2, h3, h4⟩ := ih
    simp only [civil, Date.next]
    split
    · exact ⟨h1, h2, by simp, by simp; omega⟩
    · split
      · exact ⟨by simp, by simp; omega, le_refl _, hlen _ _⟩
      · exact ⟨le_refl _, by norm_num, le_refl _, hlen _ _⟩

/-- **C117.** The day of the year counts the calendar days: 1 on 1 January, one more on every following day. -/
theorem C117_day_of_year (y0 n : ℕ) :
    dayOfYear (civil y0 0) = 1 ∧
    dayOfYear (civil y0 (n + 1)) =
      if (civil y0 n).month = 12 ∧ (civil y0 n).day = 31 then 1 else dayOfYear (civil y0 n) + 1 := by
  refine ⟨rfl, ?_⟩
  obtain ⟨h1, h2, h3, h4⟩ := civil_valid y0 n
  simp only [civil]
  generalize civil y0 n = d at *
  obtain ⟨y, m, k⟩ := d
  simp only at h1 h2 h3 h4
  by_cases hk : k < monthLen y m
  · have hne : ¬ (m = 12 ∧ k = 31) := by
      rintro ⟨rfl, rfl⟩
      simp [monthLen] at hk
    simp only [Date.next, hk, if_true, hne, if_false, dayOfYear]
    omega
  · have hk' : k = monthLen y m := by omega
    subst hk'
    by_cases hm : m < 12
    · have hne : ¬ (m = 12 ∧ monthLen y m = 31) := by omega
      simp only [Date.next, hk, if_false, hm, if_true, hne, dayOfYear]
      obtain ⟨m, rfl⟩ : ∃ j, m = j + 1 := ⟨m - 1, by omega⟩
      simp only [Nat.add_sub_cancel, List.range_succ, List.map_append, List.map_cons, List.map_nil, List.sum_append,
        List.sum_cons, List.sum_nil]
      omega
    · have h12 : m = 12 := by omega
      subst h12
      simp [Date.next, monthLen, dayOfYear]

/-- Dates at noon in central Europe: local days agree. -/
example : ((43200 : ℤ) + 3600 * (1 - 0)) / 86400 = (43200 + 3600 * (2 - 0)) / 86400 := by norm_num

/-- The local calendar day: 23:30 UTC on 31 December 2020 is 1 January 2021 in central Europe, day 1 of the year;
the day before is day 366. -/
example : dayOfYear (civil 2020 ((clock 1 (366 * 86400 - 1800)) / 86400).toNat) = 1 ∧
    dayOfYear (civil 2020 ((clock 0 (366 * 86400 - 1800)) / 86400).toNat) = 366 := by decide +kernel

end Verif.SimTime
