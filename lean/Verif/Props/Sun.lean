import Verif.Model.Sun
import Mathlib.Analysis.Real.Pi.Bounds
import Mathlib.Tactic.Linarith
import Mathlib.Tactic.LinearCombination
import Mathlib.Tactic.Positivity
import Mathlib.Tactic.FieldSimp
import Mathlib.Tactic.NormNum

/-!
# Position of the sun (C71)
-/

namespace Verif.Sun

open Real

/-- **C71.** The sun vector has unit length. -/
theorem C71_unit (lat ha dec : ℝ) :
    let v := sunVector lat ha dec
    v.1 ^ 2 + v.2.1 ^ 2 + v.2.2 ^ 2 = 1 := by
  simp only [sunVector]
  have h1 := sin_sq_add_cos_sq (rad lat)
  have h2 := sin_sq_add_cos_sq (rad ha)
  have h3 := sin_sq_add_cos_sq (rad dec)
  have e1 := eq_sub_of_add_eq h1
  have e2 := eq_sub_of_add_eq h2
  have e3 := eq_sub_of_add_eq h3
  ring_nf
  simp only [e1, e2, e3]
  ring

/-- **C71.** The declination never exceeds 25.1 degrees in magnitude, so its cosine is positive. -/
theorem C71_declination (doy : ℝ) : |declination doy| ≤ 251 / 10 ∧ 0 < cos (rad (declination doy)) := by
  have hb : |declination doy| ≤ 251 / 10 := by
    simp only [declination]
    generalize rad (360 / (36525 / 100) * (doy - 79346 / 1000)) = x
    rw [abs_le]
    constructor <;>
    linarith [neg_one_le_sin x, sin_le_one x, neg_one_le_cos x, cos_le_one x, neg_one_le_sin (2 * x),
      sin_le_one (2 * x), neg_one_le_cos (2 * x), cos_le_one (2 * x), neg_one_le_sin (3 * x),
      sin_le_one (3 * x), neg_one_le_cos (3 * x), cos_le_one (3 * x)]
  refine ⟨hb, cos_pos_of_mem_Ioo ⟨?_, ?_⟩⟩ <;> rw [abs_le] at hb <;> unfold rad <;> nlinarith [pi_pos]

/-- **C71.** At solar noon the sun is on the meridian, at a height given by the difference of latitude and
declination, to the south (positive second component) exactly if that difference is positive; before noon it is
in the east, after noon in the west; noon and midnight give the largest and smallest height of the day; the path
is symmetric about noon. -/
theorem C71_daily_path (lat dec : ℝ) (hl : |lat| ≤ 90) (hd : |dec| < 90) :
    sunVector lat 0 dec = (0, sin (rad (lat - dec)), cos (rad (lat - dec))) ∧
    (∀ ha, -180 < ha → ha < 0 → 0 < (sunVector lat ha dec).1) ∧
    (∀ ha, 0 < ha → ha < 180 → (sunVector lat ha dec).1 < 0) ∧
    (∀ ha, -cos (rad (lat + dec)) ≤ (sunVector lat ha dec).2.2 ∧
      (sunVector lat ha dec).2.2 ≤ (sunVector lat 0 dec).2.2) ∧
    (∀ ha, sunVector lat (-ha) dec =
      (-(sunVector lat ha dec).1, (sunVector lat ha dec).2.1, (sunVector lat ha dec).2.2)) := by
  have hp := pi_pos
  have hcd : 0 < cos (rad dec) := by
    rw [abs_lt] at hd
    refine cos_pos_of_mem_Ioo ⟨?_, ?_⟩ <;> unfold rad <;> nlinarith
  have hcl : 0 ≤ cos (rad lat) := by
    rw [abs_le] at hl
    refine cos_nonneg_of_mem_Icc ⟨?_, ?_⟩ <;> unfold rad <;> nlinarith
  have h0 : rad 0 = 0 := by simp [rad]
  have hsub : rad (lat - dec) = rad lat - rad dec := by unfold rad; ring
  have hadd : rad (lat + dec) = rad lat + rad dec := by unfold rad; ring
  have hneg : ∀ ha, rad (-ha) = -rad ha := fun ha => by unfold rad; ring
  refine ⟨?_, fun ha h1 h2 => ?_, fun ha h1 h2 => ?_, fun ha => ?_, fun ha => ?_⟩
  · simp only [sunVector, h0, hsub, sin_sub, cos_sub, sin_zero, cos_zero]
    refine Prod.ext ?_ (Prod.ext ?_ ?_) <;> simp only <;> ring
  · have : sin (rad ha) < 0 := sin_neg_of_neg_of_neg_pi_lt (by unfold rad; nlinarith) (by unfold rad; nlinarith)
    simp only [sunVector]; nlinarith
  · have : 0 < sin (rad ha) := sin_pos_of_pos_of_lt_pi (by unfold rad; positivity) (by unfold rad; nlinarith)
    simp only [sunVector]; nlinarith
  · have hm : 0 ≤ cos (rad lat) * cos (rad dec) := mul_nonneg hcl hcd.le
    simp only [sunVector, h0, hadd, cos_add, cos_zero]
    constructor <;> nlinarith [neg_one_le_cos (rad ha), cos_le_one (rad ha)]
  · simp only [sunVector, hneg, sin_neg, cos_neg]
    refine Prod.ext ?_ (Prod.ext rfl rfl); simp only; ring

example : |(47 : ℝ)| ≤ 90 ∧ |(23 : ℝ)| < 90 := by norm_num [abs_of_pos]

/-- **C71.** The sun counts as above the horizon exactly if its vector points upwards. -/
theorem C71_horizon (lat ha dec : ℝ) :
    sunOverHorizon (sunVector lat ha dec) ↔ 0 < (sunVector lat ha dec).2.2 := by
  have hp := pi_pos
  unfold sunOverHorizon zenith
  rw [← arccos_lt_pi_div_two, ← mul_div_assoc, div_lt_iff₀ hp]
  constructor <;> intro h <;> linarith

/-- **C71.** The hour angle advances 15 degrees per hour; the same instant of the same calendar day expressed in
another timezone gives the same hour angle; one degree of longitude is one degree of hour angle; a mean solar noon
on the meridian of the timezone is at 12:00; whole turns do not change the sun vector. -/
theorem C71_hour_angle (hour tz lon eot δ lat ha dec : ℝ) :
    hourAngle (hour + δ) tz lon eot = hourAngle hour tz lon eot + 15 * δ ∧
    hourAngle (hour + δ) (tz + δ) lon eot = hourAngle hour tz lon eot ∧
    hourAngle hour tz (lon + δ) eot = hourAngle hour tz lon eot + δ ∧
    hourAngle 12 tz (15 * tz) 0 = 0 ∧
    hourAngle hour tz lon (eot + δ) = hourAngle hour tz lon eot + δ / 4 ∧
    sunVector lat (ha + 360) dec = sunVector lat ha dec := by
  refine ⟨?_, ?_, ?_, ?_, ?_, ?_⟩
  any_goals simp only [hourAngle]; ring
  have : rad (ha + 360) = rad ha + 2 * π := by unfold rad; ring
  simp only [sunVector, this, sin_add_two_pi, cos_add_two_pi]

/-- **C71.** Equation of time and declination have a period of 365.25 days; at the beginning of the year the sun culminates
less than three minutes after noon, in spring (20 March, day 79.346) it is on the equator. -/
theorem C71_year (doy : ℝ) :
    equationOfTime (doy + 365.25) = equationOfTime doy ∧ declination (doy + 365.25) = declination doy ∧
    equationOfTime 1 = -(12739.5 / 1000000) * (720 / π) ∧ -3 < equationOfTime 1 ∧ equationOfTime 1 < -2.9 ∧
    declination 79.346 = 0 := by
  have h1 : equationOfTime 1 = -(12739.5 / 1000000) * (720 / π) := by
    simp only [equationOfTime, dayAngle]
    norm_num
    field_simp
    ring
  refine ⟨?_, ?_, h1, ?_, ?_, ?_⟩
  · have e : dayAngle (doy + 365.25) = dayAngle doy + 2 * π := by
      simp only [dayAngle]
      norm_num
      ring
    simp only [equationOfTime, e, mul_add]
    have e2 : 2 * dayAngle doy + 2 * (2 * π) = 2 * dayAngle doy + 2 * π + 2 * π := by ring
    rw [e2, cos_add_two_pi, sin_add_two_pi, cos_add_two_pi, sin_add_two_pi, cos_add_two_pi, sin_add_two_pi]
  · have e : rad (360 / (36525 / 100) * (doy + 365.25 - 79346 / 1000)) =
        rad (360 / (36525 / 100) * (doy - 79346 / 1000)) + 2 * π := by
      simp only [rad]
      norm_num
      ring
    simp only [declination, e]
    generalize rad (360 / (36525 / 100) * (doy - 79346 / 1000)) = x
    have e2 : 2 * (x + 2 * π) = 2 * x + 2 * π + 2 * π := by ring
    have e3 : 3 * (x + 2 * π) = 3 * x + 2 * π + 2 * π + 2 * π := by ring
    rw [e2, e3]
    simp only [cos_add_two_pi, sin_add_two_pi]
  · rw [h1]
    have := pi_gt_d2
    rw [neg_mul, neg_lt_neg_iff, mul_div_assoc', div_lt_iff₀ pi_pos]
    norm_num
    linarith
  · rw [h1]
    have := pi_lt_d2
    rw [neg_mul, neg_lt_neg_iff, mul_div_assoc', lt_div_iff₀ pi_pos]
    norm_num
    linarith
  · simp only [declination, rad]
    norm_num

/-- **C71.** Solar noon deviates from clock noon on the timezone's meridian by at most 21 minutes. -/
theorem C71_equation_of_time (doy : ℝ) : |equationOfTime doy| ≤ 21 := by
  simp only [equationOfTime]
  generalize dayAngle doy = x
  have hb : |75 / 10000000 + 1868 / 1000000 * cos x - 32077 / 1000000 * sin x -
      14615 / 1000000 * cos (2 * x) - 40849 / 1000000 * sin (2 * x)| ≤ (0.0895 : ℝ) := by
    rw [abs_le]
    constructor <;>
    linarith [neg_one_le_sin x, sin_le_one x, neg_one_le_cos x, cos_le_one x, neg_one_le_sin (2 * x),
      sin_le_one (2 * x), neg_one_le_cos (2 * x), cos_le_one (2 * x)]
  have hd := pi_gt_d2
  rw [abs_mul, abs_of_pos (by positivity)]
  calc 24 * 60 / (2 * π) * _ ≤ 24 * 60 / (2 * π) * (0.0895 : ℝ) := by gcongr
    _ ≤ 21 := by rw [div_mul_eq_mul_div, div_le_iff₀ (by positivity)]; nlinarith

/-- **C71.** The claims for the sun at a date and place: the sun's height over a day is bounded by its value at
hour angle zero, whatever the longitude and timezone. -/
theorem C71_sun_at (doy hour lon lat tz : ℝ) (hl : |lat| ≤ 90) :
    let v := sunAt doy hour lon lat tz
    v.1 ^ 2 + v.2.1 ^ 2 + v.2.2 ^ 2 = 1 ∧ v.2.2 ≤ cos (rad (lat - declination doy)) := by
  refine ⟨C71_unit _ _ _, ?_⟩
  have hd : |declination doy| < 90 := lt_of_le_of_lt (C71_declination doy).1 (by norm_num)
  obtain ⟨h0, -, -, h, -⟩ := C71_daily_path lat (declination doy) hl hd
  have := (h (hourAngle hour tz lon (equationOfTime doy))).2
  rw [h0] at this
  exact this

end Verif.Sun
