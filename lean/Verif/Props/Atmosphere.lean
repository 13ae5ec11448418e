import Verif.Model.Atmosphere
import Mathlib.Tactic.Linarith
import Mathlib.Tactic.NormNum
import Mathlib.Tactic.FieldSimp
import Mathlib.Tactic.Ring
import Mathlib.Tactic.Positivity

/-!
# C60-C63, C66: atmospheric formulas
-/

namespace Verif.Atmosphere

/-! ## Lemmas on the Magnus formula -/

theorem Over.a_pos (o : Over) : 0 < o.a := by cases o <;> norm_num [Over.a]
theorem Over.b_pos (o : Over) : 0 < o.b := by cases o <;> norm_num [Over.b]
theorem Over.c_pos (o : Over) : 0 < o.c := by cases o <;> norm_num [Over.c]

/-- The rational exponent is strictly increasing above the pole. -/
theorem magnus_lt (o : Over) {x y : ℝ} (hx : 0 < o.c + x) (hxy : x < y) :
    o.b * x / (o.c + x) < o.b * y / (o.c + y) := by
  have hy : 0 < o.c + y := by linarith
  rw [div_lt_div_iff₀ hx hy]
  have := o.b_pos
  have := o.c_pos
  nlinarith [mul_pos o.b_pos o.c_pos]

theorem svpOver_some (o : Over) {t : ℝ} (h : 0 < o.c + (t - T0)) :
    svpOver o t = some (o.a * Real.exp (o.b * (t - T0) / (o.c + (t - T0)))) := by
  simp only [svpOver]
  rw [if_neg h.ne']

/-- **C60.** Saturation vapor pressure is positive wherever defined. -/
theorem C60_svp_pos (t : ℝ) : (∀ o e, svpOver o t = some e → 0 < e) ∧ ∀ e, svp t = some e → 0 < e := by
  have h : ∀ o e, svpOver o t = some e → 0 < e := by
    intro o e he
    simp only [svpOver] at he
    split_ifs at he
    cases he
    exact mul_pos o.a_pos (Real.exp_pos _)
  exact ⟨h, fun e he => h _ e he⟩

/-- **C60.** Saturation vapor pressure is strictly increasing in temperature above the poles of the
Magnus formula (0.71 K over ice, 38.97 K over water), also across the switch of coefficients at the
melting point. -/
theorem C60_svp_strictMono (t u : ℝ) (htu : t < u) :
    (∀ o : Over, 0 < o.c + (t - T0) → ∃ e f, svpOver o t = some e ∧ svpOver o u = some f ∧ e < f) ∧
    (71 / 100 < t → ∃ e f, svp t = some e ∧ svp u = some f ∧ e < f) := by
  have hov : ∀ o : Over, 0 < o.c + (t - T0) →
      ∃ e f, svpOver o t = some e ∧ svpOver o u = some f ∧ e < f := by
    intro o h
    refine ⟨_, _, svpOver_some o h, svpOver_some o (by linarith), ?_⟩
    apply mul_lt_mul_of_pos_left _ o.a_pos
    exact Real.exp_lt_exp.mpr (magnus_lt o h (by linarith))
  refine ⟨hov, fun ht => ?_⟩
  have hT : T0 = 27315 / 100 := rfl
  by_cases h1 : 0 ≤ t - T0
  · have h2 : 0 ≤ u - T0 := by linarith
    simp only [svp, if_pos h1, if_pos h2]
    apply hov
    have := Over.water.c_pos
    linarith
  · have hice : 0 < Over.ice.c + (t - T0) := by
      simp only [Over.c, hT]; linarith
    by_cases h2 : 0 ≤ u - T0
    · simp only [svp, if_neg h1, if_pos h2]
      have hw : 0 < Over.water.c + (u - T0) := by have := Over.water.c_pos; linarith
      refine ⟨_, _, svpOver_some _ hice, svpOver_some _ hw, ?_⟩
      have e1 : Over.ice.b * (t - T0) / (Over.ice.c + (t - T0)) ≤ 0 :=
        div_nonpos_of_nonpos_of_nonneg
          (mul_nonpos_of_nonneg_of_nonpos Over.ice.b_pos.le (by linarith)) hice.le
      have e2 : 0 ≤ Over.water.b * (u - T0) / (Over.water.c + (u - T0)) :=
        div_nonneg (mul_nonneg Over.water.b_pos.le h2) hw.le
      have f1 := Real.exp_le_one_iff.mpr e1
      have f2 := Real.one_le_exp e2
      have g1 : Over.ice.a * Real.exp (Over.ice.b * (t - T0) / (Over.ice.c + (t - T0))) ≤ Over.ice.a :=
        mul_le_of_le_one_right Over.ice.a_pos.le f1
      have g2 : Over.water.a ≤
          Over.water.a * Real.exp (Over.water.b * (u - T0) / (Over.water.c + (u - T0))) :=
        le_mul_of_one_le_right Over.water.a_pos.le f2
      have : Over.ice.a < Over.water.a := by norm_num [Over.a]
      linarith
    · simp only [svp, if_neg h1, if_neg h2]
      exact hov _ hice

theorem dewOfRatio_spec {q : ℝ} (hq : 0 < q) (hL : Real.log q < Over.water.b) :
    ∃ td, dewOfRatio q = some td ∧ 0 < Over.water.c + (td - T0) ∧
      Over.water.b * (td - T0) / (Over.water.c + (td - T0)) = Real.log q := by
  have hden : 0 < Over.water.b - Real.log q := by linarith
  refine ⟨_, if_neg (by push Not; exact ⟨hq, hden.ne'⟩), ?_, ?_⟩
  · rw [add_sub_cancel_right]
    have : Over.water.c + Over.water.c * Real.log q / (Over.water.b - Real.log q) =
        Over.water.c * Over.water.b / (Over.water.b - Real.log q) := by
      field_simp; ring
    rw [this]
    exact div_pos (mul_pos Over.water.c_pos Over.water.b_pos) hden
  · rw [add_sub_cancel_right]
    have : Over.water.c + Over.water.c * Real.log q / (Over.water.b - Real.log q) =
        Over.water.c * Over.water.b / (Over.water.b - Real.log q) := by
      field_simp; ring
    rw [this]
    have hc := Over.water.c_pos.ne'
    have hb := Over.water.b_pos.ne'
    field_simp

/-- **C60.** For temperatures above the pole of the Magnus formula (38.97 K) and humidities in
(0, 100] the dew point is defined, converting back gives the humidity, and the dew point is at most the
temperature with equality exactly at saturation. -/
theorem C60_dew_point (t rh : ℝ) (ht : T0 - 23418 / 100 < t) (h0 : 0 < rh) (h1 : rh ≤ 100) :
    ∃ td, dewPoint t rh = some td ∧ rhFromDew t td = some rh ∧ td ≤ t ∧ (td = t ↔ rh = 100) := by
  have hpos : 0 < Over.water.c + (t - T0) := by simp only [Over.c]; linarith
  have hs := svpOver_some .water hpos
  obtain ⟨m, hm⟩ : ∃ m, Over.water.b * (t - T0) / (Over.water.c + (t - T0)) = m := ⟨_, rfl⟩
  rw [hm] at hs
  have hmlt : m < Over.water.b := by
    rw [← hm, div_lt_iff₀ hpos]
    have := mul_pos Over.water.b_pos Over.water.c_pos
    nlinarith
  obtain ⟨q, hq⟩ : ∃ q, Over.water.a * Real.exp m * rh / 100 / Over.water.a = q := ⟨_, rfl⟩
  have ha := Over.water.a_pos
  have hq' : q = Real.exp m * (rh / 100) := by rw [← hq]; field_simp
  have hqpos : 0 < q := by rw [hq']; positivity
  have hlog : Real.log q = m + Real.log (rh / 100) := by
    rw [hq', Real.log_mul (Real.exp_pos _).ne' (by positivity), Real.log_exp]
  have hlr : Real.log (rh / 100) ≤ 0 := Real.log_nonpos (by positivity) (by linarith)
  obtain ⟨td, e1, e2, e3⟩ := dewOfRatio_spec hqpos (by rw [hlog]; linarith)
  have hmono : ∀ x, 0 < Over.water.c + (x - T0) →
      (Over.water.b * (x - T0) / (Over.water.c + (x - T0)) ≤ m → x ≤ t) ∧
      (Over.water.b * (x - T0) / (Over.water.c + (x - T0)) = m → x = t) := by
    intro x hx
    constructor
    · intro h
      by_contra hlt
      push Not at hlt
      have := magnus_lt .water hpos (show t - T0 < x - T0 by linarith)
      rw [hm] at this
      linarith
    · intro h
      rcases lt_trichotomy x t with hlt | he | hlt
      · have := magnus_lt .water hx (show x - T0 < t - T0 by linarith)
        rw [hm, h] at this
        exact absurd this (lt_irrefl _)
      · exact he
      · have := magnus_lt .water hpos (show t - T0 < x - T0 by linarith)
        rw [hm, h] at this
        exact absurd this (lt_irrefl _)
  refine ⟨td, ?_, ?_, ?_, ?_⟩
  · simp only [dewPoint, hs, Option.bind_some, hq, e1]
  · simp only [rhFromDew, svpOver_some .water e2, e3, hs, Option.bind_some, Option.map_some,
      Option.some.injEq, hlog]
    rw [← hlog, Real.exp_log hqpos, hq']
    field_simp
  · exact (hmono td e2).1 (by rw [e3, hlog]; linarith)
  · constructor
    · intro h
      rw [h, hm, hlog] at e3
      have : Real.log (rh / 100) = 0 := by linarith
      have h4 := Real.eq_one_of_pos_of_log_eq_zero (by positivity : 0 < rh / 100) this
      linarith
    · intro h
      apply (hmono td e2).2
      rw [e3, hlog, h]
      norm_num

/-- **C60.** At a humidity of 0 the dew point is missing. -/
theorem C60_dew_point_dry (t rh : ℝ) (h : rh ≤ 0) : dewPoint t rh = none := by
  unfold dewPoint
  cases hs : svpOver .water t with
  | none => rfl
  | some s =>
    have hp := (C60_svp_pos t).1 .water s hs
    simp only [Option.bind_some, dewOfRatio]
    rw [if_pos]
    left
    apply div_nonpos_of_nonpos_of_nonneg _ Over.water.a_pos.le
    apply div_nonpos_of_nonpos_of_nonneg _ (by norm_num)
    exact mul_nonpos_of_nonneg_of_nonpos hp.le h

/-- **C60.** Absolute and relative humidity are converted into each other without loss. -/
theorem C60_absolute (t rh e ah : ℝ) (he : vaporPressure t rh = some e)
    (hah : absoluteHumidity t e = some ah) : relativeHumidity t ah = some rh := by
  unfold vaporPressure at he
  cases hs : svp t with
  | none => rw [hs] at he; cases he
  | some s =>
    rw [hs] at he
    simp only [Option.map_some, Option.some.injEq] at he
    have hp := (C60_svp_pos t).2 s hs
    simp only [absoluteHumidity] at hah
    split_ifs at hah with h0
    simp only [Option.some.injEq] at hah
    simp only [relativeHumidity, hs, Option.map_some, Option.some.injEq]
    rw [← hah, ← he, mul_div_cancel₀ _ h0]
    field_simp

/-- The round trip is defined for every temperature above 0.71 K. -/
example (t rh : ℝ) (ht : 71 / 100 < t) :
    ∃ e ah, vaporPressure t rh = some e ∧ absoluteHumidity t e = some ah := by
  obtain ⟨e, f, he, -⟩ := (C60_svp_strictMono t (t + 1) (by linarith)).2 ht
  have hr : rv * t ≠ 0 := by
    have : (0 : ℝ) < rv := by norm_num [rv]
    have : 0 < rv * t := mul_pos this (by linarith)
    exact this.ne'
  exact ⟨e * rh / 100, e * rh / 100 / (rv * t), by rw [vaporPressure, he]; rfl,
    by rw [absoluteHumidity, if_neg hr]⟩

/-- **C60.** Specific humidity is 0 for dry air, in [0, 1] and increasing in vapor pressure up to
atmospheric pressure. -/
theorem C60_specific (p e f : ℝ) (hp : 0 < p) (h0 : 0 ≤ e) (hef : e ≤ f) (hf : f ≤ p) :
    ∃ q r, specificHumidity p e = some q ∧ specificHumidity p f = some r ∧ 0 ≤ q ∧ q ≤ r ∧ r ≤ 1 := by
  have d1 : 0 < p - 378 / 1000 * e := by linarith
  have d2 : 0 < p - 378 / 1000 * f := by linarith
  refine ⟨_, _, if_neg d1.ne', if_neg d2.ne', by positivity, ?_, ?_⟩
  · rw [div_le_div_iff₀ d1 d2]
    nlinarith
  · rw [div_le_one d2]
    linarith

/-! ## C61 -/

theorem expo_pos : 0 < expo := by norm_num [expo, cp, molar, gasConst]

theorem P0_pos : 0 < P0 := by norm_num [P0]

theorem scale_pos : 0 < cp * tSea := by norm_num [cp, tSea, T0]

theorem grav_pos : 0 < grav := by norm_num [grav]

/-- Elevation of the top of the profile. -/
noncomputable def top : ℝ := cp * tSea / grav

theorem base_nonneg_iff (z : ℝ) : 0 ≤ 1 - grav * z / (cp * tSea) ↔ z ≤ top := by
  unfold top
  rw [le_div_iff₀ grav_pos, sub_nonneg, div_le_one scale_pos, mul_comm]

/-- **C61.** Pressure is defined exactly up to the top of the profile, where it is 0. -/
theorem C61_defined (z : ℝ) : (∃ p, pressure z = some p) ↔ z ≤ top := by
  rw [← base_nonneg_iff]
  simp only [pressure]
  split_ifs with h
  · simpa using sub_neg.mp h
  · simpa using h

/-- **C61.** Altitude from pressure inverts pressure from altitude. -/
theorem C61_altitude_pressure (z p : ℝ) (h : pressure z = some p) : altitude p = some z := by
  simp only [pressure] at h
  split_ifs at h with hb
  push Not at hb
  simp only [Option.some.injEq] at h
  have hq : p / P0 = (1 - grav * z / (cp * tSea)) ^ expo := by
    rw [← h]; field_simp [P0_pos.ne']
  have hnn : 0 ≤ p / P0 := by rw [hq]; exact Real.rpow_nonneg hb _
  simp only [altitude]
  rw [if_neg (not_lt.mpr hnn), hq, ← Real.rpow_mul hb, mul_one_div_cancel expo_pos.ne', Real.rpow_one]
  congr 1
  have := scale_pos.ne'
  have := grav_pos.ne'
  have hc : cp ≠ 0 := by norm_num [cp]
  have ht : tSea ≠ 0 := by norm_num [tSea, T0]
  field_simp
  ring

/-- **C61.** Pressure from altitude inverts altitude from pressure for every non-negative pressure. -/
theorem C61_pressure_altitude (p : ℝ) (hp : 0 ≤ p) :
    ∃ z, altitude p = some z ∧ pressure z = some p := by
  have hnn : 0 ≤ p / P0 := div_nonneg hp P0_pos.le
  refine ⟨_, if_neg (not_lt.mpr hnn), ?_⟩
  have hc : cp ≠ 0 := by norm_num [cp]
  have ht : tSea ≠ 0 := by norm_num [tSea, T0]
  have hg := grav_pos.ne'
  have e : 1 - grav * ((1 - (p / P0) ^ (1 / expo)) * cp * tSea / grav) / (cp * tSea) =
      (p / P0) ^ (1 / expo) := by
    field_simp
    ring
  simp only [pressure, e]
  rw [if_neg (not_lt.mpr (Real.rpow_nonneg hnn _)), ← Real.rpow_mul hnn,
    one_div_mul_cancel expo_pos.ne', Real.rpow_one]
  congr 1
  field_simp [P0_pos.ne']

/-- **C61.** Pressure strictly decreases with elevation and is 101325 Pa at sea level. -/
theorem C61_antitone (z w : ℝ) (hzw : z < w) (hw : w ≤ top) :
    (∃ p q, pressure z = some p ∧ pressure w = some q ∧ q < p ∧ 0 ≤ q) ∧ pressure 0 = some 101325 := by
  have b1 := (base_nonneg_iff w).mpr hw
  have b2 := (base_nonneg_iff z).mpr (by linarith)
  refine ⟨⟨_, _, if_neg (not_lt.mpr b2), if_neg (not_lt.mpr b1), ?_, ?_⟩, ?_⟩
  · apply mul_lt_mul_of_pos_left _ P0_pos
    apply Real.rpow_lt_rpow b1 _ expo_pos
    have : grav * z / (cp * tSea) < grav * w / (cp * tSea) :=
      div_lt_div_of_pos_right (mul_lt_mul_of_pos_left hzw grav_pos) scale_pos
    linarith
  · exact mul_nonneg P0_pos.le (Real.rpow_nonneg b1 _)
  · simp only [pressure, mul_zero, zero_div, sub_zero, Real.one_rpow, mul_one]
    rw [if_neg (by norm_num)]
    rfl

/-- Every elevation on Earth is below the top of the profile. -/
example : (8849 : ℝ) ≤ top := by
  norm_num [top, cp, tSea, T0, grav]

/-! ## C62 -/

theorem fmod_mem (x m : ℝ) (hm : 0 < m) : 0 ≤ fmod x m ∧ fmod x m < m := by
  unfold fmod
  have h1 := Int.floor_le (x / m)
  have h2 := Int.lt_floor_add_one (x / m)
  rw [le_div_iff₀ hm] at h1
  rw [div_lt_iff₀ hm] at h2
  constructor <;> nlinarith

theorem fmod_add_int (x m : ℝ) (hm : 0 < m) (n : ℤ) : fmod (x + m * n) m = fmod x m := by
  unfold fmod
  have : (x + m * n) / m = x / m + n := by field_simp
  rw [this, Int.floor_add_intCast]
  push_cast
  ring

/-- **C62.** The speed is never negative, the direction always in [0, 360). -/
theorem C62_range (u v : ℝ) : 0 ≤ (windFromUv u v).1 ∧ 0 ≤ (windFromUv u v).2 ∧ (windFromUv u v).2 < 360 :=
  ⟨Real.sqrt_nonneg _, fmod_mem _ _ (by norm_num)⟩

/-- **C62.** Conversion to components and back keeps a positive speed and the direction modulo 360. -/
theorem C62_round_trip (ws wd : ℝ) (h : 0 < ws) :
    windFromUv (windToUv ws wd).1 (windToUv ws wd).2 = (ws, fmod wd 360) := by
  obtain ⟨θ, hθ⟩ : ∃ θ, wd * (Real.pi / 180) = θ := ⟨_, rfl⟩
  have hpi := Real.pi_pos
  simp only [windToUv, hθ, windFromUv]
  rw [Prod.mk.injEq]
  constructor
  · have : (-ws * Real.sin θ) ^ 2 + (-ws * Real.cos θ) ^ 2 = ws ^ 2 := by
      have := Real.sin_sq_add_cos_sq θ
      linear_combination ws ^ 2 * this
    rw [this, Real.sqrt_sq h.le]
  · have hz : (⟨-ws * Real.sin θ, -ws * Real.cos θ⟩ : ℂ) =
        (ws : ℂ) * (Complex.cos ((-(Real.pi / 2) - θ : ℝ) : ℂ) +
          Complex.sin ((-(Real.pi / 2) - θ : ℝ) : ℂ) * Complex.I) := by
      rw [← Complex.ofReal_cos, ← Complex.ofReal_sin]
      have hc : Real.cos (-(Real.pi / 2) - θ) = -Real.sin θ := by
        rw [show -(Real.pi / 2) - θ = -(θ + Real.pi / 2) by ring, Real.cos_neg,
          Real.cos_add_pi_div_two]
      have hs : Real.sin (-(Real.pi / 2) - θ) = -Real.cos θ := by
        rw [show -(Real.pi / 2) - θ = -(θ + Real.pi / 2) by ring, Real.sin_neg,
          Real.sin_add_pi_div_two]
      rw [hc, hs]
      apply Complex.ext <;> simp [-Complex.ofReal_sin, -Complex.ofReal_cos]
    rw [hz, Complex.arg_mul_cos_add_sin_mul_I_eq_toIocMod h]
    obtain ⟨n, hn⟩ : ∃ n : ℤ, toIocMod Real.two_pi_pos (-Real.pi) (-(Real.pi / 2) - θ) =
        -(Real.pi / 2) - θ - n * (2 * Real.pi) := by
      refine ⟨toIocDiv Real.two_pi_pos (-Real.pi) (-(Real.pi / 2) - θ), ?_⟩
      rw [toIocMod, zsmul_eq_mul]
    rw [hn]
    have e : 270 - (-(Real.pi / 2) - θ - n * (2 * Real.pi)) * (180 / Real.pi) =
        wd + 360 * ((n + 1 : ℤ) : ℝ) := by
      rw [← hθ]
      push_cast
      field_simp
      ring
    rw [e, fmod_add_int _ _ (by norm_num)]

/-- **C62.** Calm wind has no direction: it comes back as 270 degrees. -/
theorem C62_calm_false (wd : ℝ) : windFromUv (windToUv 0 wd).1 (windToUv 0 wd).2 = (0, 270) := by
  have h0 : (⟨0, 0⟩ : ℂ) = 0 := rfl
  have hf : fmod 270 360 = 270 := by
    unfold fmod
    rw [show ⌊(270 / 360 : ℝ)⌋ = 0 by rw [Int.floor_eq_iff]; norm_num]
    norm_num
  simp [windToUv, windFromUv, h0, hf]

/-- **C62.** The components are those of a vector of the given length. -/
theorem C62_length (ws wd : ℝ) : (windToUv ws wd).1 ^ 2 + (windToUv ws wd).2 ^ 2 = ws ^ 2 := by
  have := Real.sin_sq_add_cos_sq (wd * (Real.pi / 180))
  simp only [windToUv]
  linear_combination ws ^ 2 * this

/-! ## C63 -/

theorem clip_mem (lo hi x : ℝ) (h : lo ≤ hi) : lo ≤ clip lo hi x ∧ clip lo hi x ≤ hi :=
  ⟨le_min h (le_max_left _ _), min_le_left _ _⟩

theorem clip_of_mem {lo hi x : ℝ} (h1 : lo ≤ x) (h2 : x ≤ hi) : clip lo hi x = x := by
  unfold clip
  rw [max_eq_right h1, min_eq_right h2]

theorem clip_mono (lo hi : ℝ) {x y : ℝ} (h : x ≤ y) : clip lo hi x ≤ clip lo hi y :=
  min_le_min_left _ (max_le_max_left _ h)

/-- **C63.** The cloud factor is in [0, 1], 1 for a clear sky, 0.352 for overcast conditions, and
non-increasing in a non-negative cloud fraction. -/
theorem C63_factor (f g : ℝ) (h0 : 0 ≤ f) (hfg : f ≤ g) :
    0 ≤ cloudFactor f ∧ cloudFactor f ≤ 1 ∧ cloudFactor g ≤ cloudFactor f ∧
    cloudFactor 0 = 1 ∧ cloudFactor 1 = 352 / 1000 := by
  have := clip_mem 0 1 (1 - 233 / 1000 * f - 415 / 1000 * f ^ 2) (by norm_num)
  refine ⟨this.1, this.2, ?_, ?_, ?_⟩
  · apply clip_mono
    nlinarith
  · unfold cloudFactor; norm_num [clip]
  · unfold cloudFactor; norm_num [clip]

/-- **C63.** The cloud fraction is in [0, 1] wherever defined (factors up to 1.0327). -/
theorem C63_fraction (x f : ℝ) (h : cloudFraction x = some f) : 0 ≤ f ∧ f ≤ 1 := by
  simp only [cloudFraction] at h
  split_ifs at h
  cases h
  exact clip_mem _ _ _ (by norm_num)

/-- **C63.** The cloud fraction is defined and non-increasing for factors up to 1. -/
theorem C63_fraction_antitone (x y : ℝ) (hxy : x ≤ y) (hy : y ≤ 1) :
    ∃ f g, cloudFraction x = some f ∧ cloudFraction y = some g ∧ g ≤ f := by
  have d : ∀ z : ℝ, z ≤ 1 → ¬ ((-(233 / 1000 : ℝ)) ^ 2 - 4 * (-(415 / 1000)) * (1 - z) < 0) := by
    intro z hz
    nlinarith
  refine ⟨_, _, if_neg (d x (by linarith)), if_neg (d y hy), ?_⟩
  apply clip_mono
  have hs : Real.sqrt ((-(233 / 1000 : ℝ)) ^ 2 - 4 * (-(415 / 1000)) * (1 - y)) ≤
      Real.sqrt ((-(233 / 1000 : ℝ)) ^ 2 - 4 * (-(415 / 1000)) * (1 - x)) := by
    apply Real.sqrt_le_sqrt
    nlinarith
  apply div_le_div_of_nonpos_of_le (by norm_num)
  linarith

/-- **C63.** The conversions are inverse to each other: fractions in [0, 1] come back exactly. -/
theorem C63_round_trip (f : ℝ) (h0 : 0 ≤ f) (h1 : f ≤ 1) :
    cloudFraction (cloudFactor f) = some f := by
  have hc : cloudFactor f = 1 - 233 / 1000 * f - 415 / 1000 * f ^ 2 := by
    apply clip_of_mem <;> nlinarith
  have hd : (-(233 / 1000 : ℝ)) ^ 2 - 4 * (-(415 / 1000)) * (1 - (1 - 233 / 1000 * f - 415 / 1000 * f ^ 2)) =
      (233 / 1000 + 830 / 1000 * f) ^ 2 := by ring
  simp only [cloudFraction, hc, hd]
  rw [if_neg (not_lt.mpr (sq_nonneg _)), Real.sqrt_sq (by linarith)]
  congr 1
  rw [show (- -(233 / 1000 : ℝ) - (233 / 1000 + 830 / 1000 * f)) / (2 * -(415 / 1000)) = f by ring]
  exact clip_of_mem h0 h1

/-- **C63.** Factors in [0.352, 1] come back exactly; smaller ones give a fraction of 1. -/
theorem C63_round_trip' (x : ℝ) (h1 : x ≤ 1) :
    ∃ f, cloudFraction x = some f ∧ (352 / 1000 ≤ x → cloudFactor f = x) ∧ (x ≤ 352 / 1000 → f = 1) := by
  have hd0 : 0 ≤ (-(233 / 1000 : ℝ)) ^ 2 - 4 * (-(415 / 1000)) * (1 - x) := by nlinarith
  obtain ⟨s, hs⟩ : ∃ s, Real.sqrt ((-(233 / 1000 : ℝ)) ^ 2 - 4 * (-(415 / 1000)) * (1 - x)) = s :=
    ⟨_, rfl⟩
  have hs0 : 0 ≤ s := by rw [← hs]; exact Real.sqrt_nonneg _
  have hsq : s ^ 2 = (-(233 / 1000 : ℝ)) ^ 2 - 4 * (-(415 / 1000)) * (1 - x) := by
    rw [← hs, Real.sq_sqrt hd0]
  refine ⟨_, if_neg (not_lt.mpr hd0), ?_, ?_⟩
  · intro hx
    rw [hs]
    have hs1 : s ≤ 1063 / 1000 := by
      apply abs_le_of_sq_le_sq' _ (by norm_num) |>.2
      rw [hsq]; nlinarith
    have hs2 : 233 / 1000 ≤ s := by
      by_contra hlt
      push Not at hlt
      nlinarith
    have hf : (- -(233 / 1000 : ℝ) - s) / (2 * -(415 / 1000)) = (s - 233 / 1000) / (830 / 1000) := by
      ring
    rw [hf, clip_of_mem (by apply div_nonneg <;> linarith) (by rw [div_le_one (by norm_num)]; linarith)]
    unfold cloudFactor
    have e : 1 - 233 / 1000 * ((s - 233 / 1000) / (830 / 1000)) -
        415 / 1000 * ((s - 233 / 1000) / (830 / 1000)) ^ 2 = x := by
      linear_combination (-(415 / 1000) / (830 / 1000) ^ 2) * hsq
    rw [e]
    exact clip_of_mem (by linarith) h1
  · intro hx
    rw [hs]
    have hs1 : 1063 / 1000 ≤ s := by
      by_contra hlt
      push Not at hlt
      nlinarith
    have hf : (- -(233 / 1000 : ℝ) - s) / (2 * -(415 / 1000)) = (s - 233 / 1000) / (830 / 1000) := by
      ring
    rw [hf]
    unfold clip
    have h1 : 1 ≤ (s - 233 / 1000) / (830 / 1000) := by rw [le_div_iff₀ (by norm_num)]; linarith
    exact min_eq_left (le_max_of_le_right h1)

/-- **C63.** The humidity-based cloud fraction is in [0, 1]. -/
theorem C63_humidity (temp rh elev tl tdl level sat ef f : ℝ)
    (h : cloudFractionHumidity temp rh elev tl tdl level sat ef = some f) : 0 ≤ f ∧ f ≤ 1 := by
  simp only [cloudFractionHumidity, Option.bind_eq_some_iff, Option.map_eq_some_iff] at h
  obtain ⟨_, _, _, _, _, _, _, _, rfl⟩ := h
  exact clip_mem _ _ _ (by norm_num)

/-- **C63.** Emissivity of the clear sky is in [0, 1) for non-negative precipitable water. -/
theorem C63_emissivity (w : ℝ) (h : 0 ≤ w) : 0 ≤ clearSkyEmissivity w ∧ clearSkyEmissivity w < 1 := by
  unfold clearSkyEmissivity
  have hx : 0 ≤ w / 10 := by positivity
  obtain ⟨x, hx'⟩ : ∃ x, w / 10 = x := ⟨_, rfl⟩
  rw [hx'] at hx ⊢
  constructor
  · -- `1 + x ≤ exp (sqrt (1.2 + 3x))`
    have hs0 := Real.sqrt_nonneg (12 / 10 + 3 * x)
    have hsq := Real.sq_sqrt (show 0 ≤ 12 / 10 + 3 * x by positivity)
    obtain ⟨s, hs⟩ : ∃ s, Real.sqrt (12 / 10 + 3 * x) = s := ⟨_, rfl⟩
    rw [hs] at hs0 hsq ⊢
    have hq := Real.quadratic_le_exp_of_nonneg hs0
    have h1 : 1 + x ≤ Real.exp s := by nlinarith
    rw [Real.exp_neg, sub_nonneg, ← div_eq_mul_inv, div_le_one (Real.exp_pos _)]
    exact h1
  · have : 0 < (1 + x) * Real.exp (-Real.sqrt (12 / 10 + 3 * x)) :=
      mul_pos (by linarith) (Real.exp_pos _)
    linarith

example : cloudFactor (1 / 2) = 77975 / 100000 := by
  unfold cloudFactor
  rw [clip_of_mem] <;> norm_num

/-! ## Wet-bulb temperature -/

/-- The psychrometric residual decreases strictly with slope at least the psychrometric constant. -/
theorem vpDiff_lt (temp e psych x y fx fy : ℝ) (hxy : x < y) (hx0 : 71 / 100 < x)
    (hx : vpDiff temp x e psych = some fx) (hy : vpDiff temp y e psych = some fy) :
    fy < fx - psych * (y - x) := by
  obtain ⟨s, s', h1, h2, h3⟩ := (C60_svp_strictMono x y hxy).2 hx0
  simp only [vpDiff, h1, h2, Option.map_some, Option.some.injEq] at hx hy
  rw [← hx, ← hy]
  linarith

/-- **C66.** When the iteration ends with a value, the last secant step — between two temperatures for
which the psychrometric residual was evaluated — is at most the tolerance. -/
theorem C66_last_step (temp e psych tol : ℝ) (n : ℕ) (x0 x1 y0 y1 r : ℝ)
    (h0 : vpDiff temp x0 e psych = some y0) (h1 : vpDiff temp x1 e psych = some y1)
    (h : wetBulbIter temp e psych tol n x0 x1 y0 y1 = some (some r)) :
    ∃ x y z, vpDiff temp x e psych = some y ∧ vpDiff temp r e psych = some z ∧ z - y ≠ 0 ∧
      |(r - x) / (z - y) * z| ≤ tol := by
  induction n generalizing x0 x1 y0 y1 with
  | zero => cases h
  | succ n ih =>
    simp only [wetBulbIter] at h
    by_cases hz : y1 - y0 = 0
    · rw [if_pos hz] at h; cases h
    · rw [if_neg hz] at h
      by_cases hd : |(x1 - x0) / (y1 - y0) * y1| ≤ tol
      · rw [if_pos hd] at h
        cases h
        exact ⟨x0, y0, y1, h0, h1, hz, hd⟩
      · rw [if_neg hd] at h
        cases hv : vpDiff temp (x1 - (x1 - x0) / (y1 - y0) * y1) e psych with
        | none => rw [hv] at h; cases h
        | some y => rw [hv] at h; exact ih _ _ _ _ h1 hv h

/-- **C66.** The psychrometric equation has at most one solution, and any temperature at which the
residual is small is close to it. -/
theorem C66_unique (temp e psych w r z : ℝ) (hp : 0 < psych) (hw0 : 71 / 100 < w) (hr0 : 71 / 100 < r)
    (hw : vpDiff temp w e psych = some 0) (hr : vpDiff temp r e psych = some z) :
    psych * |r - w| ≤ |z| ∧ (z = 0 → r = w) := by
  have key : psych * |r - w| ≤ |z| := by
    rcases lt_trichotomy r w with h | h | h
    · have := vpDiff_lt temp e psych r w z 0 h hr0 hr hw
      rw [abs_of_neg (by linarith : r - w < 0)]
      have hz : 0 < z := by nlinarith
      rw [abs_of_pos hz]
      linarith
    · rw [h]; simp
    · have := vpDiff_lt temp e psych w r 0 z h hw0 hw hr
      rw [abs_of_pos (by linarith : 0 < r - w)]
      have hz : z < 0 := by nlinarith
      rw [abs_of_neg hz]
      linarith
  refine ⟨key, ?_⟩
  rintro rfl
  rw [abs_zero] at key
  have h0 : |r - w| ≤ 0 := by
    by_contra hlt
    push Not at hlt
    nlinarith
  exact sub_eq_zero.mp (abs_eq_zero.mp (le_antisymm h0 (abs_nonneg _)))

/-- **C66.** In saturated air the wet-bulb temperature is the air temperature (after one evaluation),
whatever the psychrometric constant. -/
theorem C66_saturated (temp e psych : ℝ) (n : ℕ) (ht : 1071 / 100 < temp) (hp : 0 ≤ psych)
    (he : vaporPressure temp 100 = some e) : wetBulb (n + 1) temp e psych = some (some temp) := by
  obtain ⟨s, s', h1, h2, h3⟩ := (C60_svp_strictMono (temp - 10) temp (by linarith)).2 (by linarith)
  simp only [vaporPressure, h2, Option.map_some, Option.some.injEq] at he
  have he' : e = s' := by rw [← he]; ring
  simp only [wetBulb, vpDiff, h1, h2, Option.map_some, wetBulbIter]
  have hy1 : e - (s' - psych * (temp - temp)) = 0 := by rw [he']; ring
  have hy0 : e - (s - psych * (temp - (temp - 10))) > 0 := by rw [he']; nlinarith
  rw [hy1, if_neg (by linarith), if_pos (by norm_num)]

/-- **C66.** In unsaturated air the true wet-bulb temperature lies below the air temperature and not
below the temperature at which the air would be saturated (`d` with saturation vapor pressure `e`). -/
theorem C66_bounds (temp e psych w d s : ℝ) (hp : 0 < psych) (hw0 : 71 / 100 < w)
    (ht0 : 71 / 100 < temp) (hw : vpDiff temp w e psych = some 0) (hs : svp temp = some s)
    (hes : e ≤ s) (hd : svp d = some e) : w ≤ temp ∧ d ≤ w := by
  have hwT : w ≤ temp := by
    by_contra h
    push Not at h
    have hv : vpDiff temp temp e psych = some (e - s) := by
      simp only [vpDiff, hs, Option.map_some, Option.some.injEq]; ring
    have := vpDiff_lt temp e psych temp w _ 0 h ht0 hv hw
    nlinarith
  refine ⟨hwT, ?_⟩
  by_contra h
  push Not at h
  have hv : vpDiff temp d e psych = some (psych * (temp - d)) := by
    simp only [vpDiff, hd, Option.map_some, Option.some.injEq]; ring
  have h1 := vpDiff_lt temp e psych w d 0 _ h hw0 hw hv
  nlinarith

/-- Air of 10 °C with the vapor pressure of saturated air: the hypotheses of `C66_saturated` hold. -/
example : ∃ e, vaporPressure 283 100 = some e := by
  obtain ⟨s, _, h, -⟩ := (C60_svp_strictMono 283 284 (by norm_num)).2 (by norm_num)
  exact ⟨s * 100 / 100, by rw [vaporPressure, h]; rfl⟩

end Verif.Atmosphere
