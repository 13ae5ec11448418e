import Verif.Props.Surface

/-!
# C151: the new surface temperature and what drives it

The specification speaks of the absorbed radiation, the temperatures of air and layer and the heat of evaporation;
the energy balance is the model of `surface.py:109-202`.
-/

namespace Verif.Surface
open Atmosphere Pixel

namespace Pixel

/-- Specification: radiation absorbed by the surface. -/
def absorbed (p : Pixel) : ℝ := (1 - p.albedo) * p.swIn + p.lwIn

/-- Distance of the temperature after an unconstrained step from any temperature `x`. -/
theorem dry_sub (p : Pixel) (h : Physical p) (x : ℝ) :
    (p.ts + p.dry.ts - x) * slope p p.avail (p.latHeat p.ts) p.ts =
      (p.absorbed - 99 / 100 * sigma * p.ts ^ 4 + 4 * sigma * p.ts ^ 3 * (p.ts - x)) +
      p.transfer * (cp * (p.temp - x) + p.latHeat p.ts * p.avail * (p.specHum - p.qsat p.ts +
        p.latHeat p.ts * p.qsat p.ts / (rv * p.ts ^ 2) * (p.ts - x))) +
      p.advHeat p.ts + 2 * p.layerCond / p.layerThick * (p.layerTemp - x) := by
  have hs := slope_pos h
  have d : p.dry.ts * slope p p.avail (p.latHeat p.ts) p.ts = surplus p p.avail (p.latHeat p.ts) p.ts := by
    rw [Pixel.dry, solve_eq, div_mul_cancel₀ _ hs.ne']; simp
  have : (p.ts + p.dry.ts - x) * slope p p.avail (p.latHeat p.ts) p.ts =
      surplus p p.avail (p.latHeat p.ts) p.ts + (p.ts - x) * slope p p.avail (p.latHeat p.ts) p.ts := by
    rw [← d]; ring
  rw [this]
  simp only [surplus, slope, absorbed, advHeat, transfer]
  ring

/-- Whatever the ice does, the surface ends at the temperature of the unconstrained step, or between it and the
melting point. -/
theorem balance_cases (p : Pixel) (h : Physical p) :
    p.energyBalance.ts = p.ts + p.dry.ts ∨ T0 ≤ p.energyBalance.ts ∧ p.energyBalance.ts ≤ p.ts + p.dry.ts := by
  by_cases hp : p.Partially
  · right
    rw [(C79_partial_melt p h hp).1]
    exact ⟨le_rfl, hp.1.1.le⟩
  · by_cases hm : p.Melts
    · right
      refine ⟨(C79_full_melt p h hm hp).2.1, ?_⟩
      have e : p.energyBalance.ts = p.ts + p.wet.ts := by
        simp only [energyBalance, if_neg hp, if_pos hm]; rfl
      have hl : (0 : ℝ) < lf := by norm_num [lf]
      have hi := sum_nonneg_of _ h.ice
      have hd := h.dt
      rw [e, Pixel.wet, Pixel.dry, solve_eq, solve_eq]
      have : surplus p p.avail (p.latHeat p.ts) p.ts - lf * p.ice.sum / p.dt ≤
          surplus p p.avail (p.latHeat p.ts) p.ts - lf * 0 / p.dt := by
        have : 0 ≤ lf * p.ice.sum / p.dt := by positivity
        simp only [mul_zero, zero_div, sub_zero]; linarith
      have := div_le_div_of_nonneg_right this (slope_pos h).le
      linarith
    · left
      simp only [energyBalance, if_neg hp, if_neg hm]; rfl

end Pixel

private theorem quartic (a t : ℝ) : 0 ≤ a ^ 4 + 3 * t ^ 4 - 4 * t ^ 3 * a := by
  have : a ^ 4 + 3 * t ^ 4 - 4 * t ^ 3 * a = (a - t) ^ 2 * ((a + t) ^ 2 + 2 * t ^ 2) := by ring
  rw [this]; positivity

private theorem le_of_scaled {p : Pixel} (h : Physical p) {x y : ℝ}
    (e : 0 ≤ (y - x) * slope p p.avail (p.latHeat p.ts) p.ts) : x ≤ y := by
  have hs := slope_pos h
  by_contra hc
  have := mul_neg_of_neg_of_pos (sub_neg.2 (not_le.1 hc)) hs
  linarith

/-- **C151, lower bound.** Without precipitation that cools the surface, it ends at no temperature below all of: its old
temperature, the layer below, the air less the cooling by evaporation, and the black body that emits what is absorbed,
unless the melting point is lower. Missing for the full claim: precipitation colder than the surface
(`C151_rain_false`). -/
theorem C151_lower_partial (p : Pixel) (h : Physical p) (a : ℝ) (hadv : 0 ≤ p.advHeat p.ts)
    (hts : a ≤ p.ts) (hlayer : a ≤ p.layerTemp) (hrad : sigma * a ^ 4 ≤ (1 - p.albedo) * p.swIn + p.lwIn)
    (hair : a ≤ p.temp - p.latHeat p.ts * p.avail * max 0 (p.qsat p.ts - p.specHum) / cp) :
    min a T0 ≤ p.energyBalance.ts := by
  have hdry : a ≤ p.ts + p.dry.ts := by
    apply le_of_scaled h
    rw [dry_sub p h]
    have h1 := avail_nonneg h
    have h2 := transfer_nonneg h
    have h3 := latHeat_pos h p.ts
    have hc := h.layerCond; have hth := h.layerThick; have ht := h.ts; have hq := h.qsat
    have hrv : (0 : ℝ) < rv := by norm_num [rv]
    have hcp : (0 : ℝ) < cp := by norm_num [cp]
    have hs : (0 : ℝ) < sigma := by norm_num [sigma]
    have hr : 0 ≤ p.absorbed - 99 / 100 * sigma * p.ts ^ 4 + 4 * sigma * p.ts ^ 3 * (p.ts - a) := by
      have hq4 := mul_nonneg hs.le (quartic a p.ts)
      have h4 : 0 ≤ sigma * p.ts ^ 4 := by positivity
      simp only [absorbed]
      nlinarith
    have hl : 0 ≤ 2 * p.layerCond / p.layerThick * (p.layerTemp - a) :=
      mul_nonneg (by positivity) (by linarith)
    have he : 0 ≤ cp * (p.temp - a) + p.latHeat p.ts * p.avail * (p.specHum - p.qsat p.ts +
        p.latHeat p.ts * p.qsat p.ts / (rv * p.ts ^ 2) * (p.ts - a)) := by
      have hx : p.latHeat p.ts * p.avail * max 0 (p.qsat p.ts - p.specHum) ≤ cp * (p.temp - a) := by
        have : p.latHeat p.ts * p.avail * max 0 (p.qsat p.ts - p.specHum) / cp ≤ p.temp - a := by linarith
        rw [div_le_iff₀ hcp] at this
        linarith
      have hd : 0 ≤ p.latHeat p.ts * p.qsat p.ts / (rv * p.ts ^ 2) * (p.ts - a) :=
        mul_nonneg (by positivity) (by linarith)
      have hm : p.qsat p.ts - p.specHum ≤ max 0 (p.qsat p.ts - p.specHum) := le_max_right _ _
      have hla : 0 ≤ p.latHeat p.ts * p.avail := by positivity
      have := mul_le_mul_of_nonneg_left hm hla
      have := mul_nonneg hla hd
      nlinarith
    have := mul_nonneg h2 he
    linarith
  rcases balance_cases p h with e | ⟨e, -⟩
  · rw [e]; exact (min_le_left _ _).trans hdry
  · exact (min_le_right _ _).trans e

/-- **C151, positivity.** With positive temperatures of surface, layer and air and positive radiation, the surface
temperature stays positive however strong the evaporation is, up to surface temperatures of several thousand kelvin;
again without precipitation that cools the surface. -/
theorem C151_positive_partial (p : Pixel) (h : Physical p) (hadv : 0 ≤ p.advHeat p.ts)
    (hlayer : 0 < p.layerTemp) (hrad : 0 < (1 - p.albedo) * p.swIn + p.lwIn) (hair : 0 < p.temp)
    (hum : 0 ≤ p.specHum) (hhot : rv * p.ts ≤ p.latVap) : 0 < p.energyBalance.ts := by
  have hT : (0 : ℝ) < T0 := by norm_num [T0]
  have hdry : 0 < p.ts + p.dry.ts := by
    have h1 := avail_nonneg h
    have h2 := transfer_nonneg h
    have h3 := latHeat_pos h p.ts
    have hc := h.layerCond; have hth := h.layerThick; have ht := h.ts; have hq := h.qsat
    have hrv : (0 : ℝ) < rv := by norm_num [rv]
    have hcp : (0 : ℝ) < cp := by norm_num [cp]
    have hs : (0 : ℝ) < sigma := by norm_num [sigma]
    have hpos : 0 < (p.ts + p.dry.ts - 0) * slope p p.avail (p.latHeat p.ts) p.ts := by
      rw [dry_sub p h]
      have hr : 0 < p.absorbed - 99 / 100 * sigma * p.ts ^ 4 + 4 * sigma * p.ts ^ 3 * (p.ts - 0) := by
        have h4 : 0 ≤ sigma * p.ts ^ 4 := by positivity
        simp only [absorbed]
        nlinarith
      have hl : 0 ≤ 2 * p.layerCond / p.layerThick * (p.layerTemp - 0) :=
        mul_nonneg (by positivity) (by linarith)
      have hlat : p.latVap ≤ p.latHeat p.ts := by
        unfold latHeat lf
        split_ifs <;> linarith
      have he : 0 ≤ cp * (p.temp - 0) + p.latHeat p.ts * p.avail * (p.specHum - p.qsat p.ts +
          p.latHeat p.ts * p.qsat p.ts / (rv * p.ts ^ 2) * (p.ts - 0)) := by
        have e : p.latHeat p.ts * p.qsat p.ts / (rv * p.ts ^ 2) * (p.ts - 0) =
            p.qsat p.ts * (p.latHeat p.ts / (rv * p.ts)) := by
          field_simp; ring
        have hone : 1 ≤ p.latHeat p.ts / (rv * p.ts) := by
          rw [one_le_div (by positivity)]; linarith
        rw [e]
        have := mul_le_mul_of_nonneg_left hone hq
        have hin : 0 ≤ p.specHum - p.qsat p.ts + p.qsat p.ts * (p.latHeat p.ts / (rv * p.ts)) := by linarith
        have : 0 ≤ cp * (p.temp - 0) := mul_nonneg hcp.le (by linarith)
        have : 0 ≤ p.latHeat p.ts * p.avail := by positivity
        positivity
      have := mul_nonneg h2 he
      linarith
    have := (mul_pos_iff_of_pos_right (slope_pos h)).1 hpos
    linarith
  rcases balance_cases p h with e | ⟨e, -⟩
  · rw [e]; exact hdry
  · exact hT.trans_le e

/-- **C151, upper bound.** Without precipitation that warms the surface, let `b` be at least the old surface temperature,
the temperatures of the layer and of the air (raised by the heat of condensation), and the temperature at which the
absorbed radiation is emitted. Then the surface ends above `b` by no more than an amount of second order in the
distance of the old temperature from `b`, and not at all if it started there. Missing for the full claim: the
overshoot is real (`C151_upper_false`). -/
theorem C151_upper_partial (p : Pixel) (h : Physical p) (b : ℝ)
    (hadv : p.advHeat p.ts ≤ 0)
    (hts : p.ts ≤ b) (hlayer : p.layerTemp ≤ b)
    (hrad : (1 - p.albedo) * p.swIn + p.lwIn ≤ 99 / 100 * sigma * b ^ 4)
    (hair : p.temp + p.latHeat p.ts * p.avail * max 0 (p.specHum - p.qsat p.ts) / cp ≤ b) :
    p.energyBalance.ts ≤ b + 3 / 2 * b ^ 2 * (b - p.ts) ^ 2 / p.ts ^ 3 := by
  have ht := h.ts
  have hdry : p.ts + p.dry.ts ≤ b + 3 / 2 * b ^ 2 * (b - p.ts) ^ 2 / p.ts ^ 3 := by
    have h1 := avail_nonneg h
    have h2 := transfer_nonneg h
    have h3 := latHeat_pos h p.ts
    have hc := h.layerCond; have hth := h.layerThick; have hq := h.qsat
    have hrv : (0 : ℝ) < rv := by norm_num [rv]
    have hcp : (0 : ℝ) < cp := by norm_num [cp]
    have hs : (0 : ℝ) < sigma := by norm_num [sigma]
    have hb : 0 < b := ht.trans_le hts
    have hr : p.absorbed - 99 / 100 * sigma * p.ts ^ 4 + 4 * sigma * p.ts ^ 3 * (p.ts - b) ≤
        sigma * (6 * b ^ 2 * (b - p.ts) ^ 2) := by
      have hp4 : p.ts ^ 4 ≤ b ^ 4 := pow_le_pow_left₀ ht.le hts 4
      have hid : b ^ 4 + 3 * p.ts ^ 4 - 4 * p.ts ^ 3 * b = (b - p.ts) ^ 2 * (b ^ 2 + 2 * b * p.ts + 3 * p.ts ^ 2) := by
        ring
      have hle : b ^ 2 + 2 * b * p.ts + 3 * p.ts ^ 2 ≤ 6 * b ^ 2 := by nlinarith
      have hq4 : b ^ 4 + 3 * p.ts ^ 4 - 4 * p.ts ^ 3 * b ≤ 6 * b ^ 2 * (b - p.ts) ^ 2 := by
        rw [hid]
        have := mul_le_mul_of_nonneg_left hle (sq_nonneg (b - p.ts))
        linarith
      have k1 := mul_le_mul_of_nonneg_left hq4 hs.le
      have k2 := mul_le_mul_of_nonneg_left hp4 hs.le
      simp only [absorbed]
      nlinarith
    have hl : 2 * p.layerCond / p.layerThick * (p.layerTemp - b) ≤ 0 :=
      mul_nonpos_of_nonneg_of_nonpos (by positivity) (by linarith)
    have he : cp * (p.temp - b) + p.latHeat p.ts * p.avail * (p.specHum - p.qsat p.ts +
        p.latHeat p.ts * p.qsat p.ts / (rv * p.ts ^ 2) * (p.ts - b)) ≤ 0 := by
      have hx : p.latHeat p.ts * p.avail * max 0 (p.specHum - p.qsat p.ts) ≤ cp * (b - p.temp) := by
        have : p.latHeat p.ts * p.avail * max 0 (p.specHum - p.qsat p.ts) / cp ≤ b - p.temp := by linarith
        rw [div_le_iff₀ hcp] at this
        linarith
      have hd : p.latHeat p.ts * p.qsat p.ts / (rv * p.ts ^ 2) * (p.ts - b) ≤ 0 :=
        mul_nonpos_of_nonneg_of_nonpos (by positivity) (by linarith)
      have hm : p.specHum - p.qsat p.ts ≤ max 0 (p.specHum - p.qsat p.ts) := le_max_right _ _
      have hla : 0 ≤ p.latHeat p.ts * p.avail := by positivity
      have := mul_le_mul_of_nonneg_left hm hla
      have := mul_nonpos_of_nonneg_of_nonpos hla hd
      nlinarith
    have k := mul_nonpos_of_nonneg_of_nonpos h2 he
    have key : (p.ts + p.dry.ts - b) * slope p p.avail (p.latHeat p.ts) p.ts ≤
        sigma * (6 * b ^ 2 * (b - p.ts) ^ 2) := by
      rw [dry_sub p h]; linarith
    have hsl : 4 * sigma * p.ts ^ 3 ≤ slope p p.avail (p.latHeat p.ts) p.ts := by
      have : 0 ≤ p.density * p.exch * p.wind := h2
      unfold slope
      have : 0 ≤ (cp + p.latHeat p.ts * p.avail * (p.latHeat p.ts * p.qsat p.ts / (rv * p.ts ^ 2))) *
        (p.density * p.exch * p.wind) := by positivity
      have : 0 ≤ 2 * p.layerCond / p.layerThick := by positivity
      linarith
    rcases le_total (p.ts + p.dry.ts) b with hle | hge
    · have : 0 ≤ 3 / 2 * b ^ 2 * (b - p.ts) ^ 2 / p.ts ^ 3 := by positivity
      linarith
    · have h5 := (mul_le_mul_of_nonneg_left hsl (sub_nonneg.2 hge)).trans key
      have h6 : p.ts + p.dry.ts - b ≤ 3 / 2 * b ^ 2 * (b - p.ts) ^ 2 / p.ts ^ 3 := by
        rw [le_div_iff₀ (by positivity)]
        have : sigma * (4 * ((p.ts + p.dry.ts - b) * p.ts ^ 3)) ≤ sigma * (6 * b ^ 2 * (b - p.ts) ^ 2) := by
          linarith
        have := le_of_mul_le_mul_left this hs
        linarith
      linarith
  rcases balance_cases p h with e | ⟨-, e⟩
  · rw [e]; exact hdry
  · exact e.trans hdry

/-! ## Witnesses -/

/-- Bare ground of low conductivity before sunrise: everything at 250 K. -/
noncomputable def dawn : Pixel where
  dt := 10800
  swIn := 1000
  lwIn := 250
  albedo := 1 / 5
  temp := 250
  wetBulb := 249
  specHum := 0
  rain := 0
  snow := 0
  wind := 0
  density := 1
  exch := 1 / 1000
  latVap := 2500000
  gs := 0
  swe := 0
  ice := []
  ts := 250
  layerTemp := 250
  layerCond := 1 / 10
  layerThick := 1 / 10
  qsat := fun _ => 0

theorem dawn_physical : Physical dawn := by
  constructor <;> norm_num [dawn]

/-- A warm, calm surface on which heavy cold rain falls. -/
noncomputable def shower : Pixel :=
  { dawn with temp := 280, ts := 300, layerTemp := 290, swIn := 0, lwIn := 400, rain := 100, wetBulb := 280 }

theorem shower_physical : Physical shower := by
  constructor <;> norm_num [shower, dawn]

private theorem no_ice {p : Pixel} (hi : p.ice = []) : p.energyBalance.ts = p.ts + p.dry.ts := by
  have hm : ¬ p.Melts := fun hm => by have := hm.2; simp [ice0, hi] at this
  have hp : ¬ p.Partially := fun hp => hm hp.1
  simp only [energyBalance, if_neg hp, if_neg hm]; rfl

/-- **C151 is false for the upper bound.** With sunshine on ground of low conductivity at 250 K, in calm air of 250 K,
the surface ends above 370 K, although it emits at 370 K more than it absorbs, and nothing else is warmer than
250 K. -/
theorem C151_upper_false : Physical dawn ∧
    (1 - dawn.albedo) * dawn.swIn + dawn.lwIn < 99 / 100 * sigma * (370 : ℝ) ^ 4 ∧
    dawn.temp = 250 ∧ dawn.ts = 250 ∧ dawn.layerTemp = 250 ∧ dawn.specHum ≤ dawn.qsat dawn.ts ∧
    dawn.advHeat dawn.ts = 0 ∧ 370 < dawn.energyBalance.ts := by
  refine ⟨dawn_physical, by norm_num [dawn, sigma], rfl, rfl, rfl, by norm_num [dawn], by norm_num [dawn, advHeat], ?_⟩
  rw [no_ice rfl, Pixel.dry, solve_eq, slope, surplus]
  norm_num [dawn, sigma, cp, rv, lf, cWater, cIce, avail, latHeat, T0, ice0]

/-- **C151 is false for the lower bound with heavy rain.** The surface ends colder than the rain, the air, the layer
below, and the radiative equilibrium. -/
theorem C151_rain_false : Physical shower ∧
    sigma * (280 : ℝ) ^ 4 < (1 - shower.albedo) * shower.swIn + shower.lwIn ∧
    shower.temp = 280 ∧ shower.wetBulb = 280 ∧ shower.ts = 300 ∧ shower.layerTemp = 290 ∧
    shower.qsat shower.ts ≤ shower.specHum ∧ shower.energyBalance.ts < 280 := by
  refine ⟨shower_physical, by norm_num [shower, dawn, sigma], rfl, rfl, rfl, rfl, by norm_num [shower, dawn], ?_⟩
  rw [no_ice rfl, Pixel.dry, solve_eq, slope, surplus]
  norm_num [shower, dawn, sigma, cp, rv, lf, cWater, cIce, avail, latHeat, T0, ice0]

/-! ## Examples -/

/-- An evaporating surface in wind, cooled from 290 K: all hypotheses hold, and the step stays between 281 and 291 K. -/
noncomputable def evening : Pixel :=
  { dawn with
    temp := 285, ts := 290, layerTemp := 288, swIn := 0, lwIn := 380, wind := 3, gs := 1 / 100,
    specHum := 1 / 1000, qsat := fun _ => 2 / 1000 }

theorem evening_physical : Physical evening := by
  constructor <;> norm_num [evening, dawn]

example : min 280 T0 ≤ evening.energyBalance.ts ∧ 0 < evening.energyBalance.ts ∧
    evening.energyBalance.ts ≤ 290 := by
  have ha : evening.advHeat evening.ts = 0 := by norm_num [evening, dawn, advHeat]
  refine ⟨C151_lower_partial evening evening_physical 280 ha.ge ?_ ?_ ?_ ?_,
    C151_positive_partial evening evening_physical ha.ge ?_ ?_ ?_ ?_ ?_,
    (C151_upper_partial evening evening_physical 290 ha.le ?_ ?_ ?_ ?_).trans ?_⟩ <;>
  norm_num [evening, dawn, sigma, latHeat, avail, T0, lf, cp, ice0, rv]
