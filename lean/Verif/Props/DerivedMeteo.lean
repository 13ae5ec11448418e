import Verif.Model.DerivedMeteo
import Verif.Props.Atmosphere
import Verif.Props.AirDensity
import Verif.Props.Conventions
import Mathlib.Analysis.Complex.ExponentialBounds

/-!
# C105: derived meteorological variables
-/

namespace Verif.DerivedMeteo

open Verif.Atmosphere
open Verif.Canopy hiding T0

/-- Air pressure up to 9000 m. -/
theorem pressure_low (elev : ℝ) (h : elev ≤ 9000) : ∃ p, pressure elev = some p ∧ 22000 < p := by
  have hb : 69 / 100 ≤ 1 - grav * elev / (cp * tSea) := by
    have hs := scale_pos
    have : grav * elev / (cp * tSea) ≤ 31 / 100 := by
      rw [div_le_iff₀ hs]
      have : grav * elev ≤ grav * 9000 := mul_le_mul_of_nonneg_left h grav_pos.le
      refine this.trans ?_
      norm_num [grav, cp, tSea, T0]
    linarith
  refine ⟨_, if_neg (not_lt.mpr (by linarith)), ?_⟩
  have hexp : expo ≤ 4 := by norm_num [expo, cp, molar, gasConst]
  have h1 : (69 / 100 : ℝ) ^ expo ≤ (1 - grav * elev / (cp * tSea)) ^ expo :=
    Real.rpow_le_rpow (by norm_num) hb expo_pos.le
  have h2 : (69 / 100 : ℝ) ^ (4 : ℝ) ≤ (69 / 100 : ℝ) ^ expo :=
    Real.rpow_le_rpow_of_exponent_ge (by norm_num) (by norm_num) hexp
  have h3 : (69 / 100 : ℝ) ^ (4 : ℝ) = (69 / 100 : ℝ) ^ (4 : ℕ) := by
    rw [← Real.rpow_natCast]
    norm_num
  have h4 : (22 / 100 : ℝ) ≤ (69 / 100 : ℝ) ^ (4 : ℕ) := by norm_num
  have h5 : (22 / 100 : ℝ) ≤ (1 - grav * elev / (cp * tSea)) ^ expo := by linarith
  have : P0 * (22 / 100) ≤ P0 * (1 - grav * elev / (cp * tSea)) ^ expo :=
    mul_le_mul_of_nonneg_left h5 P0_pos.le
  have h6 : (22000 : ℝ) < P0 * (22 / 100) := by norm_num [P0]
  linarith

/-- Saturation vapor pressure up to 50 °C. -/
theorem svp_high (temp : ℝ) (h0 : 71 / 100 < temp) (h : temp ≤ T0 + 50) :
    ∃ s, svp temp = some s ∧ 0 < s ∧ s < 21000 := by
  have hmax : ∃ s, svp (T0 + 50) = some s ∧ s < 21000 := by
    have hc : (0 : ℝ) < Over.water.c + ((T0 + 50) - T0) := by norm_num [Over.c, T0]
    unfold svp
    rw [if_pos (by norm_num [T0]), svpOver_some _ hc]
    refine ⟨_, rfl, ?_⟩
    have he : Over.water.b * (T0 + 50 - T0) / (Over.water.c + (T0 + 50 - T0)) ≤ 7 / 2 := by
      norm_num [Over.b, Over.c, T0]
    have h1 : Real.exp (Over.water.b * (T0 + 50 - T0) / (Over.water.c + (T0 + 50 - T0))) ≤
        Real.exp (7 / 2) := Real.exp_le_exp.mpr he
    have h2 : Real.exp (7 / 2) * Real.exp (7 / 2) = Real.exp 1 ^ 7 := by
      rw [← Real.exp_add, ← Real.exp_nat_mul]
      norm_num
    have h3 : Real.exp 1 ^ 7 < (2.7182818286 : ℝ) ^ 7 :=
      pow_lt_pow_left₀ Real.exp_one_lt_d9 (Real.exp_pos 1).le (by norm_num)
    have h4 : (2.7182818286 : ℝ) ^ 7 < 34 * 34 := by norm_num
    have h5 : Real.exp (7 / 2) < 34 := by
      by_contra hcon
      push Not at hcon
      nlinarith [Real.exp_pos (7 / 2 : ℝ)]
    have : Over.water.a = 61078 / 100 := rfl
    rw [this]
    nlinarith
  obtain ⟨s, hs, hlt⟩ := hmax
  rcases eq_or_lt_of_le h with heq | hlt'
  · rw [heq]
    exact ⟨s, hs, (C60_svp_pos _).2 _ hs, hlt⟩
  · obtain ⟨e, f, he, hf, hef⟩ := (C60_svp_strictMono temp (T0 + 50) hlt').2 h0
    rw [hs, Option.some.injEq] at hf
    exact ⟨e, he, (C60_svp_pos _).2 _ he, by rw [← hf] at hef; linarith⟩

/-- **C105 (consistency).** For temperatures from 0.71 K to 50 °C, humidities from 0 to 100 % and elevations up
to 9000 m all derived variables except for wet-bulb temperature and dew point are defined, and consistent. -/
theorem C105_consistent (fuel : ℕ) (elev temp rh : ℝ) (hz : elev ≤ 9000) (h0 : 71 / 100 < temp)
    (h1 : temp ≤ T0 + 50) (hr0 : 0 ≤ rh) (hr1 : rh ≤ 100) :
    ∃ p s e q c l g w r, (process fuel elev temp rh).press = some p ∧ (process fuel elev temp rh).sat = some s ∧
      (process fuel elev temp rh).vap = some e ∧ (process fuel elev temp rh).spec = some q ∧
      (process fuel elev temp rh).cap = some c ∧ (process fuel elev temp rh).lat = some l ∧
      (process fuel elev temp rh).psych = some g ∧ (process fuel elev temp rh).pw = some w ∧
      (process fuel elev temp rh).dens = some r ∧
      0 ≤ e ∧ e ≤ s ∧ s < p ∧ (e = s ↔ rh = 100) ∧ (e = 0 ↔ rh = 0) ∧ 0 ≤ q ∧ q < 1 ∧
      100468506 / 100000 ≤ c ∧ 0 < l ∧ 0 < g ∧ 0 ≤ w ∧ 0 < r := by
  obtain ⟨p, hp, hp1⟩ := pressure_low elev hz
  obtain ⟨s, hs, hs0, hs1⟩ := svp_high temp h0 h1
  have ht : temp ≠ 0 := by intro hc; rw [hc] at h0; norm_num at h0
  have htp : 0 < temp := by linarith
  have he : vaporPressure temp rh = some (s * rh / 100) := by simp [vaporPressure, hs]
  have he0 : 0 ≤ s * rh / 100 := by positivity
  have hes : s * rh / 100 ≤ s := by
    rw [div_le_iff₀ (by norm_num)]
    nlinarith
  obtain ⟨q, r', hq, hr', hq0, hqr, hr1'⟩ := C60_specific p (s * rh / 100) s (by linarith) he0 hes
    (by linarith)
  have hq1 : q < 1 := by
    have hd : p - 378 / 1000 * (s * rh / 100) ≠ 0 := by nlinarith
    simp only [specificHumidity, if_neg hd, Option.some.injEq] at hq
    rw [← hq, div_lt_one (by nlinarith)]
    nlinarith
  have hT : temp ≤ 1000 := by
    have : T0 + 50 ≤ 1000 := by norm_num [T0]
    linarith
  have hl := (C83_latent_heat temp temp).2.2.2.1 hT
  have hg := (C83_psychrometric p p q q temp temp (by linarith) hq0 hT).1
  refine ⟨p, s, s * rh / 100, q, moistHeatCap q, latentHeat temp,
    psychrometric p (moistHeatCap q) (latentHeat temp), precipitableWater temp (s * rh / 100),
    modelDensity temp p, hp, hs, he, ?_, ?_, rfl, ?_, ?_, ?_, he0, hes, by linarith, ?_, ?_, hq0, hq1, ?_, hl, hg,
    ?_, ?_⟩
  · simp [process, hp, he, hq]
  · simp [process, hp, he, hq]
  · simp [process, hp, he, hq, hl.ne']
  · simp [process, he, ht]
  · simp [process, hp, ht]
  · constructor
    · intro h
      have : s * (rh - 100) = 0 := by linarith
      rcases mul_eq_zero.mp this with h | h <;> linarith
    · rintro rfl; linarith
  · constructor
    · intro h
      have : s * rh = 0 := by linarith
      rcases mul_eq_zero.mp this with h | h <;> linarith
    · rintro rfl; simp
  · have := (C83_moist_air q).1
    rw [this, (C83_moist_air q).2]
    nlinarith
  · unfold precipitableWater
    positivity
  · unfold modelDensity
    have : 0 < rDry := by norm_num [rDry]
    have : 0 < p := by linarith
    positivity

/-- Ratio of the Magnus formulas over water and ice below freezing. -/
theorem magnus_ratio {x y : ℝ} (hx : -70 ≤ x) (hxy : x ≤ y) (hy : y ≤ 0) :
    Over.water.b * y / (Over.water.c + y) - Over.water.b * x / (Over.water.c + x) ≤
      Over.ice.b * y / (Over.ice.c + y) - Over.ice.b * x / (Over.ice.c + x) := by
  simp only [Over.b, Over.c]
  have a1 : (0 : ℝ) < 23418 / 100 + x := by linarith
  have a2 : (0 : ℝ) < 23418 / 100 + y := by linarith
  have a3 : (0 : ℝ) < 27244 / 100 + x := by linarith
  have a4 : (0 : ℝ) < 27244 / 100 + y := by linarith
  have e1 : (1708 / 100 : ℝ) * y / (23418 / 100 + y) - 1708 / 100 * x / (23418 / 100 + x) =
      (1708 / 100 * (23418 / 100)) * (y - x) / ((23418 / 100 + x) * (23418 / 100 + y)) := by
    rw [div_sub_div _ _ a2.ne' a1.ne', div_eq_div_iff (by positivity) (by positivity)]
    ring
  have e2 : (2244 / 100 : ℝ) * y / (27244 / 100 + y) - 2244 / 100 * x / (27244 / 100 + x) =
      (2244 / 100 * (27244 / 100)) * (y - x) / ((27244 / 100 + x) * (27244 / 100 + y)) := by
    rw [div_sub_div _ _ a4.ne' a3.ne', div_eq_div_iff (by positivity) (by positivity)]
    ring
  rw [e1, e2, div_le_div_iff₀ (by positivity) (by positivity)]
  have hk : (1708 / 100 * (23418 / 100) : ℝ) * ((27244 / 100 + x) * (27244 / 100 + y)) ≤
      (2244 / 100 * (27244 / 100)) * ((23418 / 100 + x) * (23418 / 100 + y)) := by
    nlinarith [mul_nonneg (by linarith : (0 : ℝ) ≤ x + 70) (by linarith : (0 : ℝ) ≤ y + 70),
      mul_nonneg (by linarith : (0 : ℝ) ≤ x + 70) (by linarith : (0 : ℝ) ≤ -y),
      mul_nonneg (by linarith : (0 : ℝ) ≤ -x) (by linarith : (0 : ℝ) ≤ y + 70),
      mul_nonneg (by linarith : (0 : ℝ) ≤ -x) (by linarith : (0 : ℝ) ≤ -y)]
  nlinarith [mul_le_mul_of_nonneg_right hk (by linarith : (0 : ℝ) ≤ y - x)]

/-- **C105 (dew point, wet-bulb temperature, temperature).** The dew point is not above a wet-bulb temperature
(solution of the psychrometric equation with the vapor pressure and psychrometric constant of the pixel), which
is not above the air temperature, for dew points above -70 °C. -/
theorem C105_dew_wet (temp rh e psych td w : ℝ) (hr0 : 0 < rh) (hr1 : rh ≤ 100)
    (htd : dewPoint temp rh = some td) (hlow : T0 - 70 < td) (ht : T0 - 100 < temp)
    (he : vaporPressure temp rh = some e) (hp : 0 < psych) (hw0 : 71 / 100 < w)
    (hw : vpDiff temp w e psych = some 0) : td ≤ w ∧ w ≤ temp := by
  have hT : T0 = 27315 / 100 := rfl
  have hwc : Over.water.c = 23418 / 100 := rfl
  have hic : Over.ice.c = 27244 / 100 := rfl
  obtain ⟨td', htd', hback, hle, -⟩ := C60_dew_point temp rh (by linarith) hr0 hr1
  rw [htd, Option.some.injEq] at htd'
  subst htd'
  have hcw : (0 : ℝ) < Over.water.c + (temp - T0) := by rw [hwc]; linarith
  have hcd : (0 : ℝ) < Over.water.c + (td - T0) := by rw [hwc]; linarith
  have hci : (0 : ℝ) < Over.ice.c + (temp - T0) := by rw [hic]; linarith
  have hcid : (0 : ℝ) < Over.ice.c + (td - T0) := by rw [hic]; linarith
  have hb := hback
  simp only [rhFromDew, svpOver_some _ hcw, svpOver_some _ hcd, Option.bind_some, Option.map_some,
    Option.some.injEq] at hb
  set W : ℝ := Over.water.a * Real.exp (Over.water.b * (temp - T0) / (Over.water.c + (temp - T0))) with hW
  set D : ℝ := Over.water.a * Real.exp (Over.water.b * (td - T0) / (Over.water.c + (td - T0))) with hD
  have hWpos : 0 < W := mul_pos (Over.a_pos _) (Real.exp_pos _)
  have hDW : D = W * rh / 100 := by
    rw [div_eq_iff hWpos.ne'] at hb
    linarith
  -- saturation vapor pressure at the dew point is at most the vapor pressure
  have hsd : ∃ s, svp td = some s ∧ s ≤ e := by
    by_cases hpos : 0 ≤ temp - T0
    · have hes : e = D := by
        simp only [vaporPressure, svp, if_pos hpos, svpOver_some _ hcw, Option.map_some,
          Option.some.injEq] at he
        rw [hDW, ← he]
      by_cases hdp : 0 ≤ td - T0
      · refine ⟨D, ?_, hes.ge⟩
        simp only [svp, if_pos hdp, svpOver_some _ hcd, hD]
      · push Not at hdp
        obtain ⟨-, i, w', hi, hw', hlt, hsv⟩ := C60_reference td (by linarith) (by linarith)
        rw [svpOver_some _ hcd, Option.some.injEq] at hw'
        refine ⟨i, hsv, ?_⟩
        rw [hes, hD, hw']
        exact hlt.le
    · push Not at hpos
      have hes : e = Over.ice.a * Real.exp (Over.ice.b * (temp - T0) / (Over.ice.c + (temp - T0))) * rh / 100 := by
        simp only [vaporPressure, svp, if_neg (not_le.mpr hpos), svpOver_some _ hci, Option.map_some,
          Option.some.injEq] at he
        rw [← he]
      have hdn : ¬ 0 ≤ td - T0 := by push Not; linarith
      refine ⟨Over.ice.a * Real.exp (Over.ice.b * (td - T0) / (Over.ice.c + (td - T0))), ?_, ?_⟩
      · simp only [svp, if_neg hdn, svpOver_some _ hcid]
      · have hratio := magnus_ratio (x := td - T0) (y := temp - T0) (by linarith) (by linarith) hpos.le
        set wt := Over.water.b * (temp - T0) / (Over.water.c + (temp - T0))
        set wd := Over.water.b * (td - T0) / (Over.water.c + (td - T0))
        set it := Over.ice.b * (temp - T0) / (Over.ice.c + (temp - T0))
        set id' := Over.ice.b * (td - T0) / (Over.ice.c + (td - T0))
        have hrh : rh / 100 = Real.exp (wd - wt) := by
          have hx : Over.water.a * Real.exp wd = Over.water.a * Real.exp wt * (rh / 100) := by
            have : D = W * rh / 100 := hDW
            rw [hD, hW] at this
            linarith
          rw [Real.exp_sub, eq_div_iff (Real.exp_pos _).ne']
          have ha := Over.a_pos .water
          have := mul_left_cancel₀ ha.ne' (by linarith : Over.water.a * Real.exp wd =
            Over.water.a * (Real.exp wt * (rh / 100)))
          linarith
        have : Over.ice.a * Real.exp it * rh / 100 = Over.ice.a * Real.exp (it + (wd - wt)) := by
          rw [Real.exp_add, ← hrh]
          ring
        rw [hes, this]
        apply mul_le_mul_of_nonneg_left _ (Over.a_pos _).le
        exact Real.exp_le_exp.mpr (by linarith)
  obtain ⟨s, hs, hse⟩ := hsd
  constructor
  · by_contra hcon
    push Not at hcon
    have hF : vpDiff temp td e psych = some (e - (s - psych * (temp - td))) := by simp [vpDiff, hs]
    have := vpDiff_lt temp e psych w td 0 _ hcon hw0 hw hF
    nlinarith [mul_nonneg hp.le (by linarith : (0 : ℝ) ≤ temp - td)]
  · by_contra hcon
    push Not at hcon
    have ht71 : 71 / 100 < temp := by linarith
    obtain ⟨f, g, hf, hg, hfg⟩ := (C60_svp_strictMono temp w hcon).2 ht71
    have hF : vpDiff temp temp e psych = some (e - f) := by simp [vpDiff, hf]
    have := vpDiff_lt temp e psych temp w _ 0 hcon ht71 hF hw
    have hef : e ≤ f := by
      simp only [vaporPressure, hf, Option.map_some, Option.some.injEq] at he
      have hf0 := (C60_svp_pos _).2 _ hf
      rw [← he, div_le_iff₀ (by norm_num)]
      nlinarith
    nlinarith [mul_pos hp (by linarith : (0 : ℝ) < w - temp)]

/-- **C105 (dew point and wet-bulb temperature of a pixel).** The dew point calculated for a pixel reproduces its
relative humidity; dew point, wet-bulb temperature (as solution of the psychrometric equation of the pixel's vapor
pressure and psychrometric constant) and temperature are in this order; and the calculated wet-bulb temperature is an
iterate for this equation whose next step is at most 0.01 K. -/
theorem C105_pixel (fuel : ℕ) (elev temp rh : ℝ) (hr0 : 0 < rh) (hr1 : rh ≤ 100) (ht : T0 - 100 < temp) :
    (∃ td, (process fuel elev temp rh).dew = some td ∧ rhFromDew temp td = some rh ∧ td ≤ temp) ∧
    (∀ td e g w, (process fuel elev temp rh).dew = some td → (process fuel elev temp rh).vap = some e →
      (process fuel elev temp rh).psych = some g → T0 - 70 < td → 0 < g → 71 / 100 < w →
      vpDiff temp w e g = some 0 → td ≤ w ∧ w ≤ temp) ∧
    ∀ r, (process fuel elev temp rh).wet = some (some r) →
      ∃ e g x y z, (process fuel elev temp rh).vap = some e ∧ (process fuel elev temp rh).psych = some g ∧
        vpDiff temp x e g = some y ∧ vpDiff temp r e g = some z ∧ z - y ≠ 0 ∧
        |(r - x) / (z - y) * z| ≤ 1 / 100 := by
  refine ⟨?_, ?_, ?_⟩
  · obtain ⟨td, h1, h2, h3, -⟩ := C60_dew_point temp rh (by linarith) hr0 hr1
    exact ⟨td, h1, h2, h3⟩
  · intro td e g w h1 h2 _ h4 h5 h6 h7
    exact C105_dew_wet temp rh e g td w hr0 hr1 h1 h4 ht h2 h5 h6 h7
  · intro r hr
    simp only [process] at hr ⊢
    split at hr
    · rename_i e g he hg
      obtain ⟨x, y, z, h⟩ := Verif.Atmosphere.C66_tolerance fuel temp e g r hr
      exact ⟨e, g, x, y, z, he, hg, h⟩
    · exact absurd hr (by simp)

/-- Specification: the derived variables belong to a temperature and humidity. -/
def Belongs (fuel : ℕ) (elev : ℝ) (m : Met × Derived) : Prop :=
  m.2.sat = svp m.1.temp ∧ m.2.vap = vaporPressure m.1.temp m.1.relHum ∧
    m.2.lat = some (latentHeat m.1.temp) ∧ m.2 = process fuel elev m.1.temp m.1.relHum

/-- **C105 (open areas).** Outside of forests the snow model sees derived variables that belong to the
temperature and humidity it sees. -/
theorem C105_open (fuel : ℕ) (elev : ℝ) (m : Met) : Belongs fuel elev (seen fuel elev none m) :=
  ⟨rfl, rfl, rfl, rfl⟩

/-- **C105 fails in forests**: the derived variables belong to the temperature and humidity inside of the canopy
only if the canopy does not change the temperature. -/
theorem C105_forest_false (fuel : ℕ) (elev : ℝ) (c : MetCfg) (lai mean24 : ℝ) (m : Met)
    (hne : (metStep c lai mean24 m).temp ≠ m.temp) :
    ¬ Belongs fuel elev (seen fuel elev (some (c, lai, mean24)) m) := by
  rintro ⟨-, -, h, -⟩
  simp only [seen, process, Option.some.injEq, latentHeat] at h
  exact hne (by linarith)

/-- Such a pixel: effective leaf area index 1, 280 K, mean of 24 h 270 K. -/
theorem C105_forest_witness (m : Met) (hm : m.temp = 280) :
    (metStep ⟨71 / 100, 8 / 10, 9 / 10⟩ 1 270 m).temp ≠ m.temp := by
  have hcf : canopyFrac 1 = 55 / 100 := by
    unfold canopyFrac
    rw [if_neg (by norm_num), Real.log_one]
    norm_num
  simp only [metStep, hcf, hm]
  norm_num [Canopy.T0]

/-- Non-vacuity of the ranges. -/
example : (2000 : ℝ) ≤ 9000 ∧ (71 / 100 : ℝ) < 270 ∧ (270 : ℝ) ≤ T0 + 50 ∧ (0 : ℝ) ≤ 60 ∧ (60 : ℝ) ≤ 100 := by
  norm_num [T0]

/-- Non-vacuity: saturated air, whose dew point and wet-bulb temperature are the air temperature. -/
example : ∃ e td, dewPoint 280 100 = some td ∧ T0 - 70 < td ∧ vaporPressure 280 100 = some e ∧
    vpDiff 280 280 e 65 = some 0 := by
  obtain ⟨td, htd, -, -, heq⟩ := C60_dew_point 280 100 (by norm_num [T0]) (by norm_num) le_rfl
  obtain ⟨s, hs, -⟩ := svp_high 280 (by norm_num) (by norm_num [T0])
  refine ⟨s, td, htd, ?_, by simp [vaporPressure, hs], by simp [vpDiff, hs]⟩
  rw [heq.mpr rfl]
  norm_num [T0]

end Verif.DerivedMeteo
