import Verif.Model.Atmosphere
import Mathlib.Tactic.Positivity
import Mathlib.Tactic.Linarith
import Mathlib.Tactic.FieldSimp

/-!
# Air density, latent heat and psychrometric constant (C83)
-/

namespace Verif.Atmosphere

/-- **C83.** The density used in the model obeys the ideal gas law `p = ρ R T`; it decreases with temperature and
increases with pressure. -/
theorem C83_density (t t' p p' : ℝ) (ht : 0 < t) (hp : 0 < p) :
    p = modelDensity t p * (287058 / 1000) * t ∧ (t < t' → modelDensity t' p < modelDensity t p) ∧
    (p < p' → modelDensity t p < modelDensity t p') := by
  have hr : 0 < rDry := by norm_num [rDry]
  refine ⟨?_, fun h => ?_, fun h => ?_⟩
  · unfold modelDensity rDry; field_simp
  · exact div_lt_div_of_pos_left hp (by positivity) (mul_lt_mul_of_pos_left h hr)
  · exact div_lt_div_of_pos_right h (by positivity)

/-- **C83 is false for the library function.** It multiplies by `R T` instead of dividing: it agrees with the gas law
only if `R T = 1`, that is at 0.0035 K. -/
theorem C83_library_false (t p : ℝ) (ht : 0 < t) (hp : 0 < p) :
    (dryAirDensity t p = modelDensity t p ↔ t = 1000 / 287058) ∧
    (∀ t', t < t' → dryAirDensity t p < dryAirDensity t' p) := by
  have hr : 0 < rDry := by norm_num [rDry]
  refine ⟨?_, fun t' h => mul_lt_mul_of_pos_left (mul_lt_mul_of_pos_left h hr) hp⟩
  unfold dryAirDensity modelDensity
  have hx : 0 < rDry * t := by positivity
  rw [eq_div_iff hx.ne', mul_assoc, mul_eq_left₀ hp.ne', mul_self_eq_one_iff]
  constructor
  · rintro (h | h)
    · unfold rDry at h; linarith
    · linarith
  · intro h; left; rw [h]; norm_num [rDry]

/-- **C83.** At 0 °C and standard pressure the library value exceeds the density of air by nine orders of magnitude. -/
theorem C83_library_witness : dryAirDensity T0 P0 > 10 ^ 9 * modelDensity T0 P0 ∧
    1 < modelDensity T0 P0 ∧ modelDensity T0 P0 < 13 / 10 := by
  norm_num [dryAirDensity, modelDensity, T0, P0, rDry]

/-- **C83.** The latent heat of vaporization decreases by 2361 J/kg per kelvin from 2.501 MJ/kg at 0 °C; it is positive
for all temperatures below 1000 K and above 2.38 MJ/kg up to 50 °C. -/
theorem C83_latent_heat (t t' : ℝ) :
    latentHeat T0 = 2501000 ∧ (latentHeat t' - latentHeat t = -2361 * (t' - t)) ∧ (t < t' → latentHeat t' < latentHeat t) ∧
    (t ≤ 1000 → 0 < latentHeat t) ∧ (t ≤ T0 + 50 → 2380000 ≤ latentHeat t) := by
  unfold latentHeat
  refine ⟨by ring, by ring, fun h => by linarith, fun h => ?_, fun h => by linarith⟩
  unfold T0; linarith

/-- **C83.** The psychrometric constant of the model is positive and increases with pressure, humidity and air
temperature. -/
theorem C83_psychrometric (p p' q q' t t' : ℝ) (hp : 0 < p) (hq : 0 ≤ q) (ht : t ≤ 1000) :
    0 < psychrometric p (moistHeatCap q) (latentHeat t) ∧
    (p < p' → psychrometric p (moistHeatCap q) (latentHeat t) < psychrometric p' (moistHeatCap q) (latentHeat t)) ∧
    (q < q' → psychrometric p (moistHeatCap q) (latentHeat t) < psychrometric p (moistHeatCap q') (latentHeat t)) ∧
    (t' < t → psychrometric p (moistHeatCap q) (latentHeat t') < psychrometric p (moistHeatCap q) (latentHeat t)) := by
  have hl := (C83_latent_heat t t').2.2.2.1 ht
  have hc : 0 < cp := by norm_num [cp]
  have hm : 0 < moistHeatCap q := by unfold moistHeatCap; positivity
  unfold psychrometric
  refine ⟨by positivity, fun h => ?_, fun h => ?_, fun h => ?_⟩
  · exact div_lt_div_of_pos_right (mul_lt_mul_of_pos_left h hm) (by positivity)
  · have : moistHeatCap q < moistHeatCap q' := by
      unfold moistHeatCap; exact mul_lt_mul_of_pos_left (by linarith) hc
    exact div_lt_div_of_pos_right (mul_lt_mul_of_pos_right this hp) (by positivity)
  · have := (C83_latent_heat t' t).2.2.1 h
    exact div_lt_div_of_pos_left (by positivity) (by positivity) (mul_lt_mul_of_pos_left this (by norm_num))

/-- **C83.** The psychrometric constant is the heat that warms air by one kelvin over the heat of the vapour (of
relative molar mass 0.622) that saturates it, per pressure. -/
theorem C83_psychrometric_balance (p c l : ℝ) (hl : l ≠ 0) : psychrometric p c l * l * (622 / 1000) = c * p := by
  unfold psychrometric; field_simp

/-- **C83.** The ratio of the heat capacities of moist and dry air is `1 + 0.84 q`. -/
theorem C83_moist_air (q : ℝ) : moistHeatCap q = moistHeatCap 0 * (1 + 21 / 25 * q) ∧
    moistHeatCap 0 = 100468506 / 100000 := by
  unfold moistHeatCap cp; constructor <;> ring

example : (0 : ℝ) < 280 ∧ (0 : ℝ) < 90000 ∧ (280 : ℝ) ≤ 1000 := by norm_num

end Verif.Atmosphere
