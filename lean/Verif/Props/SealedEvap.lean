import Verif.Model.SealedEvap
import Mathlib.Analysis.SpecialFunctions.ExpDeriv
import Mathlib.Analysis.Calculus.Deriv.Inv
import Mathlib.Analysis.SpecialFunctions.Pow.Real
import Mathlib.Analysis.SpecialFunctions.Trigonometric.Basic
import Mathlib.Tactic

/-!
# C97: evaporation of sealed surfaces, sparse vegetation
-/

namespace Verif.SealedEvap

open Verif.Atmosphere

/-- Specification: the Penman-Monteith equation (FAO 56, eq. 3), latent heat flux in W m-2. -/
noncomputable def penmanMonteith (delta gamma rn g rho cp vpd ra rs : ℝ) : ℝ :=
  (delta * (rn - g) + rho * cp * vpd / ra) / (delta + gamma * (1 + rs / ra))

/-- Specification: density of a gas by the ideal gas law. -/
noncomputable def idealGas (press temp : ℝ) : ℝ := press / (rDry * temp)

theorem rDry_pos : 0 < rDry := by unfold rDry; norm_num

theorem density_eq (press temp : ℝ) (ht : temp ≠ 0) :
    density press temp = virtualTemp temp ^ 2 * idealGas press (virtualTemp temp) := by
  have hr := rDry_pos.ne'
  have hv : virtualTemp temp ≠ 0 := by unfold virtualTemp; positivity
  unfold density idealGas
  field_simp

/-- **C97.** The density of air used for sealed surfaces is not that of the ideal gas law: it is too large by the square
of the virtual temperature, i.e., by a factor of more than 40000 in all weather above -73 °C. -/
theorem C97_density_false (press temp : ℝ) (hp : 0 < press) (ht : 200 ≤ temp) :
    density press temp = virtualTemp temp ^ 2 * idealGas press (virtualTemp temp) ∧
    40000 * idealGas press (virtualTemp temp) < density press temp ∧
    density press temp ≠ idealGas press (virtualTemp temp) := by
  have h1 := density_eq press temp (by linarith)
  have hv : 202 ≤ virtualTemp temp := by unfold virtualTemp; linarith
  have hi : 0 < idealGas press (virtualTemp temp) := by
    unfold idealGas
    have := rDry_pos
    have : 0 < virtualTemp temp := by linarith
    positivity
  have h2 : 40000 * idealGas press (virtualTemp temp) < density press temp := by
    rw [h1]
    have : 40000 < virtualTemp temp ^ 2 := by nlinarith
    nlinarith
  refine ⟨h1, h2, ?_⟩
  intro h
  linarith

/-- **C97, partial.** Evaporation from sealed surfaces is the Penman-Monteith evaporation without surface resistance,
but for the density. Full statement: with `idealGas w.press (virtualTemp w.temp)` as density. -/
theorem C97_penman_partial (s : Site) (w : Weather) (h1 : 2 / 3 * s.height ≤ s.zWind) (h2 : 2 / 3 * s.height ≤ s.zTemp)
    (ht : w.temp ≠ 0) (ra cp : ℝ) (hra : ra = resistance s w.ws)
    (hcp : cp * w.press = w.gamma * (622 / 1000) * 2501000) (hp : w.press ≠ 0) :
    potential s w = max (penmanMonteith (slope w.temp) w.gamma w.rn w.g
        (virtualTemp w.temp ^ 2 * idealGas w.press (virtualTemp w.temp)) cp (w.es - w.ea) ra 0) 0
      / 2501000 * s.step := by
  have hc : cp = specHeat w.gamma w.press := by
    unfold specHeat lv
    field_simp
    linarith
  subst hra
  rw [hc, ← density_eq _ _ ht]
  simp only [potential, flux]
  rw [if_neg (by rintro (h | h) <;> linarith)]
  rfl

/-- **C97.** A wind or temperature sensor below the displacement height of the surface (two thirds of its height)
silently switches evaporation off, whatever the weather: intercepted water then never leaves the surface. -/
theorem C97_low_sensor (s : Site) (w : Weather) (h : s.zWind < 2 / 3 * s.height ∨ s.zTemp < 2 / 3 * s.height) :
    potential s w = 0 := by
  simp [potential, flux, h]

/-- **C97.** The aerodynamic resistance falls with the inverse of the wind speed; it is positive if the sensors are above
the roughness height. -/
theorem C97_resistance (s : Site) (ws : ℝ) (hw : 0 < ws) (hh : 0 < s.height) (h1 : s.height < s.zWind)
    (h2 : s.height < s.zTemp) :
    0 < resistance s ws ∧ ∀ k, 0 < k → resistance s (k * ws) = resistance s ws / k := by
  have a : 1 < (s.zWind - 2 / 3 * s.height) / (123 / 1000 * s.height) := by
    rw [lt_div_iff₀ (by positivity)]; linarith
  have b : 1 < (s.zTemp - 2 / 3 * s.height) / (1 / 10 * (123 / 1000 * s.height)) := by
    rw [lt_div_iff₀ (by positivity)]; linarith
  have ha := Real.log_pos a
  have hb := Real.log_pos b
  constructor
  · simp only [resistance, Surface.vonKarman]
    positivity
  · intro k hk
    simp only [resistance, Surface.vonKarman]
    field_simp

/-- Specification: saturation vapor pressure (FAO 56, eq. 11) in Pa for a temperature in °C. -/
noncomputable def satVapPress (t : ℝ) : ℝ := 1000 * (6108 / 10000 * Real.exp (1727 / 100 * t / (t + 2373 / 10)))

/-- **C97.** The slope is the derivative of the saturation vapor pressure, with the constant 17.27 * 237.3 = 4098.171
rounded to 4098. -/
theorem C97_slope (temp : ℝ) (h : T0 - 2373 / 10 < temp) :
    HasDerivAt satVapPress (4098171 / 4098000 * slope temp) (temp - T0) := by
  obtain ⟨t, ht⟩ : ∃ t, temp - T0 = t := ⟨_, rfl⟩
  have hpos : 0 < t + 2373 / 10 := by rw [← ht]; linarith
  simp only [slope, ht]
  have hq : HasDerivAt (fun t : ℝ => 1727 / 100 * t / (t + 2373 / 10))
      ((1727 / 100 * 1 * (t + 2373 / 10) - 1727 / 100 * t * 1) / (t + 2373 / 10) ^ 2) t := by
    have h1 : HasDerivAt (fun t : ℝ => 1727 / 100 * t) (1727 / 100 * 1) t := (hasDerivAt_id t).const_mul _
    have h2 : HasDerivAt (fun t : ℝ => t + 2373 / 10) 1 t := (hasDerivAt_id t).add_const _
    exact h1.fun_div h2 hpos.ne'
  have he := (hq.exp.const_mul (6108 / 10000 : ℝ)).const_mul (1000 : ℝ)
  unfold satVapPress
  have hval : (4098171 / 4098000 : ℝ) * (1000 * 4098 * (6108 / 10000 * Real.exp (1727 / 100 * t / (t + 2373 / 10))) /
      (t + 2373 / 10) ^ 2) = 1000 * (6108 / 10000 * (Real.exp (1727 / 100 * t / (t + 2373 / 10)) *
      ((1727 / 100 * 1 * (t + 2373 / 10) - 1727 / 100 * t * 1) / (t + 2373 / 10) ^ 2))) := by
    have hne : (t + 2373 / 10) ^ 2 ≠ 0 := by positivity
    obtain ⟨e, hE⟩ : ∃ e, Real.exp (1727 / 100 * t / (t + 2373 / 10)) = e := ⟨_, rfl⟩
    obtain ⟨q, hQ⟩ : ∃ q, (t + 2373 / 10) ^ 2 = q := ⟨_, rfl⟩
    rw [hE, hQ]
    ring
  rw [hval]
  exact he

/-- **C97.** Evaporation is never negative, and vanishes if there is neither energy nor a vapor pressure deficit. -/
theorem C97_nonneg (s : Site) (w : Weather) (hs : 0 ≤ s.step) :
    0 ≤ potential s w ∧ (w.rn = w.g → w.es = w.ea → potential s w = 0) := by
  constructor
  · simp only [potential, flux, lv]
    split_ifs <;> positivity
  · intro h1 h2
    simp [potential, flux, h1, h2]

/-! ### Sparse vegetation -/

theorem sinEl_eq (lat decl : ℝ) :
    Real.sin lat * Real.sin decl + Real.cos lat * Real.cos decl * Real.cos 0 = Real.cos (lat - decl) := by
  rw [Real.cos_zero, Real.cos_sub]; ring

/-- **C97.** The coefficient of sparse vegetation lies between the minimum and the full-cover coefficient. -/
theorem C97_sparse_bounds (kmin kmid vf height lat decl : ℝ) (hk : kmin ≤ kmid) (hv : 0 ≤ vf) :
    kmin ≤ sparseAdjustment kmin kmid vf height lat decl ∧
    sparseAdjustment kmin kmid vf height lat decl ≤ kmid := by
  simp only [sparseAdjustment]
  obtain ⟨m, hm⟩ : ∃ m, min (min 1 (2 * vf)) (max (vf / (Real.sin lat * Real.sin decl +
    Real.cos lat * Real.cos decl * Real.cos 0)) 0 ^ (1 / (1 + height))) = m := ⟨_, rfl⟩
  have h0 : 0 ≤ m := by
    rw [← hm]
    exact le_min (le_min zero_le_one (by linarith)) (Real.rpow_nonneg (le_max_right _ _) _)
  have h1 : m ≤ 1 := by
    rw [← hm]
    exact (min_le_left _ _).trans (min_le_left _ _)
  rw [hm]
  constructor <;> nlinarith

/-- **C97.** It does not fall if the vegetation cover rises. -/
theorem C97_sparse_monotone (kmin kmid vf vf' height lat decl : ℝ) (hk : kmin ≤ kmid) (hh : 0 ≤ height)
    (hsun : 0 < Real.cos (lat - decl)) (h : vf ≤ vf') :
    sparseAdjustment kmin kmid vf height lat decl ≤ sparseAdjustment kmin kmid vf' height lat decl := by
  simp only [sparseAdjustment, sinEl_eq]
  have hexp : 0 ≤ 1 / (1 + height) := by positivity
  have h1 : max (vf / Real.cos (lat - decl)) 0 ^ (1 / (1 + height)) ≤
      max (vf' / Real.cos (lat - decl)) 0 ^ (1 / (1 + height)) := by
    apply Real.rpow_le_rpow (le_max_right _ _) _ hexp
    exact max_le_max (by gcongr) le_rfl
  have h2 : min (min 1 (2 * vf)) (max (vf / Real.cos (lat - decl)) 0 ^ (1 / (1 + height))) ≤
      min (min 1 (2 * vf')) (max (vf' / Real.cos (lat - decl)) 0 ^ (1 / (1 + height))) :=
    min_le_min (min_le_min le_rfl (by linarith)) h1
  have := mul_le_mul_of_nonneg_left h2 (sub_nonneg.mpr hk)
  linarith

/-- **C97.** Values at the ends: no vegetation gives the minimum, a cover that shades all of the ground at noon and is
at least one half the full-cover coefficient, and during the polar night it is the minimum. -/
theorem C97_sparse_ends (kmin kmid height lat decl : ℝ) (hh : 0 ≤ height) :
    sparseAdjustment kmin kmid 0 height lat decl = kmin ∧
    (∀ vf, 0 < Real.cos (lat - decl) → Real.cos (lat - decl) ≤ vf → 1 / 2 ≤ vf →
      sparseAdjustment kmin kmid vf height lat decl = kmid) ∧
    ∀ vf, 0 < vf → Real.cos (lat - decl) < 0 → sparseAdjustment kmin kmid vf height lat decl = kmin := by
  have hexp : 0 < 1 / (1 + height) := by positivity
  refine ⟨?_, ?_, ?_⟩
  · simp only [sparseAdjustment, sinEl_eq, zero_div, max_self, Real.zero_rpow hexp.ne', mul_zero]
    simp
  · intro vf hc h1 h2
    simp only [sparseAdjustment, sinEl_eq]
    have ha : 1 ≤ vf / Real.cos (lat - decl) := by rw [le_div_iff₀ hc]; linarith
    have hb : 1 ≤ max (vf / Real.cos (lat - decl)) 0 ^ (1 / (1 + height)) :=
      Real.one_le_rpow (ha.trans (le_max_left _ _)) hexp.le
    rw [min_eq_left (by linarith : (1 : ℝ) ≤ 2 * vf), min_eq_left hb]
    ring
  · intro vf hv hc
    simp only [sparseAdjustment, sinEl_eq]
    rw [max_eq_right (div_nonpos_of_nonneg_of_nonpos hv.le hc.le), Real.zero_rpow hexp.ne',
      min_eq_right (le_min zero_le_one (by linarith))]
    ring

-- C97_resistance: sensors at 2 m and 10 m above a surface of 0.1 m.
example : (0 : ℝ) < (⟨10, 2, 1 / 10, 3600⟩ : Site).height ∧
    (⟨10, 2, 1 / 10, 3600⟩ : Site).height < (⟨10, 2, 1 / 10, 3600⟩ : Site).zWind ∧
    (⟨10, 2, 1 / 10, 3600⟩ : Site).height < (⟨10, 2, 1 / 10, 3600⟩ : Site).zTemp := by norm_num

-- C97_low_sensor: a temperature sensor at 2 m above a surface of 4 m.
example : (⟨10, 2, 4, 3600⟩ : Site).zTemp < 2 / 3 * (⟨10, 2, 4, 3600⟩ : Site).height := by norm_num

-- C97_sparse_monotone: equinox at the equator.
example : 0 < Real.cos ((0 : ℝ) - 0) := by simp

end Verif.SealedEvap
