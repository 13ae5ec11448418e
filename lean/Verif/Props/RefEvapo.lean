import Verif.Model.RefEvapo
import Mathlib.Analysis.SpecialFunctions.ExpDeriv
import Mathlib.Analysis.Calculus.Deriv.Inv
import Mathlib.Tactic.Linarith
import Mathlib.Tactic.FieldSimp
import Mathlib.Tactic.Positivity

/-!
# C109: reference evapotranspiration and climate correction
-/

namespace Verif.RefEvapo

/-! ## Specification -/

/-- FAO-56 equation (53): hourly reference evapotranspiration `x` (mm per hour) for the slope `D` and
the psychrometric constant `g` (kPa per °C), temperature `T` (°C), wind speed at 2 m `u`, net radiation
`Rn` and soil heat flux `G` (MJ m-2 per hour), vapor pressure deficit `vpd` (kPa). -/
def IsFao53 (D g T u Rn G vpd x : ℝ) : Prop :=
  x = (0.408 * D * (Rn - G) + g * (37 / (T + 273)) * u * vpd) / (D + g * (1 + 0.34 * u))

/-- Net radiation (W m-2) of the reference surface: absorbed shortwave and longwave radiation minus the emission
according to the Stefan-Boltzmann law at air temperature. -/
noncomputable def refNet (i : RefIn) : ℝ :=
  i.swIn - i.albedo * i.swIn + i.lwIn - i.emissivity * (5.670374419e-8 * (i.temp * i.temp * i.temp * i.temp))

/-- FAO-56 equation (11): saturation vapor pressure (kPa). -/
noncomputable def satPressure (T : ℝ) : ℝ := 0.6108 * Real.exp (17.27 * T / (T + 237.3))

/-- Plausible inputs: temperature above -200 °C, positive psychrometric constant, no negative wind,
wind measured above the grass. -/
structure Plausible (c : RefCfg) (i : RefIn) : Prop where
  temp : 75 < i.temp
  psych : 0 < i.psych
  wind : 0 ≤ i.wind
  height : 3 / 100 < c.windHeight

/-! ## Lemmas -/

theorem refNet_eq (i : RefIn) : refNet i = netRadiation i := by
  unfold refNet netRadiation Surface.sigma
  norm_num
  ring

theorem slope_pos {T : ℝ} (h : -(2373 / 10) < T) : 0 < slope T := by
  have : 0 < T + 2373 / 10 := by linarith
  unfold slope
  positivity

theorem wind2_nonneg {c : RefCfg} {i : RefIn} (h : Plausible c i) : 0 ≤ wind2 c i := by
  have h1 : 0 < Real.log (2 / (3 / 100)) := Real.log_pos (by norm_num)
  have h2 : 0 < Real.log (c.windHeight / (3 / 100)) := by
    apply Real.log_pos
    rw [lt_div_iff₀ (by norm_num)]
    linarith [h.height]
  unfold wind2 Atmosphere.logWind
  exact mul_nonneg h.wind (div_nonneg h1.le h2.le)

theorem fao_denom_pos {c : RefCfg} {i : RefIn} (h : Plausible c i) :
    0 < slope (i.temp - 27315 / 100) + i.psych * (1 / 1000) * (1 + 34 / 100 * wind2 c i) := by
  have h1 := slope_pos (T := i.temp - 27315 / 100) (by linarith [h.temp])
  have h2 := wind2_nonneg h
  have h3 := h.psych
  positivity

/-- Net radiation minus soil heat flux in MJ m-2 per hour. -/
theorem available (c : RefCfg) (i : RefIn) :
    netRadiation i * wm2ToMJ - soilHeatFlux c i * wm2ToMJ =
      (if c.sun then 9 / 10 else 5 / 10) * netRadiation i * (36 / 10000) := by
  unfold soilHeatFlux wm2ToMJ
  split_ifs <;> ring

/-- Hourly value by its two terms. -/
theorem hourly_eq (c : RefCfg) (i : RefIn) : hourly c i =
    max ((408 / 1000 * slope (i.temp - 27315 / 100) *
        ((if c.sun then 9 / 10 else 5 / 10) * netRadiation i * (36 / 10000)) +
      i.psych * (1 / 1000) * 37 / (i.temp - 27315 / 100 + 273) * wind2 c i * ((i.es - i.ea) / 1000)) /
    (slope (i.temp - 27315 / 100) + i.psych * (1 / 1000) * (1 + 34 / 100 * wind2 c i))) 0 := by
  simp only [hourly]
  rw [available]
  congr 4
  ring

/-! ## Properties -/

/-- The result is the FAO-56 value times the number of hours of the time step, or 0 where that value
is negative. -/
theorem C109_fao (c : RefCfg) (i : RefIn) (x : ℝ)
    (hx : IsFao53 (slope (i.temp - 273.15)) (i.psych / 1000) (i.temp - 273.15) (wind2 c i)
      (refNet i * 0.0036) ((if c.sun then 0.1 else 0.5) * (refNet i * 0.0036))
      (i.es / 1000 - i.ea / 1000) x) :
    etRef c i = max x 0 * (c.dt / 3600) := by
  rw [refNet_eq] at hx
  unfold IsFao53 at hx
  rw [etRef, hourly_eq, hx, mul_div_assoc]
  congr 2
  rw [show (27315 : ℝ) / 100 = 273.15 by norm_num]
  congr 1
  · cases c.sun
    · simp only [Bool.false_eq_true, if_false]; ring
    · simp only [if_true]; ring
  · ring

/-- The slope used is that of the FAO-56 saturation vapor pressure, up to the rounding of
17.27 · 237.3 = 4098.171 to 4098. -/
theorem C109_slope (T : ℝ) (hT : -237.3 < T) :
    HasDerivAt satPressure (4098.171 / 4098 * slope T) T := by
  have h0 : T + 237.3 ≠ 0 := by linarith
  have h1 : HasDerivAt (fun T : ℝ => 17.27 * T / (T + 237.3))
      ((17.27 * (T + 237.3) - 17.27 * T * 1) / (T + 237.3) ^ 2) T := by
    have ha : HasDerivAt (fun T : ℝ => 17.27 * T) 17.27 T := by
      simpa using (hasDerivAt_id T).const_mul (17.27 : ℝ)
    have hb : HasDerivAt (fun T : ℝ => T + 237.3) 1 T := (hasDerivAt_id T).add_const _
    exact ha.div hb h0
  have h2 := (h1.exp).const_mul (0.6108 : ℝ)
  have h3 : satPressure = fun T => 0.6108 * Real.exp (17.27 * T / (T + 237.3)) := rfl
  rw [h3]
  refine h2.congr_deriv ?_
  unfold slope
  rw [show (1727 : ℝ) / 100 = 17.27 by norm_num, show (2373 : ℝ) / 10 = 237.3 by norm_num,
    show (6108 : ℝ) / 10000 = 0.6108 by norm_num]
  field_simp
  ring

/-- Never negative and proportional to the length of the time step. -/
theorem C109_nonneg (c : RefCfg) (i : RefIn) (hdt : 0 ≤ c.dt) :
    0 ≤ etRef c i ∧ ∀ k : ℝ, etRef { c with dt := k * c.dt } i = k * etRef c i := by
  constructor
  · exact div_nonneg (mul_nonneg (le_max_right _ _) hdt) (by norm_num)
  · intro k
    have : hourly { c with dt := k * c.dt } i = hourly c i := rfl
    simp only [etRef, this]
    ring

/-- More radiation, a lower albedo, a higher saturation vapor pressure or drier air never lower the
reference evapotranspiration. -/
theorem C109_monotone (c : RefCfg) (i j : RefIn) (hdt : 0 ≤ c.dt) (hi : Plausible c i)
    (hT : j.temp = i.temp) (hg : j.psych = i.psych) (hw : j.wind = i.wind)
    (hem : j.emissivity = i.emissivity) (hsw0 : 0 ≤ i.swIn) (hsw : i.swIn ≤ j.swIn)
    (halb : j.albedo ≤ i.albedo) (halb1 : i.albedo ≤ 1) (hlw : i.lwIn ≤ j.lwIn)
    (hvpd : i.es - i.ea ≤ j.es - j.ea) : etRef c i ≤ etRef c j := by
  have hnet : netRadiation i ≤ netRadiation j := by
    have : (1 - i.albedo) * i.swIn ≤ (1 - j.albedo) * j.swIn :=
      mul_le_mul (by linarith) hsw hsw0 (by linarith)
    unfold netRadiation
    rw [hT, hem]
    linarith
  have hu : wind2 c j = wind2 c i := by simp only [wind2, hw]
  have hD := slope_pos (T := i.temp - 27315 / 100) (by linarith [hi.temp])
  have hden := fao_denom_pos hi
  have hu0 := wind2_nonneg hi
  have hT0 : 0 < i.temp - 27315 / 100 + 273 := by linarith [hi.temp]
  have hp := hi.psych
  have hk : (0 : ℝ) < if c.sun then 9 / 10 else 5 / 10 := by split_ifs <;> norm_num
  unfold etRef
  rw [mul_div_assoc, mul_div_assoc]
  refine mul_le_mul_of_nonneg_right ?_ (div_nonneg hdt (by norm_num))
  rw [hourly_eq, hourly_eq, hT, hg, hu]
  refine max_le_max ?_ le_rfl
  refine div_le_div_of_nonneg_right ?_ hden.le
  refine add_le_add ?_ ?_
  · refine mul_le_mul_of_nonneg_left ?_ (by positivity)
    nlinarith
  · refine mul_le_mul_of_nonneg_left ?_ (by positivity)
    linarith

/-- Limits: in an hour at most the water equivalent of the available energy (0.408 mm per MJ) plus
the aerodynamic term evaporates, and the aerodynamic term is bounded however strong the wind is. -/
theorem C109_limits (c : RefCfg) (i : RefIn) (hi : Plausible c i) :
    hourly c i ≤ 0.408 * (0.0036 * max (refNet i) 0) +
      37 / (i.temp - 0.15) * wind2 c i * (max (i.es - i.ea) 0 / 1000) ∧
    hourly c i ≤ 0.408 * (0.0036 * max (refNet i) 0) +
      37 / (0.34 * (i.temp - 0.15)) * (max (i.es - i.ea) 0 / 1000) ∧
    (refNet i ≤ 0 → i.es ≤ i.ea → hourly c i = 0) := by
  rw [refNet_eq]
  have hD := slope_pos (T := i.temp - 27315 / 100) (by linarith [hi.temp])
  have hden := fao_denom_pos hi
  have hu0 := wind2_nonneg hi
  have hT0 : 0 < i.temp - 27315 / 100 + 273 := by linarith [hi.temp]
  have hTe : i.temp - 27315 / 100 + 273 = i.temp - 0.15 := by ring
  have hp := hi.psych
  rw [hourly_eq]
  rw [hTe] at hT0 ⊢
  obtain ⟨D, eD⟩ : ∃ D, slope (i.temp - 27315 / 100) = D := ⟨_, rfl⟩
  obtain ⟨u, eu⟩ : ∃ u, wind2 c i = u := ⟨_, rfl⟩
  obtain ⟨N, eN⟩ : ∃ N, netRadiation i = N := ⟨_, rfl⟩
  obtain ⟨V, eV⟩ : ∃ V, (i.es - i.ea) = V := ⟨_, rfl⟩
  obtain ⟨R, eR⟩ : ∃ R, i.temp - 0.15 = R := ⟨_, rfl⟩
  obtain ⟨g, eg⟩ : ∃ g, i.psych * (1 / 1000) = g := ⟨_, rfl⟩
  obtain ⟨k, ek⟩ : ∃ k : ℝ, (if c.sun then 9 / 10 else 5 / 10 : ℝ) = k := ⟨_, rfl⟩
  have hg : 0 < g := by rw [← eg]; positivity
  have hk0 : 0 < k := by rw [← ek]; split_ifs <;> norm_num
  have hk1 : k ≤ 1 := by rw [← ek]; split_ifs <;> norm_num
  rw [eD, eu, eg] at hden
  rw [eD, eu, eN, eV, eg, ek]
  rw [eD] at hD; rw [eu] at hu0; rw [eR] at hT0 ⊢
  have hN : N ≤ max N 0 := le_max_left _ _
  have hN0 : 0 ≤ max N 0 := le_max_right _ _
  have hV : V ≤ max V 0 := le_max_left _ _
  have hV0 : 0 ≤ max V 0 := le_max_right _ _
  -- both terms without the denominator
  have h1 : 408 / 1000 * D * (k * N * (36 / 10000)) ≤ 0.408 * (0.0036 * max N 0) * D := by
    have : k * N ≤ max N 0 := by
      rcases le_total N 0 with h | h
      · exact le_trans (mul_nonpos_of_nonneg_of_nonpos hk0.le h) hN0
      · nlinarith
    have h2 : 0 ≤ D * (max N 0 - k * N) := mul_nonneg hD.le (by linarith)
    nlinarith
  have h2 : g * 37 / R * u * (V / 1000) ≤ (37 / R * u * (max V 0 / 1000)) * g := by
    have : 0 ≤ g * 37 / R * u := by positivity
    have h3 : g * 37 / R * u * (V / 1000) ≤ g * 37 / R * u * (max V 0 / 1000) :=
      mul_le_mul_of_nonneg_left (by linarith) this
    refine h3.trans (le_of_eq ?_)
    ring
  have hgu : 0 ≤ g * u := by positivity
  have hA : 0 ≤ 0.408 * (0.0036 * max N 0) := by positivity
  have hB : 0 ≤ 37 / R * u * (max V 0 / 1000) := by positivity
  have hB2 : 0 ≤ 37 / (0.34 * R) * (max V 0 / 1000) := by positivity
  refine ⟨?_, ?_, ?_⟩
  · refine max_le ?_ (by linarith)
    rw [div_le_iff₀ hden]
    nlinarith [mul_nonneg hA hg.le, mul_nonneg hA hgu, mul_nonneg hB hD.le, mul_nonneg hB hgu]
  · refine max_le ?_ (by linarith)
    rw [div_le_iff₀ hden]
    have e : 37 / R * u * (max V 0 / 1000) * g =
        37 / (0.34 * R) * (max V 0 / 1000) * (34 / 100 * (g * u)) := by
      field_simp
      ring
    rw [e] at h2
    nlinarith [mul_nonneg hA hg.le, mul_nonneg hA hgu, mul_nonneg hB2 hD.le, mul_nonneg hB2 hg.le]
  · intro hN' hV'
    apply max_eq_right
    apply div_nonpos_of_nonpos_of_nonneg _ hden.le
    have a1 : 408 / 1000 * D * (k * N * (36 / 10000)) ≤ 0 := by
      have := mul_nonneg hD.le (mul_nonneg hk0.le (neg_nonneg.2 hN'))
      nlinarith
    have a2 : g * 37 / R * u * (V / 1000) ≤ 0 := by
      have : 0 ≤ g * 37 / R * u := by positivity
      exact mul_nonpos_of_nonneg_of_nonpos this (by linarith)
    linarith

/-- Wind measured at 2 m is used as it is; measured higher up it is reduced. -/
theorem C109_wind (c : RefCfg) (i : RefIn) (hi : Plausible c i) :
    (c.windHeight = 2 → wind2 c i = i.wind) ∧ (2 ≤ c.windHeight → wind2 c i ≤ i.wind) := by
  have h1 : 0 < Real.log (2 / (3 / 100)) := Real.log_pos (by norm_num)
  constructor
  · intro h
    unfold wind2 Atmosphere.logWind
    rw [h, div_self h1.ne', mul_one]
  · intro h
    have h2 : Real.log (2 / (3 / 100)) ≤ Real.log (c.windHeight / (3 / 100)) := by
      apply Real.log_le_log (by norm_num)
      exact div_le_div_of_nonneg_right h (by norm_num)
    unfold wind2 Atmosphere.logWind
    exact mul_le_of_le_one_right hi.wind ((div_le_one (h1.trans_le h2)).2 h2)

theorem clip_mem (x : ℝ) {lo hi : ℝ} (h : lo ≤ hi) : lo ≤ clip x lo hi ∧ clip x lo hi ≤ hi :=
  ⟨le_min (le_max_right _ _) h, min_le_right _ _⟩

theorem height_factor (h : ℝ) : 0 < (clip h (1 / 10) 10 / 3) ^ ((3 : ℝ) / 10) ∧
    (clip h (1 / 10) 10 / 3) ^ ((3 : ℝ) / 10) ≤ 1436 / 1000 := by
  obtain ⟨h1, h2⟩ := clip_mem h (lo := 1 / 10) (hi := 10) (by norm_num)
  have hp : 0 < clip h (1 / 10) 10 / 3 := by linarith
  refine ⟨Real.rpow_pos_of_pos hp _, ?_⟩
  have h3 : (clip h (1 / 10) 10 / 3) ^ ((3 : ℝ) / 10) ≤ ((1436 / 1000 : ℝ) ^ (10 : ℕ)) ^ ((1 : ℝ) / 10) := by
    have e : (clip h (1 / 10) 10 / 3) ^ ((3 : ℝ) / 10) =
        ((clip h (1 / 10) 10 / 3) ^ (3 : ℕ)) ^ ((1 : ℝ) / 10) := by
      rw [← Real.rpow_natCast, ← Real.rpow_mul hp.le]
      norm_num
    rw [e]
    apply Real.rpow_le_rpow (by positivity) _ (by norm_num)
    calc (clip h (1 / 10) 10 / 3) ^ 3 ≤ (10 / 3) ^ 3 :=
          pow_le_pow_left₀ hp.le (by linarith) 3
      _ ≤ _ := by norm_num
  refine h3.trans (le_of_eq ?_)
  rw [← Real.rpow_natCast, ← Real.rpow_mul (by norm_num)]
  norm_num

/-- The climate correction: bounded, 0 for standard climate, rising with wind, falling with humidity,
independent of values outside of the ranges of FAO-56 and 0 for missing values. -/
theorem C109_climate_correction (w h z : ℝ) :
    -(0.26 : ℝ) ≤ climCorr w h z ∧ climCorr w h z ≤ 0.374 ∧ climCorr 2 45 z = 0 ∧
    (∀ w', w ≤ w' → climCorr w h z ≤ climCorr w' h z) ∧
    (∀ h', h ≤ h' → climCorr w h' z ≤ climCorr w h z) ∧
    (w ≤ 1 → climCorr w h z = climCorr 1 h z) ∧ (6 ≤ w → climCorr w h z = climCorr 6 h z) ∧
    (h ≤ 20 → climCorr w h z = climCorr w 20 z) ∧ (80 ≤ h → climCorr w h z = climCorr w 80 z) ∧
    (z ≤ 0.1 → climCorr w h z = climCorr w h 0.1) ∧ (10 ≤ z → climCorr w h z = climCorr w h 10) ∧
    climCorrNan (some w) (some h) z = climCorr w h z ∧ climCorrNan none (some h) z = 0 ∧
    climCorrNan (some w) none z = 0 := by
  obtain ⟨f0, f1⟩ := height_factor z
  obtain ⟨w0, w1⟩ := clip_mem w (lo := 1) (hi := 6) (by norm_num)
  obtain ⟨h0, h1⟩ := clip_mem h (lo := 20) (hi := 80) (by norm_num)
  refine ⟨?_, ?_, ?_, ?_, ?_, ?_, ?_, ?_, ?_, ?_, ?_, rfl, rfl, rfl⟩
  · unfold climCorr
    have : -(18 / 100 : ℝ) ≤ 4 / 100 * (clip w 1 6 - 2) - 4 / 1000 * (clip h 20 80 - 45) := by linarith
    nlinarith
  · unfold climCorr
    have : 4 / 100 * (clip w 1 6 - 2) - 4 / 1000 * (clip h 20 80 - 45) ≤ (26 / 100 : ℝ) := by linarith
    nlinarith
  · unfold climCorr clip; norm_num
  · intro w' hw
    unfold climCorr
    refine mul_le_mul_of_nonneg_right ?_ f0.le
    have : clip w 1 6 ≤ clip w' 1 6 := min_le_min_right _ (max_le_max_right _ hw)
    linarith
  · intro h' hh
    unfold climCorr
    refine mul_le_mul_of_nonneg_right ?_ f0.le
    have : clip h 20 80 ≤ clip h' 20 80 := min_le_min_right _ (max_le_max_right _ hh)
    linarith
  · intro hw; unfold climCorr clip; rw [max_eq_right hw, max_self]
  · intro hw; unfold climCorr clip
    rw [min_eq_right (le_max_of_le_left hw), min_eq_right (le_max_left _ _)]
  · intro hw; unfold climCorr clip; rw [max_eq_right hw, max_self]
  · intro hw; unfold climCorr clip
    rw [min_eq_right (le_max_of_le_left hw), min_eq_right (le_max_left _ _)]
  · intro hw
    have e : (0.1 : ℝ) = 1 / 10 := by norm_num
    rw [e] at hw ⊢
    unfold climCorr clip; rw [max_eq_right hw, max_self]
  · intro hw; unfold climCorr clip
    rw [min_eq_right (le_max_of_le_left hw), min_eq_right (le_max_left _ _)]

/-- A corrected crop coefficient stays positive, and coefficients below 0.45 are not corrected. -/
theorem C109_corrected (k w h z : ℝ) (hk : 0 ≤ k) :
    0 ≤ corrected k (climCorr w h z) ∧ (0 < k → 0 < corrected k (climCorr w h z)) ∧
    (k < 0.45 → corrected k (climCorr w h z) = k) ∧
    corrected k (climCorr w h z) ≤ k + 0.374 := by
  obtain ⟨b0, b1, -⟩ := C109_climate_correction w h z
  unfold corrected
  refine ⟨?_, ?_, ?_, ?_⟩
  · split_ifs with h'
    · norm_num at b0; linarith
    · exact hk
  · intro h0
    split_ifs with h'
    · norm_num at b0; linarith
    · exact h0
  · intro h'
    rw [if_neg]
    norm_num at h' ⊢
    exact h'
  · split_ifs
    · linarith
    · norm_num

/-! ## A concrete case -/

/-- A summer noon: the hypotheses hold. -/
example : Plausible ⟨10, 3600, true⟩
    ⟨23 / 100, 95 / 100, 800, 300, 293, 60, 2300, 1200, 3⟩ := by
  constructor <;> norm_num

/-- A day with strictly positive evapotranspiration: radiation alone suffices. -/
example (c : RefCfg) (i : RefIn) (hi : Plausible c i) (hdt : 0 < c.dt) (hN : 0 < netRadiation i)
    (hV : i.ea ≤ i.es) : 0 < etRef c i := by
  have hD := slope_pos (T := i.temp - 27315 / 100) (by linarith [hi.temp])
  have hden := fao_denom_pos hi
  have hu0 := wind2_nonneg hi
  have hT0 : 0 < i.temp - 27315 / 100 + 273 := by linarith [hi.temp]
  have hp := hi.psych
  have hk : (0 : ℝ) < if c.sun then 9 / 10 else 5 / 10 := by split_ifs <;> norm_num
  have hV' : 0 ≤ i.es - i.ea := by linarith
  rw [etRef, hourly_eq]
  refine div_pos (mul_pos (lt_max_of_lt_left (div_pos ?_ hden)) hdt) (by norm_num)
  positivity

end Verif.RefEvapo
