import Verif.Lemmas.ClearSky

/-!
# Clear-sky irradiance (C74)
-/

namespace Verif.ClearSky

open Real

/-- Solar constant (W m-2). -/
noncomputable def solarConstant : ℝ := 1366.1

/-- **C74.** Direct irradiance is non-negative, vanishes in shadow and on surfaces facing away from the sun, and is
at most 97.51 % of the extraterrestrial irradiance on the inclined surface, which never exceeds 1.04 times the solar
constant for unit vectors. -/
theorem C74_direct (x : Input) (hs : x.shadow = 0 ∨ x.shadow = 1) :
    0 ≤ x.direct ∧ (x.shadow = 0 → x.direct = 0) ∧
    (x.sun.1 * x.normal.1 - x.sun.2.1 * x.normal.2.1 + x.sun.2.2 * x.normal.2.2 ≤ 0 → x.direct = 0) ∧
    (x.sun.1 ^ 2 + x.sun.2.1 ^ 2 + x.sun.2.2 ^ 2 = 1 → x.normal.1 ^ 2 + x.normal.2.1 ^ 2 + x.normal.2.2 ^ 2 = 1 →
      x.direct ≤ 0.9751 * (1.04 * solarConstant)) := by
  have he := ecc_pos x.dayAngle
  have htoa : 0 < x.toa := by unfold Input.toa; positivity
  have haoi : 0 ≤ x.aoi := le_max_right _ _
  have hs0 : 0 ≤ x.shadow := by rcases hs with h | h <;> rw [h] <;> norm_num
  have hs1 : x.shadow ≤ 1 := by rcases hs with h | h <;> rw [h] <;> norm_num
  have ht0 : 0 ≤ x.transDir := le_min (le_max_right _ _) zero_le_one
  have ht1 : x.transDir ≤ 1 := min_le_right _ _
  have hpot : 0 ≤ x.pot := mul_nonneg (mul_nonneg htoa.le haoi) hs0
  refine ⟨by unfold Input.direct; positivity, fun h => ?_, fun h => ?_, fun h1 h2 => ?_⟩
  · simp [Input.direct, Input.pot, h]
  · have : x.aoi = 0 := max_eq_right (by unfold Terrain.incidence; linarith)
    simp [Input.direct, Input.pot, this]
  · have ha : x.aoi ≤ 1 := by
      refine max_le ?_ zero_le_one
      unfold Terrain.incidence
      nlinarith [sq_nonneg (x.sun.1 - x.normal.1), sq_nonneg (x.sun.2.1 + x.normal.2.1),
        sq_nonneg (x.sun.2.2 - x.normal.2.2)]
    have htb : x.toa ≤ 1.04 * solarConstant := by
      have : eccCorr x.dayAngle ≤ 1.04 := by
        unfold eccCorr
        linarith [cos_le_one x.dayAngle, sin_le_one x.dayAngle, cos_le_one (2 * x.dayAngle),
          sin_le_one (2 * x.dayAngle)]
      unfold Input.toa solarConstant
      linarith
    have hp : x.pot ≤ x.toa := by
      have h3 : x.toa * x.aoi ≤ x.toa := mul_le_of_le_one_right htoa.le ha
      exact (mul_le_of_le_one_right (mul_nonneg htoa.le haoi) hs1).trans h3
    have : x.pot * x.transDir ≤ x.pot := mul_le_of_le_one_right hpot ht1
    unfold Input.direct
    linarith

/-- Conditions on atmosphere and surface: physical ranges, visibility of at least 2 km, ozone path of at most
50 cm, and a slant path short enough for the aerosol absorption fit. -/
structure Input.OK (x : Input) : Prop where
  press : 0 < x.press
  water : 0 ≤ x.water
  ozone : 0 ≤ x.ozone
  ozonePath : x.ozone * 100 * x.m ≤ 50
  visibility : 2000 ≤ x.visibility
  ssa : x.ssa ≤ 1
  path : (1 - x.ssa) * (1 - x.p + x.p ^ (106 / 100 : ℝ)) ≤ 1
  csa0 : 0 ≤ x.clearSkyAlbedo
  csa1 : x.clearSkyAlbedo ≤ 7 / 10
  ga0 : 0 ≤ x.groundAlbedo
  ga1 : x.groundAlbedo ≤ 1
  svf0 : 0 ≤ x.svf
  svf1 : x.svf ≤ 1
  sunZ0 : 0 ≤ x.sun.2.2
  shadow : x.shadow = 0 ∨ x.shadow = 1
  sunFrac : 0 ≤ x.sunFrac
  meanAoi : 0 ≤ x.meanAoi

theorem zenith_range (x : Input) (h : 0 ≤ x.sun.2.2) : 0 ≤ x.zenith ∧ x.zenith ≤ π / 2 :=
  ⟨arccos_nonneg _, arccos_le_pi_div_two.2 h⟩

theorem base_ge {z : ℝ} (h1 : z ≤ π / 2) : 1 ≤ 93885 / 1000 - z * (180 / π) := by
  have hp := pi_pos
  have : z * (180 / π) ≤ 90 := by
    rw [← mul_div_assoc, div_le_iff₀ hp]; linarith
  linarith

/-- **C74 (partial).** The limit is not enforced (`C74_air_mass_false`). What holds: for every sun at or above the
horizon the clip at 14.1952 has no effect; the air mass is the unclipped fit, positive, and at least `1 / 1.15`. -/
theorem C74_air_mass_partial {z : ℝ} (h0 : 0 ≤ z) (h1 : z ≤ π / 2) :
    airMass z = 1 / (cos z + 15 / 100 * (93885 / 1000 - z * (180 / π)) ^ (-(1253 / 1000) : ℝ)) ∧
    1 / 1.15 ≤ airMass z := by
  have hb := base_ge h1
  have hw0 := rpow_pos_of_pos (show 0 < 93885 / 1000 - z * (180 / π) by linarith) (-(1253 / 1000))
  have hw1 : (93885 / 1000 - z * (180 / π)) ^ (-(1253 / 1000) : ℝ) ≤ 1 :=
    rpow_le_one_of_one_le_of_nonpos hb (by norm_num)
  have hc0 : 0 ≤ cos z := cos_nonneg_of_mem_Icc ⟨by linarith [pi_pos], h1⟩
  have hc1 := cos_le_one z
  have e : airMass z = 1 / (cos z + 15 / 100 * (93885 / 1000 - z * (180 / π)) ^ (-(1253 / 1000) : ℝ)) := by
    unfold airMass; rw [min_eq_left (by linarith)]
  refine ⟨e, ?_⟩
  rw [e]
  exact one_div_le_one_div_of_le (by positivity) (by linarith)

/-- **C74 (negated).** The air mass exceeds 14.1952 for zenith angles just above the stated validity limit of 87
degrees: at 89 degrees it is larger than 20. -/
theorem C74_air_mass_false : 20 < airMass (89 * (π / 180)) := by
  have hp := pi_pos
  rw [(C74_air_mass_partial (by positivity) (by nlinarith)).1]
  have hbase : 93885 / 1000 - 89 * (π / 180) * (180 / π) = (4885 / 1000 : ℝ) := by field_simp; norm_num
  rw [hbase]
  have hw : (4885 / 1000 : ℝ) ^ (-(1253 / 1000) : ℝ) ≤ 1000 / 4885 := by
    calc (4885 / 1000 : ℝ) ^ (-(1253 / 1000) : ℝ) ≤ (4885 / 1000 : ℝ) ^ (-1 : ℝ) :=
          rpow_le_rpow_of_exponent_le (by norm_num) (by norm_num)
      _ = 1000 / 4885 := by rw [rpow_neg_one]; norm_num
  have hc : cos (89 * (π / 180)) ≤ π / 180 := by
    rw [show 89 * (π / 180) = π / 2 - π / 180 by ring, cos_pi_div_two_sub]
    exact sin_le (by positivity)
  have hc0 : 0 ≤ cos (89 * (π / 180)) := cos_nonneg_of_mem_Icc ⟨by nlinarith, by nlinarith⟩
  have hw0 := rpow_pos_of_pos (show (0 : ℝ) < 4885 / 1000 by norm_num) (-(1253 / 1000))
  have hpi := pi_lt_d2
  rw [lt_div_iff₀ (by positivity)]
  linarith

theorem OK.facts (x : Input) (h : x.OK) :
    0 < x.p ∧ 0 ≤ x.tOzone ∧ 0 < x.tVapor ∧ 0 < x.tAer ∧ x.tAer ≤ x.tAbs ∧
    76 / 100 ≤ x.scatter ∧ x.scatter ≤ 1 := by
  obtain ⟨hz0, hz1⟩ := zenith_range x h.sunZ0
  have hm : 0 < x.m := lt_of_lt_of_le (by norm_num) (C74_air_mass_partial hz0 hz1).2
  have hp : 0 < x.p := div_pos (mul_pos hm h.press) (by norm_num)
  have hoz := ozone_range (l := x.ozone * 100 * x.m) (mul_nonneg (mul_nonneg h.ozone (by norm_num)) hm.le)
    h.ozonePath
  have hv := vapor_range (w := x.water / 10 * x.m) (mul_nonneg (div_nonneg h.water (by norm_num)) hm.le)
  have ha := aerosols_range (v := x.visibility / 1000) (p := x.p) (by linarith [h.visibility]) hp
  refine ⟨hp, hoz.1, hv.1, ha.1, ?_, ?_, ?_⟩
  · have hpath := h.path
    have h1 : 0 < 1 - x.tAer := by have := ha.2; unfold Input.tAer; linarith
    unfold Input.tAbs transAerosolAbs
    nlinarith
  · have hpi := pi_lt_d2
    have hz : x.zenith ≤ 1.575 := by linarith
    have : x.zenith ^ 3 ≤ 1.575 ^ 3 := pow_le_pow_left₀ hz0 hz 3
    unfold Input.scatter
    nlinarith
  · have : 0 ≤ x.zenith ^ 3 := by positivity
    unfold Input.scatter
    nlinarith

/-- **C74.** Diffuse irradiance is non-negative. -/
theorem C74_diffuse (x : Input) (h : x.OK) :
    0 ≤ x.rayleigh ∧ 0 ≤ x.aerosols ∧ 0 ≤ x.atmosRef ∧ 0 ≤ x.diffuse := by
  obtain ⟨hp, hoz, hv, hta, hle, hs0, hs1⟩ := OK.facts x h
  obtain ⟨hz0, hz1⟩ := zenith_range x h.sunZ0
  have hg := (gases_range hp).1
  have htab : 0 < x.tAbs := lt_of_lt_of_le hta hle
  have hD := denom_pos hp (show (1 : ℝ) ≤ 102 / 100 by norm_num)
  have hcos : 0 ≤ cos x.zenith := cos_nonneg_of_mem_Icc ⟨by linarith [pi_pos], hz1⟩
  have htoa : 0 < x.toa := by have := ecc_pos x.dayAngle; unfold Input.toa; positivity
  have hr1 : 0 ≤ 1 - transRayleigh x.p := by linarith [rayleigh_le_one hp]
  have hq1 : 0 ≤ 1 - x.aerRatio := by
    have : x.aerRatio ≤ 1 := (div_le_one htab).2 hle
    linarith
  have hq0 : 0 < x.aerRatio := div_pos hta htab
  have hs0' : 0 ≤ x.scatter := by linarith
  have hray : 0 ≤ x.rayleigh := by unfold Input.rayleigh; positivity
  have haer : 0 ≤ x.aerosols := by unfold Input.aerosols; positivity
  have hdir : 0 ≤ x.direct := (C74_direct x h.shadow).1
  have hatm0 : 0 ≤ x.atmAlbedo :=
    add_nonneg h.csa0 (mul_nonneg (by linarith) hq1)
  have hatm1 : x.atmAlbedo < 1 := by
    unfold Input.atmAlbedo
    have h1 := h.csa1
    nlinarith
  have hden : 0 < 1 - x.groundAlbedo * x.atmAlbedo := by
    have h1 := h.ga0; have h2 := h.ga1; nlinarith
  have hga := h.ga0
  have hatr : 0 ≤ x.atmosRef := by unfold Input.atmosRef; positivity
  have hdiff : 0 ≤ x.diff := by unfold Input.diff; positivity
  have hsvf0 := h.svf0
  have hsvf1 : 0 ≤ 1 - x.svf := by linarith [h.svf1]
  have hpot : 0 ≤ x.pot := by
    have : 0 ≤ x.shadow := by rcases h.shadow with e | e <;> rw [e] <;> norm_num
    exact mul_nonneg (mul_nonneg htoa.le (le_max_right _ _)) this
  have ht0 : 0 ≤ x.transDir := le_min (le_max_right _ _) zero_le_one
  have hf := h.sunFrac; have hm := h.meanAoi
  exact ⟨hray, haer, hatr, by unfold Input.diffuse; positivity⟩

/-- A lit horizontal surface at sea level under the sun in the zenith, with the default parameters. -/
noncomputable def noon : Input :=
  { press := 101325, water := 10, elev := 0, ozone := 35 / 10000, visibility := 25000, ssa := 9 / 10,
    clearSkyAlbedo := 685 / 10000, groundAlbedo := 1 / 2, svf := 9 / 10, dayAngle := 0, sun := (0, 0, 1),
    normal := (0, 0, 1), shadow := 1, sunFrac := 1, meanAoi := 1 }

theorem noon_ok : noon.OK := by
  have hz : noon.zenith = 0 := by simp [Input.zenith, noon]
  have hm : noon.m ≤ 1 := by
    rw [Input.m, hz, (C74_air_mass_partial le_rfl (by positivity)).1]
    simp only [cos_zero, zero_mul, sub_zero]
    have := rpow_pos_of_pos (show (0 : ℝ) < 93885 / 1000 by norm_num) (-(1253 / 1000))
    rw [div_le_one (by positivity)]; linarith
  have hm0 : 0 < noon.m := by
    rw [Input.m, hz]
    exact lt_of_lt_of_le (by norm_num) (C74_air_mass_partial le_rfl (by positivity)).2
  have hp : noon.p = noon.m := by
    rw [Input.p, airMassPress, show noon.press = 101325 from rfl]; field_simp
  have hpow : noon.p ^ (106 / 100 : ℝ) ≤ 1 := by
    rw [hp]; exact rpow_le_one hm0.le hm (by norm_num)
  constructor
  case ozonePath =>
    rw [show noon.ozone = 35 / 10000 from rfl]; linarith
  case path =>
    rw [show noon.ssa = 9 / 10 from rfl]; rw [hp] at *; linarith
  case shadow => exact Or.inr rfl
  all_goals norm_num [noon]

example : noon.OK ∧ 0 ≤ noon.diffuse := ⟨noon_ok, (C74_diffuse noon noon_ok).2.2.2⟩

/-- **C74.** The transmittances of ozone, gases, water vapour and aerosols are fractions; that of Rayleigh
scattering is at most 1. -/
theorem C74_transmittances {p l w v : ℝ} (hp : 0 < p) (hl : 0 ≤ l) (hl' : l ≤ 50) (hw : 0 ≤ w) (hv : 2 ≤ v) :
    (0 ≤ transOzone l ∧ transOzone l ≤ 1) ∧ (0 < transGases p ∧ transGases p ≤ 1) ∧
    (0 < transVapor w ∧ transVapor w ≤ 1) ∧ (0 < transAerosols v p ∧ transAerosols v p < 1) ∧
    transRayleigh p ≤ 1 :=
  ⟨ozone_range hl hl', gases_range hp, vapor_range hw, aerosols_range hv hp, rayleigh_le_one hp⟩

end Verif.ClearSky
