import Verif.Model.Soil
import Verif.Props.HeatConduction
import Mathlib.Analysis.SpecialFunctions.Pow.Deriv
import Mathlib.Analysis.SpecialFunctions.Pow.Continuity

/-!
# Soil moisture phases, thermal properties, temperature and heat flux (C81, C82, C84)
-/

namespace Verif.Soil

open Verif.Atmosphere (T0 grav)
open Verif.Surface (lf cWater cIce)
open Classical

/-- Positive soil parameters. -/
structure Physical (p : Params) : Prop where
  capDry : 0 < p.capDry
  b : 0 < p.b
  psi : 0 < p.psi
  sat : 0 < p.sat
  condDry : 0 < p.condDry

/-! ## Lemmas -/

theorem kappa_pos : 0 < kappa := by norm_num [kappa, rhoIce, rhoWater, lf, T0, grav]

/-- Normalised suction at temperature `t`. -/
noncomputable def suction (p : Params) (t : ℝ) : ℝ := kappa * (T0 - t) / p.psi

theorem suction_eq (p : Params) (t : ℝ) : -kappa * (t - T0) / p.psi = suction p t := by
  unfold suction; ring

theorem lt_tempMax {p : Params} (h : Physical p) (θ t : ℝ) :
    t < tempMax p θ ↔ (p.sat / θ) ^ p.b < suction p t := by
  have hk := kappa_pos
  have hp := h.psi
  unfold tempMax suction
  rw [lt_div_iff₀ hp, lt_sub_comm, div_mul_eq_mul_div, div_lt_iff₀ hk]
  constructor <;> intro h' <;> linarith

theorem pow_inv_sat {p : Params} (h : Physical p) {θ : ℝ} (hθ : 0 < θ) :
    p.sat * ((p.sat / θ) ^ p.b) ^ (-1 / p.b) = θ := by
  have hs := h.sat
  have hb := h.b.ne'
  rw [← Real.rpow_mul (by positivity)]
  have : p.b * (-1 / p.b) = -1 := by field_simp
  rw [this, Real.rpow_neg_one]
  field_simp

/-- Unfrozen content as a function of suction. -/
theorem unfrozen_eq {p : Params} (h : Physical p) {θ : ℝ} (hθ : 0 < θ) (t : ℝ) :
    unfrozen p θ t = p.sat * (max (suction p t) ((p.sat / θ) ^ p.b)) ^ (-1 / p.b) := by
  have hs := h.sat
  have hb := h.b
  have hx : 0 < (p.sat / θ) ^ p.b := Real.rpow_pos_of_pos (by positivity) _
  have hexp : -1 / p.b ≤ 0 := div_nonpos_of_nonpos_of_nonneg (by norm_num) hb.le
  unfold unfrozen
  split_ifs with hlt
  · rw [lt_tempMax h] at hlt
    rw [max_eq_left hlt.le, maxUnfrozen, suction_eq]
    refine min_eq_left ?_
    calc p.sat * suction p t ^ (-1 / p.b) ≤ p.sat * ((p.sat / θ) ^ p.b) ^ (-1 / p.b) :=
          mul_le_mul_of_nonneg_left (Real.rpow_le_rpow_of_nonpos hx hlt.le hexp) hs.le
      _ = θ := pow_inv_sat h hθ
  · rw [lt_tempMax h, not_lt] at hlt
    rw [max_eq_right hlt, pow_inv_sat h hθ]

/-! ## C81 -/

/-- **C81.** Unfrozen and frozen water (as mass relative to saturation) add up to the water in the soil, and neither
is negative. -/
theorem C81_water (p : Params) (h : Physical p) (θ t : ℝ) (hθ : 0 < θ) :
    fracUnfrozen p θ t + fracFrozen p θ t = θ / p.sat ∧ 0 < fracUnfrozen p θ t ∧ 0 ≤ fracFrozen p θ t ∧
    0 < unfrozen p θ t ∧ unfrozen p θ t ≤ θ := by
  have hs := h.sat
  have hx : 0 < (p.sat / θ) ^ p.b := Real.rpow_pos_of_pos (by positivity) _
  have hu : 0 < unfrozen p θ t := by
    rw [unfrozen_eq h hθ]
    have : 0 < max (suction p t) ((p.sat / θ) ^ p.b) := lt_max_of_lt_right hx
    have := Real.rpow_pos_of_pos this (-1 / p.b)
    positivity
  have hle : unfrozen p θ t ≤ θ := by
    unfold unfrozen
    split_ifs
    · exact min_le_right _ _
    · exact le_rfl
  refine ⟨?_, div_pos hu hs, ?_, hu, hle⟩
  · unfold fracUnfrozen fracFrozen frozen rhoIce rhoWater
    field_simp
    ring
  · unfold fracFrozen frozen rhoIce rhoWater
    have : 0 ≤ θ - unfrozen p θ t := by linarith
    positivity

/-- **C81.** Part of the water is frozen exactly below the freezing threshold, which lies below 0 °C and falls with
drying. -/
theorem C81_threshold (p : Params) (h : Physical p) (θ t : ℝ) (hθ : 0 < θ) :
    (unfrozen p θ t < θ ↔ t < tempMax p θ) ∧ tempMax p θ < T0 ∧
    (∀ θ', 0 < θ' → θ' < θ → tempMax p θ' < tempMax p θ) := by
  have hs := h.sat
  have hb := h.b
  have hx : 0 < (p.sat / θ) ^ p.b := Real.rpow_pos_of_pos (by positivity) _
  have hpk : 0 < p.psi / kappa := div_pos h.psi kappa_pos
  refine ⟨⟨fun hlt => ?_, fun hlt => ?_⟩, ?_, fun θ' h0 h1 => ?_⟩
  · by_contra hn
    rw [unfrozen, if_neg hn] at hlt
    exact lt_irrefl _ hlt
  · rw [unfrozen_eq h hθ]
    rw [lt_tempMax h] at hlt
    rw [max_eq_left hlt.le]
    calc p.sat * suction p t ^ (-1 / p.b) < p.sat * ((p.sat / θ) ^ p.b) ^ (-1 / p.b) :=
          mul_lt_mul_of_pos_left (Real.rpow_lt_rpow_of_neg hx hlt (div_neg_of_neg_of_pos (by norm_num) hb)) hs
      _ = θ := pow_inv_sat h hθ
  · unfold tempMax
    have := mul_pos hpk hx
    linarith
  · unfold tempMax
    have h2 : (p.sat / θ) ^ p.b < (p.sat / θ') ^ p.b :=
      Real.rpow_lt_rpow (by positivity) (div_lt_div_of_pos_left hs h0 h1) hb
    have := mul_lt_mul_of_pos_left h2 hpk
    linarith

/-- **C81.** In freezing soil the suction of the remaining unfrozen water (Clapp and Hornberger) is in equilibrium with
ice: it is the frost depression times `ρ_i L_f / (ρ_w T_0 g)`. -/
theorem C81_equilibrium (p : Params) (h : Physical p) (θ t : ℝ) (hθ : 0 < θ) (ht : t < tempMax p θ) :
    p.psi * (unfrozen p θ t / p.sat) ^ (-p.b) =
      917 / 1000 * 334000 / (27315 / 100 * (980665 / 100000)) * (27315 / 100 - t) := by
  have hs := h.sat
  have hb := h.b
  have hp := h.psi
  have hx : 0 < (p.sat / θ) ^ p.b := Real.rpow_pos_of_pos (by positivity) _
  have hlt := (lt_tempMax h θ t).1 ht
  have hsu : 0 < suction p t := hx.trans hlt
  rw [unfrozen_eq h hθ, max_eq_left hlt.le, mul_div_cancel_left₀ _ hs.ne', ← Real.rpow_mul hsu.le]
  have : -1 / p.b * -p.b = 1 := by field_simp
  rw [this, Real.rpow_one]
  unfold suction kappa rhoIce rhoWater lf T0 grav
  field_simp

/-- **C81.** The unfrozen content is continuous and non-decreasing in temperature. -/
theorem C81_unfrozen_monotone (p : Params) (h : Physical p) (θ : ℝ) (hθ : 0 < θ) :
    Continuous (unfrozen p θ) ∧ Monotone (unfrozen p θ) := by
  have hs := h.sat
  have hb := h.b
  have hx : 0 < (p.sat / θ) ^ p.b := Real.rpow_pos_of_pos (by positivity) _
  have hmax : ∀ t, 0 < max (suction p t) ((p.sat / θ) ^ p.b) := fun t => lt_max_of_lt_right hx
  have e : unfrozen p θ = fun t => p.sat * (max (suction p t) ((p.sat / θ) ^ p.b)) ^ (-1 / p.b) :=
    funext (unfrozen_eq h hθ)
  rw [e]
  constructor
  · refine continuous_const.mul (Continuous.rpow_const ?_ fun t => Or.inl (hmax t).ne')
    unfold suction
    fun_prop
  · intro s t hst
    simp only
    refine mul_le_mul_of_nonneg_left (Real.rpow_le_rpow_of_nonpos (hmax t) ?_
      (div_nonpos_of_nonpos_of_nonneg (by norm_num) hb.le)) hs.le
    refine max_le_max ?_ le_rfl
    unfold suction
    have := kappa_pos
    exact div_le_div_of_nonneg_right (by nlinarith) h.psi.le

/-- **C81.** The rate used for the heat capacity is the derivative of the unfrozen content, away from the threshold;
it is never negative. -/
theorem C81_derivative (p : Params) (h : Physical p) (θ t : ℝ) (hθ : 0 < θ) (ht : t ≠ tempMax p θ) :
    HasDerivAt (unfrozen p θ) (dUnfrozen p θ t) t ∧ 0 ≤ dUnfrozen p θ t := by
  have hs := h.sat
  have hb := h.b
  have hp := h.psi
  have hk := kappa_pos
  have hx : 0 < (p.sat / θ) ^ p.b := Real.rpow_pos_of_pos (by positivity) _
  rcases lt_or_gt_of_ne ht with hlt | hgt
  · have hsu : 0 < suction p t := hx.trans ((lt_tempMax h θ t).1 hlt)
    have e : dUnfrozen p θ t = kappa * p.sat / (p.b * p.psi) * suction p t ^ (-1 / p.b - 1) := by
      rw [dUnfrozen, if_pos hlt, suction_eq]
    constructor
    · have h1 : HasDerivAt (suction p) (-(kappa / p.psi)) t := by
        have : HasDerivAt (fun u => kappa * (T0 - u) / p.psi) (kappa * (0 - 1) / p.psi) t :=
          (((hasDerivAt_const t T0).sub (hasDerivAt_id t)).const_mul kappa).div_const p.psi
        exact this.congr_deriv (by ring)
      have h2 := (h1.rpow_const (p := -1 / p.b) (Or.inl hsu.ne')).const_mul p.sat
      have h3 : HasDerivAt (fun u => p.sat * suction p u ^ (-1 / p.b)) (dUnfrozen p θ t) t := by
        refine h2.congr_deriv ?_
        rw [e]
        field_simp
      refine h3.congr_of_eventuallyEq ?_
      filter_upwards [isOpen_Iio.mem_nhds hlt] with u hu
      rw [unfrozen_eq h hθ, max_eq_left ((lt_tempMax h θ u).1 hu).le]
    · rw [e]
      have := Real.rpow_pos_of_pos hsu (-1 / p.b - 1)
      positivity
  · have e : dUnfrozen p θ t = 0 := by rw [dUnfrozen, if_neg (not_lt.2 hgt.le)]
    rw [e]
    refine ⟨(hasDerivAt_const t θ).congr_of_eventuallyEq ?_, le_rfl⟩
    filter_upwards [isOpen_Ioi.mem_nhds hgt] with u hu
    rw [unfrozen, if_neg (not_lt.2 (le_of_lt hu))]

/-- **C81.** The rate is never negative, at the threshold either. -/
theorem dUnfrozen_nonneg {p : Params} (h : Physical p) {θ : ℝ} (hθ : 0 < θ) (t : ℝ) : 0 ≤ dUnfrozen p θ t := by
  by_cases ht : t = tempMax p θ
  · rw [dUnfrozen, if_neg (by rw [ht]; exact lt_irrefl _)]
  · exact (C81_derivative p h θ t hθ ht).2

/-- **C81.** Moist soil has a larger heat capacity than dry soil, by at least that of its water as ice. -/
theorem C81_heat_capacity (p : Params) (h : Physical p) (θ t d : ℝ) (hθ : 0 ≤ θ) (ht : 0 ≤ t) (hd : 0 < d) :
    p.capDry * d + 2100000 * θ * d ≤ heatCap p θ t d ∧ 0 < heatCap p θ t d ∧ heatCap p 0 t d = p.capDry * d := by
  have key : p.capDry + 2100000 * θ ≤ volHeatCap p θ t := by
    rcases hθ.eq_or_lt with rfl | hθ'
    · simp [volHeatCap]
    · have hu := (C81_water p h θ t hθ').2.2.2.1
      have hle := (C81_water p h θ t hθ').2.2.2.2
      have hd' := dUnfrozen_nonneg h hθ' t
      have : 0 ≤ rhoWater * ((cWater - cIce) * t + lf) * dUnfrozen p θ t := by
        have : (0 : ℝ) ≤ rhoWater := by norm_num [rhoWater]
        have : (0 : ℝ) ≤ cWater - cIce := by norm_num [cWater, cIce]
        have : (0 : ℝ) ≤ lf := by norm_num [lf]
        positivity
      rw [volHeatCap, if_pos hθ']
      have e : rhoIce * cIce * frozen p θ t = 2100000 * (θ - unfrozen p θ t) := by
        unfold frozen rhoIce cIce rhoWater; field_simp; ring
      have e2 : rhoWater * cWater * unfrozen p θ t = 4180000 * unfrozen p θ t := by
        unfold rhoWater cWater; ring
      rw [e, e2]
      linarith
  have hc := h.capDry
  unfold heatCap
  refine ⟨?_, ?_, by simp [volHeatCap]⟩
  · have := mul_le_mul_of_nonneg_right key hd.le
    linarith
  · have : 0 < volHeatCap p θ t := by linarith
    positivity

/-- **C81.** The conductivity rises from that of dry soil to that of saturated soil; for frozen soil the latter is
larger. -/
theorem C81_conductivity (p : Params) (h : Physical p) (θ t : ℝ) (hθ : 0 < θ) (hle : θ ≤ p.sat) :
    p.condDry < cond p θ t ∧ cond p θ t ≤ condSat p θ t ∧ (θ = p.sat → cond p θ t = condSat p θ t) ∧
    p.condDry * (kWater / kAir) ^ p.sat ≤ condSat p θ t ∧ condSat p θ t ≤ p.condDry * (kIce / kAir) ^ p.sat ∧
    cond p 0 t = p.condDry := by
  have hs := h.sat
  have hc := h.condDry
  obtain ⟨hsum, hu, hf, -, -⟩ := C81_water p h θ t hθ
  have hl0 : 0 ≤ liquidSat p θ t := by unfold liquidSat; positivity
  have hl1 : liquidSat p θ t ≤ p.sat := by
    unfold liquidSat
    refine mul_le_of_le_one_right hs.le ((div_le_one (by linarith)).2 (by linarith))
  have ka : 0 < kAir := by norm_num [kAir]
  have kw : 0 < kWater := by norm_num [kWater]
  have ki : 0 < kIce := by norm_num [kIce]
  generalize hl : liquidSat p θ t = l at *
  have hrem : 0 ≤ p.sat - l := by linarith
  have eS : condSat p θ t = p.condDry * ((kWater / kAir) ^ l * (kIce / kAir) ^ (p.sat - l)) := by
    unfold condSat
    rw [hl, Real.div_rpow kw.le ka.le, Real.div_rpow ki.le ka.le]
    have hk : kAir ^ p.sat = kAir ^ l * kAir ^ (p.sat - l) := by
      rw [← Real.rpow_add ka]; congr 1; ring
    rw [hk]
    have := (Real.rpow_pos_of_pos ka l).ne'
    have := (Real.rpow_pos_of_pos ka (p.sat - l)).ne'
    field_simp
  have r1 : (1 : ℝ) < kWater / kAir := by norm_num [kWater, kAir]
  have r2 : kWater / kAir ≤ kIce / kAir := by norm_num [kWater, kIce, kAir]
  have split : ∀ x : ℝ, 0 < x → x ^ p.sat = x ^ l * x ^ (p.sat - l) := fun x hx => by
    rw [← Real.rpow_add hx]; congr 1; ring
  have low : p.condDry * (kWater / kAir) ^ p.sat ≤ condSat p θ t := by
    rw [eS, split _ (by linarith)]
    refine mul_le_mul_of_nonneg_left (mul_le_mul_of_nonneg_left (Real.rpow_le_rpow (by linarith) r2 hrem)
      (Real.rpow_nonneg (by linarith) _)) hc.le
  have high : condSat p θ t ≤ p.condDry * (kIce / kAir) ^ p.sat := by
    rw [eS, split _ (by linarith)]
    refine mul_le_mul_of_nonneg_left (mul_le_mul_of_nonneg_right (Real.rpow_le_rpow (by linarith) r2 hl0)
      (Real.rpow_nonneg (by linarith) _)) hc.le
  have hgt : p.condDry < condSat p θ t := by
    refine lt_of_lt_of_le ?_ low
    exact lt_mul_of_one_lt_right hc (Real.one_lt_rpow r1 hs)
  have eC : cond p θ t = p.condDry + (condSat p θ t - p.condDry) * (θ / p.sat) := by
    rw [cond, if_pos hθ]; ring
  have q0 : 0 < θ / p.sat := by positivity
  have q1 : θ / p.sat ≤ 1 := (div_le_one hs).2 hle
  refine ⟨by rw [eC]; nlinarith, by rw [eC]; nlinarith, fun he => ?_, low, high, by simp [cond]⟩
  rw [eC, he, div_self hs.ne']; ring

/-- **C81.** Parameters of a soil of sand and clay: all positive; the critical moisture content is below saturation;
the dry heat capacity lies between those of sand and clay. -/
theorem C81_init (sand clay : ℝ) (h0 : 0 ≤ sand) (h1 : 0 ≤ clay) (hpos : 0 < sand + clay) (hle : sand + clay ≤ 1) :
    Physical (init sand clay) ∧ 0 < (init sand clay).crit ∧ (init sand clay).crit < (init sand clay).sat ∧
    (init sand clay).sat < 1 ∧ 2128000 ≤ (init sand clay).capDry ∧ (init sand clay).capDry ≤ 2385000 := by
  have hb : 0 < 31 / 10 + 157 / 10 * clay - 3 / 10 * sand := by linarith
  have hs : 0 < 505 / 1000 - 37 / 1000 * clay - 142 / 1000 * sand := by linarith
  have hpsi : 0 < (10 : ℝ) ^ (17 / 100 - 63 / 100 * clay - 158 / 100 * sand) :=
    Real.rpow_pos_of_pos (by norm_num) _
  have hpsi1 : (10 : ℝ) ^ (17 / 100 - 63 / 100 * clay - 158 / 100 * sand) < 3364 / 1000 := by
    have h2 : (10 : ℝ) ^ (17 / 100 - 63 / 100 * clay - 158 / 100 * sand) ≤ (10 : ℝ) ^ ((1 : ℝ) / 2) :=
      Real.rpow_le_rpow_of_exponent_le (by norm_num) (by linarith)
    refine lt_of_le_of_lt h2 ?_
    rw [← Real.sqrt_eq_rpow, Real.sqrt_lt' (by norm_num)]
    norm_num
  have hr0 : 0 < (10 : ℝ) ^ (17 / 100 - 63 / 100 * clay - 158 / 100 * sand) / (3364 / 1000) := by positivity
  have hr1 : (10 : ℝ) ^ (17 / 100 - 63 / 100 * clay - 158 / 100 * sand) / (3364 / 1000) < 1 :=
    (div_lt_one (by norm_num)).2 hpsi1
  have hm : 0 < condMinerals clay := by
    unfold condMinerals kClay kSand; positivity
  have ka : 0 < kAir := by norm_num [kAir]
  have hcap : 2128000 ≤ (2128000 * sand + 2385000 * clay) / (sand + clay) ∧
      (2128000 * sand + 2385000 * clay) / (sand + clay) ≤ 2385000 := by
    rw [le_div_iff₀ hpos, div_le_iff₀ hpos]
    constructor <;> linarith
  have hpow := Real.rpow_pos_of_pos hr0 (1 / (31 / 10 + 157 / 10 * clay - 3 / 10 * sand))
  refine ⟨⟨by simp only [init]; linarith [hcap.1], hb, hpsi, hs, ?_⟩, ?_, ?_, ?_, hcap.1, hcap.2⟩
  · simp only [init]
    exact mul_pos (Real.rpow_pos_of_pos ka _) (Real.rpow_pos_of_pos hm _)
  · simp only [init]
    exact mul_pos hs hpow
  · simp only [init]
    exact mul_lt_of_lt_one_right hs (Real.rpow_lt_one hr0.le hr1 (by positivity))
  · simp only [init]; linarith

/-- **C81.** The dry conductivity lies between those of air and sand, and the initial moisture is the given fraction of
saturation. -/
theorem C81_init_values (sand clay frac : ℝ) (h0 : 0 ≤ sand) (h1 : 0 ≤ clay) (hpos : 0 < sand + clay)
    (hle : sand + clay ≤ 1) :
    25 / 1000 ≤ (init sand clay).condDry ∧ (init sand clay).condDry ≤ 157 / 100 ∧
    initMoisture (init sand clay) frac / (init sand clay).sat = frac := by
  have hs : 0 < (init sand clay).sat := (C81_init sand clay h0 h1 hpos hle).1.sat
  have hs1 : (init sand clay).sat < 1 := (C81_init sand clay h0 h1 hpos hle).2.2.2.1
  have e : (init sand clay).condDry = kAir ^ (init sand clay).sat * condMinerals clay ^ (1 - (init sand clay).sat) := rfl
  refine ⟨?_, ?_, by unfold initMoisture; field_simp⟩
  all_goals
    rw [e]
    generalize (init sand clay).sat = v at *
    have hv : 0 ≤ 1 - v := by linarith
    have hc : 0 ≤ 1 - clay := by linarith
    have key : ∀ (x u : ℝ), 0 < x → x = x ^ u * x ^ (1 - u) := fun x u hx => by
      rw [← Real.rpow_add hx]; simp
    have ka : (0 : ℝ) < kAir := by norm_num [kAir]
    have kc : (0 : ℝ) < kClay := by norm_num [kClay]
    have ks : (0 : ℝ) < kSand := by norm_num [kSand]
    have acl : kAir ≤ kClay := by norm_num [kAir, kClay]
    have csl : kClay ≤ kSand := by norm_num [kSand, kClay]
    have m0 : kClay ≤ condMinerals clay := by
      unfold condMinerals
      calc kClay = kClay ^ clay * kClay ^ (1 - clay) := key _ _ kc
        _ ≤ _ := mul_le_mul_of_nonneg_left (Real.rpow_le_rpow kc.le csl hc) (Real.rpow_nonneg kc.le _)
    have m1 : condMinerals clay ≤ kSand := by
      unfold condMinerals
      calc _ ≤ kSand ^ clay * kSand ^ (1 - clay) :=
            mul_le_mul_of_nonneg_right (Real.rpow_le_rpow kc.le csl h1) (Real.rpow_nonneg ks.le _)
        _ = kSand := (key _ _ ks).symm
  · calc (25 / 1000 : ℝ) = kAir := rfl
      _ = kAir ^ v * kAir ^ (1 - v) := key _ _ ka
      _ ≤ _ := mul_le_mul_of_nonneg_left (Real.rpow_le_rpow ka.le (acl.trans m0) hv) (Real.rpow_nonneg ka.le _)
  · calc kAir ^ v * condMinerals clay ^ (1 - v) ≤ kSand ^ v * kSand ^ (1 - v) :=
          mul_le_mul (Real.rpow_le_rpow ka.le (acl.trans csl) hs.le)
            (Real.rpow_le_rpow (kc.le.trans m0) m1 hv) (Real.rpow_nonneg (kc.le.trans m0) _)
            (Real.rpow_nonneg ks.le _)
      _ = kSand := (key _ _ ks).symm
      _ = 157 / 100 := rfl

/-- Non-vacuity: a loam with 60 % of its pore space filled. -/
example : ∃ p θ, Physical p ∧ 0 < θ ∧ θ ≤ p.sat :=
  ⟨init (1 / 2) (3 / 10), initMoisture (init (1 / 2) (3 / 10)) (6 / 10),
    (C81_init _ _ (by norm_num) (by norm_num) (by norm_num) (by norm_num)).1,
    by norm_num [initMoisture, init], by norm_num [initMoisture, init]⟩

/-! ## C84: heat capacity and enthalpy -/

/-- Specification: heat content of a volume of soil relative to 0 °C with all water frozen, for a heat of fusion
`fusion` at 0 °C: dry soil, liquid water, ice, and the heat bound by the liquid water. -/
noncomputable def enthalpy (p : Params) (θ fusion t : ℝ) : ℝ :=
  p.capDry * (t - T0) + 1000 * 4180 * unfrozen p θ t * (t - T0) + 1000 * 2100 * (θ - unfrozen p θ t) * (t - T0) +
    1000 * fusion * unfrozen p θ t

theorem enthalpy_deriv (p : Params) (h : Physical p) (θ fusion t : ℝ) (hθ : 0 < θ) (ht : t ≠ tempMax p θ) :
    HasDerivAt (enthalpy p θ fusion) (p.capDry + 1000 * 4180 * unfrozen p θ t +
      1000 * 2100 * (θ - unfrozen p θ t) + 1000 * ((4180 - 2100) * (t - T0) + fusion) * dUnfrozen p θ t) t := by
  obtain ⟨hd, -⟩ := C81_derivative p h θ t hθ ht
  have hT : HasDerivAt (fun u => u - T0) 1 t := (hasDerivAt_id t).sub_const T0
  have h1 := hT.const_mul p.capDry
  have h2 := (hd.const_mul (1000 * 4180)).mul hT
  have h3 := (((hasDerivAt_const t θ).sub hd).const_mul (1000 * 2100)).mul hT
  have h4 := hd.const_mul (1000 * fusion)
  refine (((h1.add h2).add h3).add h4).congr_deriv ?_
  simp only [Pi.sub_apply]
  ring

theorem volHeatCap_form (p : Params) (θ t : ℝ) (hθ : 0 < θ) :
    volHeatCap p θ t = p.capDry + 1000 * 4180 * unfrozen p θ t + 1000 * 2100 * (θ - unfrozen p θ t) +
      1000 * ((4180 - 2100) * t + 334000) * dUnfrozen p θ t := by
  rw [volHeatCap, if_pos hθ]
  unfold frozen rhoIce cIce rhoWater cWater lf
  ring

/-- **C84, where it holds.** Above the freezing threshold the heat capacity is the derivative of the heat content. Missing:
freezing soil, see `C84_freezing_false`. -/
theorem C84_unfrozen_partial (p : Params) (h : Physical p) (θ t : ℝ) (hθ : 0 < θ) (ht : tempMax p θ < t) :
    HasDerivAt (enthalpy p θ 334000) (volHeatCap p θ t) t := by
  have := enthalpy_deriv p h θ 334000 t hθ ht.ne'
  rw [volHeatCap_form p θ t hθ]
  have e : dUnfrozen p θ t = 0 := by rw [dUnfrozen, if_neg (not_lt.2 ht.le)]
  rw [e] at this ⊢
  simpa using this

/-- **C84 is false in freezing soil.** The temperature enters the heat of fusion in kelvin instead of degrees Celsius:
the heat capacity is the derivative of the heat content for a heat of fusion of 902,152 instead of 334,000 J/kg, and
never the one for 334,000 J/kg. -/
theorem C84_freezing_false (p : Params) (h : Physical p) (θ t : ℝ) (hθ : 0 < θ) (ht : t < tempMax p θ) :
    HasDerivAt (enthalpy p θ 902152) (volHeatCap p θ t) t ∧
    ¬ HasDerivAt (enthalpy p θ 334000) (volHeatCap p θ t) t := by
  have e := volHeatCap_form p θ t hθ
  constructor
  · have := enthalpy_deriv p h θ 902152 t hθ ht.ne
    rw [e]
    refine this.congr_deriv ?_
    unfold T0
    ring
  · intro hd
    have hu := hd.unique (enthalpy_deriv p h θ 334000 t hθ ht.ne)
    rw [e] at hu
    have hpos : 0 < dUnfrozen p θ t := by
      have hx : 0 < (p.sat / θ) ^ p.b := Real.rpow_pos_of_pos (div_pos h.sat hθ) _
      have hsu : 0 < suction p t := hx.trans ((lt_tempMax h θ t).1 ht)
      rw [dUnfrozen, if_pos ht, suction_eq]
      have := Real.rpow_pos_of_pos hsu (-1 / p.b - 1)
      have := kappa_pos; have := h.sat; have := h.b; have := h.psi
      positivity
    have : (1000 * (4180 - 2100) * T0) * dUnfrozen p θ t = 0 := by linarith
    rcases mul_eq_zero.1 this with h' | h'
    · norm_num [T0] at h'
    · exact hpos.ne' h'

/-! ## C82 -/

section
variable {K : Type*} [Field K] [LinearOrder K] [IsStrictOrderedRing K]

/-- **C82.** Without snow the flux into the soil is the surface heat flux; under snow it has the sign of the
temperature difference between the lowest snow layer and the top soil layer. -/
theorem C82_flux (surface : K) (snow : List (FluxLayer K)) (soil : FluxLayer K) (hd : 0 < soil.thickness)
    (hk : 0 < soil.cond) :
    heatFlux surface [] soil = surface ∧
    ∀ s, 0 < s.thickness → 0 < s.cond →
      (heatFlux surface (snow ++ [s]) soil * (s.thickness / 2 / s.cond + soil.thickness / 2 / soil.cond) =
        s.temp - soil.temp) ∧
      (0 < heatFlux surface (snow ++ [s]) soil ↔ soil.temp < s.temp) ∧
      (heatFlux surface (snow ++ [s]) soil < 0 ↔ s.temp < soil.temp) := by
  refine ⟨rfl, fun s h1 h2 => ?_⟩
  have hr : 0 < s.thickness / s.cond + soil.thickness / soil.cond := by positivity
  have hr2 : 0 < 2 / (s.thickness / s.cond + soil.thickness / soil.cond) := by positivity
  have e : heatFlux surface (snow ++ [s]) soil =
      2 / (s.thickness / s.cond + soil.thickness / soil.cond) * (s.temp - soil.temp) := by
    simp [heatFlux]
  rw [e]
  refine ⟨?_, ?_, ?_⟩
  · have : s.thickness / 2 / s.cond + soil.thickness / 2 / soil.cond =
        (s.thickness / s.cond + soil.thickness / soil.cond) / 2 := by ring
    rw [this]
    field_simp
  · rw [mul_pos_iff_of_pos_left hr2, sub_pos]
  · rw [← sub_neg (a := s.temp)]
    exact smul_neg_iff_of_pos_left hr2

/-- **C82, energy balance.** In a time step the column gains the flux at the top less the heat that the warming of the
lowest layer drives into the ground below, which is held at that layer's old temperature.  Missing: a bottom without
heat flux. -/
theorem C82_balance_partial (N : ℕ) (dx T lam hc : ℕ → K) (dt flux : K)
    (h : Heat.Physical (column N dx T lam hc dt flux)) (x : List K)
    (hx : Heat.tempChange (column N dx T lam hc dt flux) = some x) :
    ∑ k ∈ Finset.range N, hc k * x.getD k 0 = dt * (flux - lam (N - 1) / dx (N - 1) * x.getD (N - 1) 0) := by
  have hb := Heat.C21_column_energy_balance _ h x hx
  have h1 : 0 < dx (N - 1) := h.dxBottom
  have h2 : 0 < lam (N - 1) := h.lamBottom
  have e : Heat.newTemp (column N dx T lam hc dt flux) x (N - 1) = T (N - 1) + x.getD (N - 1) 0 := rfl
  simp only [column] at hb e
  rw [e] at hb
  rw [hb]
  congr 2
  field_simp
  ring

/-- **C82.** The temperature field of the domain changes at every pixel as the column of this pixel alone does, so
that the statements about a column hold for every pixel of the domain. -/
theorem C82_field {ι : Type*} (N : ℕ) (dx T lam hc : ℕ → ι → K) (dt : K) (flux : ι → K) (i : ι)
    (h : Heat.Physical (column N (fun k => dx k i) (fun k => T k i) (fun k => lam k i) (fun k => hc k i) dt (flux i))) :
    ∃ x, Heat.tempChange (column N (fun k => dx k i) (fun k => T k i) (fun k => lam k i) (fun k => hc k i) dt
        (flux i)) = some x ∧ x.length = N ∧
      ∀ k, k < N → soilTemperature N dx T lam hc dt flux k i = T k i + x.getD k 0 := by
  obtain ⟨x, h1, h2, -⟩ := Heat.C21_layer_energy_balance _ h
  refine ⟨x, h1, h2, fun k hk => ?_⟩
  have e := Heat.C21_array
    { N := N, dx := dx, T := T, lam := lam, hc := hc, dt := dt, Tbottom := T (N - 1), dxBottom := dx (N - 1),
      lamBottom := lam (N - 1), flux := flux } h.layers i x h1
  simp only [soilTemperature]
  rw [← e, List.getD_eq_getElem?_getD, List.getD_eq_getElem?_getD, List.getElem?_map]
  congr 1
  cases (Heat.tempChangeArr (ι := ι) (K := K)
    { N := N, dx := dx, T := T, lam := lam, hc := hc, dt := dt, Tbottom := T (N - 1), dxBottom := dx (N - 1),
      lamBottom := lam (N - 1), flux := flux })[k]? <;> rfl

/-- **C82.** Exactly if the lowest layer keeps its temperature no heat passes the bottom. -/
theorem C82_bottom (N : ℕ) (dx T lam hc : ℕ → K) (dt flux : K)
    (h : Heat.Physical (column N dx T lam hc dt flux)) (x : List K)
    (hx : Heat.tempChange (column N dx T lam hc dt flux) = some x) :
    ∑ k ∈ Finset.range N, hc k * x.getD k 0 = dt * flux ↔ x.getD (N - 1) 0 = 0 := by
  rw [C82_balance_partial N dx T lam hc dt flux h x hx]
  have h1 : 0 < dx (N - 1) := h.dxBottom
  have h2 : 0 < lam (N - 1) := h.lamBottom
  have h3 : dt ≠ 0 := (h.dt : 0 < dt).ne'
  have h4 : lam (N - 1) / dx (N - 1) ≠ 0 := (div_pos h2 h1).ne'
  constructor
  · intro he
    have := mul_left_cancel₀ h3 he
    have : lam (N - 1) / dx (N - 1) * x.getD (N - 1) 0 = 0 := by linarith
    exact (mul_eq_zero.1 this).resolve_left h4
  · intro he; rw [he]; ring

/-- **C82.** Without flux at the top no layer becomes warmer than the warmest or colder than the coldest one. -/
theorem C82_extrema (N : ℕ) (dx T lam hc : ℕ → K) (dt : K) (h : Heat.Physical (column N dx T lam hc dt 0))
    (lo hi : K) (hT : ∀ k, k < N → lo ≤ T k ∧ T k ≤ hi) (x : List K)
    (hx : Heat.tempChange (column N dx T lam hc dt 0) = some x) (k : ℕ) (hk : k < N) :
    lo ≤ T k + x.getD k 0 ∧ T k + x.getD k 0 ≤ hi := by
  have hN : 0 < N := h.layers
  exact Heat.C22_maximum_principle _ h rfl lo hi hT (hT (N - 1) (by omega)) x hx k hk

end

/-- **C82 is false at the bottom.** A single layer of 0.1 m warmed by 100 W/m² for an hour stores only 82 % of the
heat. -/
theorem C82_leak_false : ∃ (dx T lam hc : ℕ → ℚ) (dt flux : ℚ) (x : List ℚ),
    Heat.Physical (column 1 dx T lam hc dt flux) ∧ Heat.tempChange (column 1 dx T lam hc dt flux) = some x ∧
    ∑ k ∈ Finset.range 1, hc k * x.getD k 0 < 83 / 100 * (dt * flux) := by
  refine ⟨fun _ => 1 / 10, fun _ => 280, fun _ => 1, fun _ => 160000, 3600, 100, [360000 / 196000], ?_, ?_, ?_⟩
  · constructor <;> norm_num [column]
  · norm_num [Heat.tempChange, Heat.between, column]
  · norm_num

end Verif.Soil
