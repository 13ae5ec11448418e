import Verif.Model.Surface
import Mathlib.Tactic.Positivity
import Mathlib.Tactic.Linarith
import Mathlib.Tactic.FieldSimp
import Mathlib.Analysis.SpecialFunctions.Log.Basic
import Mathlib.Topology.Order.Lattice

/-!
# Surface properties and multi-layer energy balance (C77, C78, C79)
-/

namespace Verif.Surface

open Verif.Atmosphere (T0 grav cp rv)

open Classical

/-! ## C77 -/

/-- **C77.** The surface albedo lies between those of snow and soil, equals that of soil without snow (whatever the
snow albedo, even undefined) and that of snow under full cover, and increases with snow cover if snow is brighter. -/
theorem C77_albedo (af : ℝ) (h0 : 0 ≤ af) (h1 : af ≤ 1) (snow soil : ℝ) :
    (∃ a, albedo af (some snow) soil = some a ∧ min snow soil ≤ a ∧ a ≤ max snow soil) ∧
    (∀ s, albedo 0 s soil = some soil) ∧ albedo 1 (some snow) soil = some snow ∧
    (soil < snow → ∀ af', af < af' → ∀ a a', albedo af (some snow) soil = some a →
      albedo af' (some snow) soil = some a' → a < a') := by
  refine ⟨?_, fun s => by simp [albedo], by simp [albedo], fun hs af' haf a a' ha ha' => ?_⟩
  · by_cases h : 0 < af
    · refine ⟨af * snow + (1 - af) * soil, by simp [albedo, h], ?_, ?_⟩
      · have := min_le_left snow soil; have := min_le_right snow soil; nlinarith
      · have := le_max_left snow soil; have := le_max_right snow soil; nlinarith
    · exact ⟨soil, by simp [albedo, h], min_le_right _ _, le_max_right _ _⟩
  · have h' : 0 < af' := h0.trans_lt haf
    simp only [albedo, h', if_true, Option.map_some, Option.some.injEq] at ha'
    by_cases h : 0 < af
    · simp only [albedo, h, if_true, Option.map_some, Option.some.injEq] at ha
      subst ha ha'; nlinarith
    · simp only [albedo, h, if_false, Option.some.injEq] at ha
      subst ha ha'; nlinarith

/-- **C77.** The roughness length lies between those of snow and soil, and equals them for full and no cover. -/
theorem C77_roughness (af : ℝ) (h0 : 0 ≤ af) (h1 : af ≤ 1) (snow soil : ℝ) (hs : 0 < snow) (hg : 0 < soil) :
    min snow soil ≤ roughness af snow soil ∧ roughness af snow soil ≤ max snow soil ∧
    roughness 0 snow soil = soil ∧ roughness 1 snow soil = snow := by
  have hmn : 0 < min snow soil := lt_min hs hg
  have hmx : 0 < max snow soil := lt_max_of_lt_left hs
  have key : ∀ x : ℝ, 0 < x → x = x ^ af * x ^ (1 - af) := fun x hx => by
    rw [← Real.rpow_add hx]; simp
  have h1' : 0 ≤ 1 - af := by linarith
  refine ⟨?_, ?_, by simp [roughness], by simp [roughness]⟩
  · calc min snow soil = min snow soil ^ af * min snow soil ^ (1 - af) := key _ hmn
      _ ≤ snow ^ af * soil ^ (1 - af) :=
        mul_le_mul (Real.rpow_le_rpow hmn.le (min_le_left _ _) h0) (Real.rpow_le_rpow hmn.le (min_le_right _ _) h1')
          (Real.rpow_nonneg hmn.le _) (Real.rpow_nonneg hs.le _)
  · calc snow ^ af * soil ^ (1 - af) ≤ max snow soil ^ af * max snow soil ^ (1 - af) :=
        mul_le_mul (Real.rpow_le_rpow hs.le (le_max_left _ _) h0) (Real.rpow_le_rpow hg.le (le_max_right _ _) h1')
          (Real.rpow_nonneg hg.le _) (Real.rpow_nonneg hmx.le _)
      _ = max snow soil := (key _ hmx).symm

/-- **C77.** Surface conductance is never below that of saturated soil and equals it up to critical moisture. -/
theorem C77_conductance (gsat u sat crit : ℝ) (hg : 0 < gsat) (hu : 0 ≤ u) (hs : 0 ≤ sat) (hc : 0 < crit) :
    gsat ≤ conductance gsat u sat crit ∧ (conductance gsat u sat crit = gsat ↔ u * sat ≤ crit) := by
  have hq : 0 ≤ u * sat / crit := by positivity
  constructor
  · exact le_mul_of_one_le_right hg.le (le_max_right _ _)
  · unfold conductance
    rw [mul_eq_left₀ hg.ne', max_eq_right_iff, sq_le_one_iff₀ hq, div_le_one hc]

/-- **C77.** The temperature of the surface layer lies between those of top soil and top snow layer. -/
theorem C77_layer_temp (d h tSnow tSoil : ℝ) (hd : 0 ≤ d) (hh : 0 < h) :
    min tSnow tSoil ≤ layerTemp d h tSnow tSoil ∧ layerTemp d h tSnow tSoil ≤ max tSnow tSoil ∧
    layerTemp 0 h tSnow tSoil = tSoil ∧ (h ≤ d → layerTemp d h tSnow tSoil = tSnow) := by
  have e : layerTemp d h tSnow tSoil = tSoil + (tSnow - tSoil) * min (d / h) 1 := by
    unfold layerTemp
    split_ifs with hlt
    · rw [min_eq_right ((one_le_div hh).2 hlt.le)]; ring
    · rw [min_eq_left ((div_le_one hh).2 (not_lt.1 hlt))]; ring
  have a0 : 0 ≤ min (d / h) 1 := le_min (div_nonneg hd hh.le) zero_le_one
  have a1 : min (d / h) 1 ≤ 1 := min_le_right _ _
  refine ⟨?_, ?_, ?_, fun hle => ?_⟩
  · rw [e]
    have := min_le_left tSnow tSoil; have := min_le_right tSnow tSoil; nlinarith
  · rw [e]
    have := le_max_left tSnow tSoil; have := le_max_right tSnow tSoil; nlinarith
  · unfold layerTemp; rw [if_neg (by linarith)]; simp
  · rw [e, min_eq_right ((one_le_div hh).2 hle)]; ring

/-- **C77.** The resistance of the surface layer is that of snow down to twice the snow thickness (at most the layer)
and soil below; hence its conductivity lies between those of snow and soil. -/
theorem C77_layer_cond (d h kSnow kSoil : ℝ) (hd : 0 ≤ d) (hh : 0 < h) (hn : 0 < kSnow) (hs : 0 < kSoil) :
    h / layerCond d h kSnow kSoil = min (2 * d) h / kSnow + (h - min (2 * d) h) / kSoil ∧
    min kSnow kSoil ≤ layerCond d h kSnow kSoil ∧ layerCond d h kSnow kSoil ≤ max kSnow kSoil := by
  unfold layerCond
  split_ifs with hle
  · have h2 : 2 * d ≤ h := by linarith
    rw [min_eq_left h2]
    have hr : 0 < 2 * d / kSnow + (h - 2 * d) / kSoil := by
      rcases hd.eq_or_lt with rfl | hd'
      · simp only [mul_zero, zero_div, sub_zero, zero_add]; positivity
      · have : 0 ≤ (h - 2 * d) / kSoil := div_nonneg (by linarith) hs.le
        positivity
    refine ⟨by field_simp, ?_, ?_⟩
    · rw [le_div_iff₀ hr]
      have e1 : min kSnow kSoil * (2 * d / kSnow) ≤ 2 * d := by
        rw [← mul_div_assoc, div_le_iff₀ hn, mul_comm]
        exact mul_le_mul_of_nonneg_left (min_le_left _ _) (by linarith)
      have e2 : min kSnow kSoil * ((h - 2 * d) / kSoil) ≤ h - 2 * d := by
        rw [← mul_div_assoc, div_le_iff₀ hs, mul_comm]
        exact mul_le_mul_of_nonneg_left (min_le_right _ _) (by linarith)
      rw [mul_add]; linarith
    · rw [div_le_iff₀ hr]
      have e1 : 2 * d ≤ max kSnow kSoil * (2 * d / kSnow) := by
        rw [← mul_div_assoc, le_div_iff₀ hn, mul_comm]
        exact mul_le_mul_of_nonneg_right (le_max_left _ _) (by linarith)
      have e2 : h - 2 * d ≤ max kSnow kSoil * ((h - 2 * d) / kSoil) := by
        rw [← mul_div_assoc, le_div_iff₀ hs, mul_comm]
        exact mul_le_mul_of_nonneg_right (le_max_right _ _) (by linarith)
      rw [mul_add]; linarith
  · rw [min_eq_right (by linarith)]
    exact ⟨by simp, min_le_left _ _, le_max_left _ _⟩

/-- **C77.** Temperature and conductivity of the surface layer change continuously with snow thickness. -/
theorem C77_continuous (h tSnow tSoil kSnow kSoil : ℝ) (hh : 0 < h) (hn : 0 < kSnow) (hs : 0 < kSoil) :
    ContinuousOn (fun d => layerTemp d h tSnow tSoil) (Set.Ici 0) ∧
    ContinuousOn (fun d => layerCond d h kSnow kSoil) (Set.Ici 0) := by
  constructor
  · have : ∀ d, layerTemp d h tSnow tSoil = tSoil + (tSnow - tSoil) * min (d / h) 1 := fun d => by
      unfold layerTemp
      split_ifs with hlt
      · rw [min_eq_right ((one_le_div hh).2 hlt.le)]; ring
      · rw [min_eq_left ((div_le_one hh).2 (not_lt.1 hlt))]; ring
    simp only [this]
    fun_prop
  · have hc : ContinuousOn (fun d : ℝ => h / (min (2 * d) h / kSnow + (h - min (2 * d) h) / kSoil)) (Set.Ici 0) := by
      refine ContinuousOn.div continuousOn_const (by fun_prop) fun d hd => ?_
      have hd' : (0 : ℝ) ≤ d := hd
      obtain ⟨e, l, -⟩ := C77_layer_cond d h kSnow kSoil hd' hh hn hs
      rw [← e]
      have : 0 < layerCond d h kSnow kSoil := (lt_min hn hs).trans_le l
      positivity
    refine hc.congr fun d hd => ?_
    have hd' : (0 : ℝ) ≤ d := hd
    obtain ⟨e, l, -⟩ := C77_layer_cond d h kSnow kSoil hd' hh hn hs
    have : 0 < layerCond d h kSnow kSoil := (lt_min hn hs).trans_le l
    simp only [← e]
    field_simp

example : (0 : ℝ) ≤ 1 / 20 ∧ (0 : ℝ) < 1 / 10 ∧ layerCond (1 / 20) (1 / 10) (24 / 100) 1 = 24 / 100 ∧
    layerTemp (1 / 20) (1 / 10) 263 273 = 268 := by
  refine ⟨by norm_num, by norm_num, ?_, ?_⟩
  · norm_num [layerCond]
  · norm_num [layerTemp]

/-! ## C78 -/

/-- The coefficient of the unstable branch is non-negative. -/
theorem coeff_nonneg (b zw z0 : ℝ) :
    0 ≤ 3 * b ^ 2 * vonKarman ^ 2 * Real.sqrt (zw / z0) / Real.log (zw / z0) ^ 2 := by
  have := Real.sqrt_nonneg (zw / z0)
  positivity

theorem stabilityOf_neg {b zw z0 ri : ℝ} (h : ri < 0) :
    stabilityOf b zw z0 ri = 1 + 3 * b * (-ri / (1 + 3 * b ^ 2 * vonKarman ^ 2 * Real.sqrt (zw / z0) /
      Real.log (zw / z0) ^ 2 * Real.sqrt (-ri))) := by
  rw [stabilityOf, if_neg (not_le.2 h)]
  ring

theorem stabilityOf_nonneg {b zw z0 ri : ℝ} (h : 0 ≤ ri) :
    stabilityOf b zw z0 ri = 1 / (1 + 3 * b * ri * Real.sqrt (1 + b * ri)) := by
  rw [stabilityOf, if_pos h]

theorem stabilityOf_pos_le {b zw z0 ri : ℝ} (hb : 0 ≤ b) (h : 0 ≤ ri) :
    0 < stabilityOf b zw z0 ri ∧ stabilityOf b zw z0 ri ≤ 1 := by
  rw [stabilityOf_nonneg h]
  have : 0 ≤ 3 * b * ri * Real.sqrt (1 + b * ri) := by have := Real.sqrt_nonneg (1 + b * ri); positivity
  exact ⟨by positivity, (div_le_one (by linarith)).2 (by linarith)⟩

theorem stabilityOf_ge {b zw z0 ri : ℝ} (hb : 0 ≤ b) (h : ri ≤ 0) : 1 ≤ stabilityOf b zw z0 ri := by
  rcases h.eq_or_lt with rfl | h
  · rw [stabilityOf_nonneg le_rfl]; simp
  · rw [stabilityOf_neg h]
    have hc := coeff_nonneg b zw z0
    have := Real.sqrt_nonneg (-ri)
    have : 0 ≤ -ri := by linarith
    have : 0 ≤ -ri / (1 + 3 * b ^ 2 * vonKarman ^ 2 * Real.sqrt (zw / z0) / Real.log (zw / z0) ^ 2 *
      Real.sqrt (-ri)) := by positivity
    have := mul_nonneg (mul_nonneg (by norm_num : (0 : ℝ) ≤ 3) hb) this
    linarith

/-- `x / (1 + c √x)` is non-decreasing. -/
theorem quot_mono {c x y : ℝ} (hc : 0 ≤ c) (hx : 0 ≤ x) (hxy : x ≤ y) :
    x / (1 + c * Real.sqrt x) ≤ y / (1 + c * Real.sqrt y) := by
  have hy := hx.trans hxy
  have sx := Real.sqrt_nonneg x
  have sy := Real.sqrt_nonneg y
  have s1 := Real.sqrt_le_sqrt hxy
  rw [div_le_div_iff₀ (by positivity) (by positivity)]
  have e1 : x * (c * Real.sqrt y) ≤ y * (c * Real.sqrt x) := by
    have ex := Real.mul_self_sqrt hx
    have ey := Real.mul_self_sqrt hy
    have : x * Real.sqrt y ≤ y * Real.sqrt x := by
      have h := mul_nonneg (mul_nonneg sx sy) (sub_nonneg.2 s1)
      have e1 : x * Real.sqrt y = Real.sqrt x * Real.sqrt y * Real.sqrt x := by rw [mul_right_comm, ex]
      have e2 : y * Real.sqrt x = Real.sqrt x * Real.sqrt y * Real.sqrt y := by rw [mul_assoc, ey, mul_comm]
      rw [mul_sub] at h
      linarith
    nlinarith
  nlinarith

theorem stabilityOf_antitone {b zw z0 : ℝ} (hb : 0 ≤ b) : Antitone (stabilityOf b zw z0) := by
  intro r s hrs
  rcases le_or_gt 0 r with hr | hr
  · have hs := hr.trans hrs
    rw [stabilityOf_nonneg hr, stabilityOf_nonneg hs]
    have m := Real.sqrt_le_sqrt (show 1 + b * r ≤ 1 + b * s by nlinarith)
    have n0 := Real.sqrt_nonneg (1 + b * r)
    have n1 := Real.sqrt_nonneg (1 + b * s)
    refine one_div_le_one_div_of_le (by positivity) ?_
    have : 3 * b * r * Real.sqrt (1 + b * r) ≤ 3 * b * s * Real.sqrt (1 + b * s) :=
      mul_le_mul (by nlinarith) m n0 (by positivity)
    linarith
  · rcases le_or_gt 0 s with hs | hs
    · exact (stabilityOf_pos_le hb hs).2.trans (stabilityOf_ge hb hr.le)
    · rw [stabilityOf_neg hr, stabilityOf_neg hs]
      have := quot_mono (coeff_nonneg b zw z0) (show 0 ≤ -s by linarith) (show -s ≤ -r by linarith)
      have := mul_le_mul_of_nonneg_left this (mul_nonneg (by norm_num : (0 : ℝ) ≤ 3) hb)
      linarith

theorem richardson_sign {temp wind zt zw : ℝ} (ht : 0 < temp) (hz : 0 < zt) (hw : 0 < zw) (ts : ℝ) :
    (0 ≤ richardson temp ts wind zt zw ↔ ts ≤ temp) ∧ (richardson temp ts wind zt zw = 0 ↔ ts = temp) := by
  have hd : 0 < zt * temp * (if wind = 0 then (5 / 10 : ℝ) else wind) ^ 2 := by
    have : 0 < (if wind = 0 then (5 / 10 : ℝ) else wind) ^ 2 := by
      split_ifs with h
      · norm_num
      · positivity
    positivity
  have hg : 0 < grav * zw ^ 2 := by unfold grav; positivity
  simp only [richardson]
  constructor
  · rw [le_div_iff₀ hd, zero_mul, mul_nonneg_iff_of_pos_left hg, sub_nonneg]
  · rw [div_eq_zero_iff, or_iff_left hd.ne', mul_eq_zero, or_iff_right hg.ne', sub_eq_zero, eq_comm]

/-- **C78.** The stability factor is 1 at equal temperatures, in (0, 1] for a colder and at least 1 for a warmer
surface. -/
theorem C78_range (b zt zw z0 temp ts wind : ℝ) (hb : 0 ≤ b) (hz : 0 < zt) (hw : 0 < zw) (ht : 0 < temp) :
    (ts = temp → stability b zt zw z0 (some temp) (some ts) (some wind) = 1) ∧
    (ts ≤ temp → 0 < stability b zt zw z0 (some temp) (some ts) (some wind) ∧
      stability b zt zw z0 (some temp) (some ts) (some wind) ≤ 1) ∧
    (temp ≤ ts → 1 ≤ stability b zt zw z0 (some temp) (some ts) (some wind)) := by
  obtain ⟨h1, h2⟩ := richardson_sign (wind := wind) ht hz hw ts
  simp only [stability]
  refine ⟨fun h => ?_, fun h => stabilityOf_pos_le hb (h1.2 h), fun h => ?_⟩
  · rw [h2.2 h, stabilityOf_nonneg le_rfl]; simp
  · rcases h.eq_or_lt with h' | h'
    · rw [h2.2 h'.symm, stabilityOf_nonneg le_rfl]; simp
    · refine stabilityOf_ge hb (le_of_lt ?_)
      rw [← not_le, h1, not_le]; exact h'

/-- **C78.** With a positive adjustment parameter the factor differs from 1 whenever the temperatures differ. -/
theorem C78_strict (b zt zw z0 temp ts wind : ℝ) (hb : 0 < b) (hz : 0 < zt) (hw : 0 < zw) (ht : 0 < temp) :
    (ts < temp → stability b zt zw z0 (some temp) (some ts) (some wind) < 1) ∧
    (temp < ts → 1 < stability b zt zw z0 (some temp) (some ts) (some wind)) := by
  obtain ⟨h1, h2⟩ := richardson_sign (wind := wind) ht hz hw ts
  simp only [stability]
  constructor
  · intro h
    have r0 : 0 < richardson temp ts wind zt zw :=
      lt_of_le_of_ne (h1.2 h.le) fun e => h.ne (h2.1 e.symm)
    rw [stabilityOf_nonneg r0.le, div_lt_one (by positivity)]
    have := Real.sqrt_pos.2 (show 0 < 1 + b * richardson temp ts wind zt zw by positivity)
    have : 0 < 3 * b * richardson temp ts wind zt zw * Real.sqrt (1 + b * richardson temp ts wind zt zw) := by
      positivity
    linarith
  · intro h
    have r0 : richardson temp ts wind zt zw < 0 := by rw [← not_le, h1, not_le]; exact h
    rw [stabilityOf_neg r0]
    have hc := coeff_nonneg b zw z0
    have : 0 < -richardson temp ts wind zt zw := by linarith
    have := Real.sqrt_nonneg (-richardson temp ts wind zt zw)
    have : 0 < -richardson temp ts wind zt zw / (1 + 3 * b ^ 2 * vonKarman ^ 2 * Real.sqrt (zw / z0) /
      Real.log (zw / z0) ^ 2 * Real.sqrt (-richardson temp ts wind zt zw)) := by positivity
    have := mul_pos (mul_pos (by norm_num : (0 : ℝ) < 3) hb) this
    linarith

/-- **C78.** The warmer the surface, the larger the factor. -/
theorem C78_monotone (b zt zw z0 temp ts ts' wind : ℝ) (hb : 0 ≤ b) (hz : 0 < zt) (ht : 0 < temp) (h : ts ≤ ts') :
    stability b zt zw z0 (some temp) (some ts) (some wind) ≤
      stability b zt zw z0 (some temp) (some ts') (some wind) := by
  simp only [stability]
  refine stabilityOf_antitone hb ?_
  simp only [richardson]
  have hg : 0 ≤ grav * zw ^ 2 := by unfold grav; positivity
  have hd : 0 ≤ zt * temp * (if wind = 0 then (5 / 10 : ℝ) else wind) ^ 2 := by positivity
  refine div_le_div_of_nonneg_right ?_ hd
  nlinarith

/-- **C78.** Calm air is treated like a wind of 0.5 m/s; below that wind speed a stable stratification damps more
than in calm air, without bound as wind vanishes: for every bound there is a wind speed with a smaller factor. -/
theorem C78_calm (b zt zw z0 temp ts : ℝ) (hb : 0 < b) (hz : 0 < zt) (hw : 0 < zw) (hts : ts < temp) (ht : 0 < temp) :
    stability b zt zw z0 (some temp) (some ts) (some 0) = stability b zt zw z0 (some temp) (some ts) (some (1 / 2)) ∧
    ∀ ε > 0, ∃ w > 0, stability b zt zw z0 (some temp) (some ts) (some w) < ε := by
  constructor
  · norm_num [stability, richardson]
  · intro ε hε
    have hA : 0 < grav * zw ^ 2 * (temp - ts) / (zt * temp) := by
      have : 0 < temp - ts := by linarith
      have : 0 < grav := by unfold grav; norm_num
      positivity
    obtain ⟨A, hAe⟩ : ∃ A, grav * zw ^ 2 * (temp - ts) / (zt * temp) = A := ⟨_, rfl⟩
    rw [hAe] at hA
    -- choose the wind such that the Richardson number is `1 / (3 b ε)`
    refine ⟨Real.sqrt (3 * b * ε * A), Real.sqrt_pos.2 (by positivity), ?_⟩
    have hw' : Real.sqrt (3 * b * ε * A) ≠ 0 := (Real.sqrt_pos.2 (by positivity)).ne'
    have hri : richardson temp ts (Real.sqrt (3 * b * ε * A)) zt zw = 1 / (3 * b * ε) := by
      simp only [richardson, hw', if_false]
      rw [Real.sq_sqrt (by positivity), ← div_div, hAe]
      field_simp
    simp only [stability, hri]
    rw [stabilityOf_nonneg (by positivity), div_lt_iff₀ (by positivity)]
    have s1 : 1 ≤ Real.sqrt (1 + b * (1 / (3 * b * ε))) := by
      rw [Real.one_le_sqrt]
      have : 0 < b * (1 / (3 * b * ε)) := by positivity
      linarith
    have e : ε * (3 * b * (1 / (3 * b * ε))) = 1 := by field_simp
    have : ε * (3 * b * (1 / (3 * b * ε)) * Real.sqrt (1 + b * (1 / (3 * b * ε)))) =
        Real.sqrt (1 + b * (1 / (3 * b * ε))) := by rw [← mul_assoc, e, one_mul]
    rw [mul_add, this]
    linarith

/-- **C78.** Missing temperatures or wind give a neutral factor. -/
theorem C78_missing (b zt zw z0 : ℝ) (temp ts wind : Option ℝ) (h : temp = none ∨ ts = none ∨ wind = none) :
    stability b zt zw z0 temp ts wind = 1 := by
  rcases h with rfl | rfl | rfl
  · rfl
  · cases temp <;> rfl
  · cases temp <;> cases ts <;> rfl

/-- **C78.** The exchange coefficient is positive if the measurement heights exceed the roughness lengths; with
adjustment for snow depth, a roughness length below 10 m suffices for temperature. It is larger over rougher ground. -/
theorem C78_exchange (adjust : Bool) (zt depth zw z0 z0' sf : ℝ) (h0 : 0 < z0) (hw : z0 < zw) (hsf : 0 < sf)
    (ht : if adjust then z0 < 10 else z0 / 10 < zt) :
    0 < exchange (measurementHeight adjust zt depth) zw z0 sf ∧
    (0 < z0' → z0' < z0 → exchange (measurementHeight adjust zt depth) zw z0' sf <
      exchange (measurementHeight adjust zt depth) zw z0 sf) := by
  have hm : z0 / 10 < measurementHeight adjust zt depth := by
    cases adjust with
    | false => simpa [measurementHeight] using ht
    | true =>
      simp only [if_true] at ht
      simp only [measurementHeight, if_true]
      exact lt_max_of_lt_right (by linarith)
  generalize measurementHeight adjust zt depth = zm at *
  have hzm : 0 < zm := lt_trans (by positivity) hm
  have l1 : 0 < Real.log (zw / z0) := Real.log_pos ((one_lt_div h0).2 hw)
  have l2 : 0 < Real.log (zm / (1 / 10 * z0)) :=
    Real.log_pos ((one_lt_div (by positivity)).2 (by linarith))
  have hv : 0 < vonKarman := by norm_num [vonKarman]
  refine ⟨by unfold exchange; positivity, fun hp hlt => ?_⟩
  have m1 : Real.log (zw / z0) < Real.log (zw / z0') :=
    Real.log_lt_log (div_pos (h0.trans hw) h0) (div_lt_div_of_pos_left (h0.trans hw) hp hlt)
  have m2 : Real.log (zm / (1 / 10 * z0)) < Real.log (zm / (1 / 10 * z0')) :=
    Real.log_lt_log (by positivity) (div_lt_div_of_pos_left hzm (by positivity) (by linarith))
  unfold exchange
  refine mul_lt_mul_of_pos_right ?_ hsf
  exact div_lt_div_of_pos_left (by positivity) (by positivity) (mul_lt_mul'' m1 m2 l1.le l2.le)

example : ∃ b zt zw z0 : ℝ, 0 < b ∧ z0 < zw ∧ z0 / 10 < zt ∧ 0 < z0 := ⟨5, 2, 10, 1 / 100, by norm_num⟩

/-! ## C79 -/

/-- Physical ranges of a pixel's inputs. -/
structure Physical (p : Pixel) : Prop where
  dt : 0 < p.dt
  density : 0 ≤ p.density
  exch : 0 ≤ p.exch
  wind : 0 ≤ p.wind
  gs : 0 ≤ p.gs
  latVap : 0 < p.latVap
  layerCond : 0 < p.layerCond
  layerThick : 0 < p.layerThick
  ts : 0 < p.ts
  qsat : 0 ≤ p.qsat p.ts
  ice : ∀ x ∈ p.ice, 0 ≤ x

/-- Specification: energy gained by a surface of temperature `t`: absorbed minus emitted radiation, sensible and
latent heat (heat of sublimation `lat`, moisture availability `ψ`), heat of precipitation, minus heat conducted down. -/
noncomputable def surplus (p : Pixel) (ψ lat t : ℝ) : ℝ :=
  ((1 - p.albedo) * p.swIn + p.lwIn - 99 / 100 * sigma * t ^ 4) +
  cp * (p.density * p.exch * p.wind) * (p.temp - t) +
  lat * (ψ * (p.density * p.exch * p.wind) * (p.specHum - p.qsat t)) +
  (cWater * (p.temp - t) * p.rain + cIce * (p.wetBulb - t) * p.snow) / p.dt -
  2 * p.layerCond * (t - p.layerTemp) / p.layerThick

/-- Specification: heat loss per kelvin of warming at temperature `t`, as linearised by the program. -/
noncomputable def slope (p : Pixel) (ψ lat t : ℝ) : ℝ :=
  (cp + lat * ψ * (lat * p.qsat t / (rv * t ^ 2))) * (p.density * p.exch * p.wind) +
    2 * p.layerCond / p.layerThick + 4 * sigma * t ^ 3

namespace Pixel

theorem avail_nonneg {p : Pixel} (h : Physical p) : 0 ≤ p.avail := by
  unfold avail
  split_ifs
  · exact zero_le_one
  · exact zero_le_one
  · have := h.gs; have := h.exch; have := h.wind; positivity

theorem transfer_nonneg {p : Pixel} (h : Physical p) : 0 ≤ p.transfer := by
  have := h.density; have := h.exch; have := h.wind
  unfold transfer; positivity

theorem latHeat_pos {p : Pixel} (h : Physical p) (t : ℝ) : 0 < p.latHeat t := by
  have := h.latVap
  unfold latHeat lf
  split_ifs <;> linarith

theorem slope_pos {p : Pixel} (h : Physical p) : 0 < slope p p.avail (p.latHeat p.ts) p.ts := by
  have h1 := avail_nonneg h
  have h2 : 0 ≤ p.density * p.exch * p.wind := transfer_nonneg h
  have h3 := latHeat_pos h p.ts
  have := h.layerCond; have := h.layerThick; have := h.ts; have := h.qsat
  have hr : (0 : ℝ) < rv := by norm_num [rv]
  have hc : (0 : ℝ) < cp := by norm_num [cp]
  have hs : (0 : ℝ) < sigma := by norm_num [sigma]
  unfold slope
  positivity

theorem solve_eq (p : Pixel) (t melt : ℝ) : (p.solve (p.fluxesAt t melt)).ts =
    (surplus p p.avail (p.latHeat t) t - lf * melt / p.dt) / slope p p.avail (p.latHeat t) t := by
  simp only [solve, fluxesAt, netRad, sensFlux, moistFlux, advHeat, groundFlux, surplus, slope, transfer]
  congr 1
  ring

theorem sum_nonneg_of (l : List ℝ) (h : ∀ x ∈ l, 0 ≤ x) : 0 ≤ l.sum := List.sum_nonneg h

end Pixel

open Pixel

/-- **C79.** Where no ice melts, the surface warms exactly if it gains energy at its present temperature, and no melt
is reported. -/
theorem C79_warming (p : Pixel) (h : Physical p) (hm : ¬ p.Melts) :
    p.energyBalance.melt = 0 ∧
    (p.ts < p.energyBalance.ts ↔ 0 < surplus p p.avail (p.latHeat p.ts) p.ts) ∧
    (p.energyBalance.ts < p.ts ↔ surplus p p.avail (p.latHeat p.ts) p.ts < 0) := by
  have hp : ¬ p.Partially := fun hp => hm hp.1
  have e : p.energyBalance.ts = p.ts + p.dry.ts := by
    simp only [energyBalance, if_neg hp, if_neg hm]; rfl
  have em : p.energyBalance.melt = 0 := by
    simp only [energyBalance, if_neg hp, if_neg hm]; rfl
  have d : p.dry.ts = surplus p p.avail (p.latHeat p.ts) p.ts / slope p p.avail (p.latHeat p.ts) p.ts := by
    rw [Pixel.dry, solve_eq]; simp
  have hs := slope_pos h
  refine ⟨em, ?_, ?_⟩
  · rw [e, d, lt_add_iff_pos_right, div_pos_iff_of_pos_right hs]
  · rw [e, d, add_lt_iff_neg_left, div_lt_iff₀ hs, zero_mul]

/-- **C79.** Moisture is fully available over snow and for condensation; otherwise the availability is that of
aerodynamic transfer and surface conductance in series, between 0 and 1. -/
theorem C79_availability (p : Pixel) (h : Physical p) :
    0 ≤ p.avail ∧ p.avail ≤ 1 ∧ (0 < p.swe ∨ p.qsat p.ts < p.specHum → p.avail = 1) ∧
    (p.swe ≤ 0 → p.specHum ≤ p.qsat p.ts → 0 < p.exch → 0 < p.wind → 0 < p.gs →
      p.avail * (p.exch * p.wind) = 1 / (1 / p.gs + 1 / (p.exch * p.wind))) := by
  refine ⟨avail_nonneg h, ?_, ?_, fun h1 h2 h3 h4 h5 => ?_⟩
  · unfold avail
    split_ifs
    · exact le_rfl
    · exact le_rfl
    · have h1 := h.gs; have h2 := mul_nonneg h.exch h.wind
      exact div_le_one_of_le₀ (by linarith) (by positivity)
  · rintro (h1 | h1)
    · rw [avail, if_pos h1]
    · unfold avail; split_ifs <;> rfl
  · rw [avail, if_neg (not_lt.2 h1), if_neg (not_lt.2 h2)]
    have : 0 < p.exch * p.wind := by positivity
    field_simp
    ring

/-- **C79.** Melt is never negative and occurs only with ice in the top layer. -/
theorem C79_melt_nonneg (p : Pixel) (h : Physical p) :
    0 ≤ p.energyBalance.melt ∧ (p.ice0 ≤ 0 → p.energyBalance.melt = 0) := by
  constructor
  · unfold energyBalance
    split_ifs
    · exact le_max_right _ _
    · exact sum_nonneg_of _ h.ice
    · exact le_rfl
  · intro h0
    have hm : ¬ p.Melts := fun hm => absurd hm.2 (not_lt.2 h0)
    exact (C79_warming p h hm).1

/-- **C79.** Where ice remains, the surface does not end above the melting point: with ice in the top layer, either
the new temperature is at most 0 °C or the whole ice of the snowpack melts. -/
theorem C79_ice_caps_temperature (p : Pixel) (hi : 0 < p.ice0) :
    p.energyBalance.ts ≤ T0 ∨ p.energyBalance.melt = p.ice.sum := by
  unfold energyBalance
  split_ifs with h1 h2
  · left; simp [finish, fluxesAt]
  · right; rfl
  · left
    have : ¬ T0 < p.ts + p.dry.ts := fun hlt => h2 ⟨hlt, hi⟩
    simpa [finish, fluxesAt] using this

/-- **C79.** If all ice melts, the surface ends at or above the melting point, and the energy not spent on warming
melts the ice (linearised balance). -/
theorem C79_full_melt (p : Pixel) (h : Physical p) (hm : p.Melts) (hp : ¬ p.Partially) :
    p.energyBalance.melt = p.ice.sum ∧ T0 ≤ p.energyBalance.ts ∧
    surplus p p.avail (p.latHeat p.ts) p.ts - lf * p.ice.sum / p.dt =
      (p.energyBalance.ts - p.ts) * slope p p.avail (p.latHeat p.ts) p.ts := by
  have e : p.energyBalance.ts = p.ts + p.wet.ts := by
    simp only [energyBalance, if_neg hp, if_pos hm]; rfl
  refine ⟨by simp only [energyBalance, if_neg hp, if_pos hm]; rfl, ?_, ?_⟩
  · rw [e]; exact not_lt.1 fun hlt => hp ⟨hm, hlt⟩
  · rw [e, Pixel.wet, solve_eq, add_sub_cancel_left, div_mul_cancel₀ _ (slope_pos h).ne']

/-- **C79.** If part of the ice melts, the surface stays at the melting point and the energy gained there melts ice:
all reported fluxes belong to the melting point and close the balance. -/
theorem C79_partial_melt (p : Pixel) (h : Physical p) (hp : p.Partially) :
    p.energyBalance.ts = T0 ∧
    lf * p.energyBalance.melt / p.dt = max (surplus p p.avail (p.latHeat T0) T0) 0 ∧
    (0 < p.energyBalance.melt → p.energyBalance.net + p.energyBalance.sens + p.energyBalance.latent +
      p.energyBalance.adv - p.energyBalance.ground = lf * p.energyBalance.melt / p.dt) := by
  have hl : (0 : ℝ) < lf := by norm_num [lf]
  have hdt := h.dt
  have e : p.energyBalance = p.finish (p.fluxesAt T0 p.partialMelt) ⟨0, 0, 0, 0⟩ := by
    simp only [energyBalance, if_pos hp]
  have hsum : (p.fluxesAt T0 0).net + (p.fluxesAt T0 0).sens + (p.fluxesAt T0 0).latent + (p.fluxesAt T0 0).adv -
      (p.fluxesAt T0 0).ground = surplus p p.avail (p.latHeat T0) T0 := by
    simp only [fluxesAt, netRad, sensFlux, moistFlux, advHeat, groundFlux, surplus, transfer]
    ring
  have hmelt : p.energyBalance.melt = max (surplus p p.avail (p.latHeat T0) T0 / lf * p.dt) 0 := by
    rw [e]
    simp only [finish, partialMelt]
    rw [← hsum]
    rfl
  have hq : lf * p.energyBalance.melt / p.dt = max (surplus p p.avail (p.latHeat T0) T0) 0 := by
    rw [hmelt]
    rcases le_total 0 (surplus p p.avail (p.latHeat T0) T0) with h0 | h0
    · rw [max_eq_left h0, max_eq_left (by positivity)]; field_simp
    · rw [max_eq_right h0, max_eq_right (mul_nonpos_of_nonpos_of_nonneg
        (div_nonpos_of_nonpos_of_nonneg h0 hl.le) hdt.le)]
      simp
  refine ⟨by rw [e]; simp [finish, fluxesAt], hq, fun h0 => ?_⟩
  have hpos : 0 < surplus p p.avail (p.latHeat T0) T0 := by
    by_contra hc
    rw [max_eq_right (not_lt.1 hc)] at hq
    have : 0 < lf * p.energyBalance.melt / p.dt := by positivity
    linarith
  rw [hq, max_eq_left hpos.le, ← hsum, e]
  simp [finish, fluxesAt]

/-- **C79.** Reported net radiation and ground heat flux belong to the new surface temperature. -/
theorem C79_new_fluxes (p : Pixel) :
    p.energyBalance.net =
      (1 - p.albedo) * p.swIn + p.lwIn - 99 / 100 * sigma * p.energyBalance.ts ^ 4 ∧
    p.energyBalance.ground = 2 * p.layerCond * (p.energyBalance.ts - p.layerTemp) / p.layerThick := by
  unfold energyBalance
  split_ifs
  · constructor
    · simp only [finish, netRad]; ring
    · simp only [finish, fluxesAt, groundFlux]; ring
  · constructor
    · simp only [finish, netRad]; ring
    · simp only [finish, fluxesAt, groundFlux, Pixel.wet, solve]; ring
  · constructor
    · simp only [finish, netRad]; ring
    · simp only [finish, fluxesAt, groundFlux, Pixel.dry, solve]; ring

/-- **C79, linearised balance.** With radiation and latent heat replaced by their tangents at the old temperature and
sensible and ground heat at the new temperature, gains equal melt energy.  Missing for the full claim: the program
does not iterate, so that the balance holds to first order only, and it does not report these fluxes
(`C79_sensible_false`). -/
theorem C79_closure_partial (p : Pixel) (h : Physical p) (hp : ¬ p.Partially) :
    let t := p.energyBalance.ts
    let L := p.latHeat p.ts
    let r := p.density * p.exch * p.wind
    ((1 - p.albedo) * p.swIn + p.lwIn - sigma * (99 / 100 * p.ts ^ 4 + 4 * p.ts ^ 3 * (t - p.ts))) +
      cp * r * (p.temp - t) +
      L * (p.avail * r * (p.specHum - (p.qsat p.ts + L * p.qsat p.ts / (rv * p.ts ^ 2) * (t - p.ts)))) +
      (cWater * (p.temp - p.ts) * p.rain + cIce * (p.wetBulb - p.ts) * p.snow) / p.dt -
      2 * p.layerCond * (t - p.layerTemp) / p.layerThick = lf * p.energyBalance.melt / p.dt := by
  intro t L r
  have hs := slope_pos h
  have key : surplus p p.avail L p.ts - lf * p.energyBalance.melt / p.dt = (t - p.ts) * slope p p.avail L p.ts := by
    by_cases hm : p.Melts
    · have em : p.energyBalance.melt = p.ice.sum := (C79_full_melt p h hm hp).1
      rw [em]; exact (C79_full_melt p h hm hp).2.2
    · have e : t = p.ts + p.dry.ts := by
        simp only [t, energyBalance, if_neg hp, if_neg hm]; rfl
      rw [(C79_warming p h hm).1, e, add_sub_cancel_left, Pixel.dry, solve_eq, div_mul_cancel₀ _ hs.ne']
  have : lf * p.energyBalance.melt / p.dt =
      surplus p p.avail L p.ts - (t - p.ts) * slope p p.avail L p.ts := by linarith
  rw [this]
  simp only [surplus, slope, r]
  ring

/-- **C79 is false for the sensible heat flux.** Without partial melt the reported flux is that of a surface warmed by
the *negative* of the temperature change; it is the flux at the new temperature only if nothing changed or no heat is
exchanged. -/
theorem C79_sensible_false (p : Pixel) (hp : ¬ p.Partially) :
    p.energyBalance.sens =
      cp * (p.density * p.exch * p.wind) * (p.temp - (p.ts - (p.energyBalance.ts - p.ts))) ∧
    (p.energyBalance.sens = cp * (p.density * p.exch * p.wind) * (p.temp - p.energyBalance.ts) ↔
      p.density * p.exch * p.wind = 0 ∨ p.energyBalance.ts = p.ts) := by
  have e : p.energyBalance.sens =
      cp * (p.density * p.exch * p.wind) * (p.temp - (p.ts - (p.energyBalance.ts - p.ts))) := by
    by_cases hm : p.Melts
    · simp only [energyBalance, if_neg hp, if_pos hm, finish, fluxesAt, sensFlux, Pixel.wet, solve, transfer]
      ring
    · simp only [energyBalance, if_neg hp, if_neg hm, finish, fluxesAt, sensFlux, Pixel.dry, solve, transfer]
      ring
  refine ⟨e, ?_⟩
  rw [e]
  have hc : cp ≠ 0 := by norm_num [cp]
  constructor
  · intro h
    have : cp * (p.density * p.exch * p.wind) * (2 * (p.energyBalance.ts - p.ts)) = 0 := by linarith
    rcases mul_eq_zero.1 this with h' | h'
    · left; exact (mul_eq_zero.1 h').resolve_left hc
    · right; linarith
  · rintro (h | h)
    · rw [h]; simp
    · rw [h]; ring

/-- **C79 is false for the moisture flux.** Without partial melt the reported flux still belongs to the saturation
humidity at the old surface temperature. -/
theorem C79_moisture_false (p : Pixel) (hp : ¬ p.Partially) :
    p.energyBalance.moist = p.avail * (p.density * p.exch * p.wind) * (p.specHum - p.qsat p.ts) ∧
    (p.energyBalance.moist =
        p.avail * (p.density * p.exch * p.wind) * (p.specHum - p.qsat p.energyBalance.ts) ↔
      p.avail * (p.density * p.exch * p.wind) = 0 ∨ p.qsat p.energyBalance.ts = p.qsat p.ts) := by
  have e : p.energyBalance.moist = p.avail * (p.density * p.exch * p.wind) * (p.specHum - p.qsat p.ts) := by
    by_cases hm : p.Melts
    · simp only [energyBalance, if_neg hp, if_pos hm, finish, fluxesAt, moistFlux, transfer]
    · simp only [energyBalance, if_neg hp, if_neg hm, finish, fluxesAt, moistFlux, transfer]
  refine ⟨e, ?_⟩
  rw [e]
  constructor
  · intro h
    rcases mul_eq_mul_left_iff.1 h with h' | h'
    · right; linarith
    · left; exact h'
  · rintro (h | h)
    · rw [h]; simp
    · rw [h]

/-- **C79.** Latent heat is the moisture flux times the heat of sublimation over ice or a frozen surface, and the heat
of vaporization otherwise. -/
theorem C79_latent (p : Pixel) :
    p.energyBalance.latent = p.energyBalance.lat * p.energyBalance.moist ∧
    ((0 < p.ice0 ∨ p.energyBalance.ts < T0) → p.energyBalance.lat = p.latVap + 334000) ∧
    (p.ice0 ≤ 0 → T0 ≤ p.energyBalance.ts → p.energyBalance.lat = p.latVap) := by
  have e : p.energyBalance.lat = p.latHeat p.energyBalance.ts := by
    unfold energyBalance; split_ifs <;> rfl
  refine ⟨by unfold energyBalance; split_ifs <;> rfl, fun h => ?_, fun h0 h1 => ?_⟩
  · rw [e, latHeat, if_pos h, lf]
  · rw [e, latHeat, if_neg (by rintro (h | h) <;> linarith)]

/-- **C79.** Melt exceeds the available ice by at most the error of the emissivity (1 in the linearisation, 0.99 in the
balance), for a surface initially not above the melting point and saturation humidity above its tangent; not at all
for a surface at least 2 K colder. -/
theorem C79_melt_bound (p : Pixel) (h : Physical p) (hp : p.Partially) (ht : p.ts ≤ T0) (hpr : 0 ≤ p.rain)
    (hsn : 0 ≤ p.snow)
    (hq : p.qsat p.ts + p.latHeat p.ts * p.qsat p.ts / (rv * p.ts ^ 2) * (T0 - p.ts) ≤ p.qsat T0) :
    lf * (p.energyBalance.melt - p.ice.sum) ≤ p.dt * (4 / 100 * sigma * p.ts ^ 3 * (T0 - p.ts)) ∧
    (p.ts ≤ T0 - 2 → p.energyBalance.melt ≤ p.ice.sum) := by
  have hl : (0 : ℝ) < lf := by norm_num [lf]
  have hsg : (0 : ℝ) < sigma := by norm_num [sigma]
  have hdt := h.dt
  have hs := slope_pos h
  have hts := h.ts
  have hice := hp.1.2
  have hL : p.latHeat T0 = p.latHeat p.ts := by simp [latHeat, hice]
  have hLp := latHeat_pos h p.ts
  have ha := avail_nonneg h
  have hr : 0 ≤ p.density * p.exch * p.wind := transfer_nonneg h
  have hw := hp.2
  rw [Pixel.wet, solve_eq, ← lt_sub_iff_add_lt', div_lt_iff₀ hs] at hw
  -- concavity of the gains
  have hconc : surplus p p.avail (p.latHeat T0) T0 ≤ surplus p p.avail (p.latHeat p.ts) p.ts -
      (T0 - p.ts) * slope p p.avail (p.latHeat p.ts) p.ts + sigma * (4 / 100 * p.ts ^ 3 * (T0 - p.ts) -
        99 / 100 * (6 * p.ts ^ 2 * (T0 - p.ts) ^ 2 + 4 * p.ts * (T0 - p.ts) ^ 3 + (T0 - p.ts) ^ 4)) := by
    have e1 := mul_le_mul_of_nonneg_left hq (mul_nonneg hLp.le (mul_nonneg ha hr))
    have e2 : 0 ≤ (cWater * (T0 - p.ts) * p.rain + cIce * (T0 - p.ts) * p.snow) / p.dt := by
      have : 0 ≤ T0 - p.ts := by linarith
      have : (0 : ℝ) ≤ cWater := by norm_num [cWater]
      have : (0 : ℝ) ≤ cIce := by norm_num [cIce]
      positivity
    have e3 : (cWater * (p.temp - T0) * p.rain + cIce * (p.wetBulb - T0) * p.snow) / p.dt =
        (cWater * (p.temp - p.ts) * p.rain + cIce * (p.wetBulb - p.ts) * p.snow) / p.dt -
        (cWater * (T0 - p.ts) * p.rain + cIce * (T0 - p.ts) * p.snow) / p.dt := by ring
    rw [hL]
    simp only [surplus, slope]
    rw [e3]
    have e4 : sigma * T0 ^ 4 = sigma * (p.ts ^ 4 + 4 * p.ts ^ 3 * (T0 - p.ts) + 6 * p.ts ^ 2 * (T0 - p.ts) ^ 2 +
      4 * p.ts * (T0 - p.ts) ^ 3 + (T0 - p.ts) ^ 4) := by ring
    have e5 : 2 * p.layerCond * (T0 - p.layerTemp) / p.layerThick =
      2 * p.layerCond * (p.ts - p.layerTemp) / p.layerThick + 2 * p.layerCond / p.layerThick * (T0 - p.ts) := by ring
    nlinarith [e1, e2, e4, e5]
  obtain ⟨-, hm, -⟩ := C79_partial_melt p h hp
  have hsum : 0 ≤ lf * p.ice.sum / p.dt := by have := sum_nonneg_of _ h.ice; positivity
  have hD : 0 ≤ T0 - p.ts := by linarith
  have hE : lf * (p.energyBalance.melt - p.ice.sum) / p.dt =
      max (surplus p p.avail (p.latHeat T0) T0) 0 - lf * p.ice.sum / p.dt := by rw [← hm]; ring
  constructor
  · rw [← div_le_iff₀' hdt, hE, sub_le_iff_le_add]
    have : 0 ≤ sigma * (99 / 100 * (6 * p.ts ^ 2 * (T0 - p.ts) ^ 2 + 4 * p.ts * (T0 - p.ts) ^ 3 +
      (T0 - p.ts) ^ 4)) := by positivity
    refine max_le (by nlinarith) (by positivity)
  · intro h2
    have hsmall : sigma * (4 / 100 * p.ts ^ 3 * (T0 - p.ts) -
        99 / 100 * (6 * p.ts ^ 2 * (T0 - p.ts) ^ 2 + 4 * p.ts * (T0 - p.ts) ^ 3 + (T0 - p.ts) ^ 4)) ≤ 0 := by
      refine mul_nonpos_of_nonneg_of_nonpos hsg.le ?_
      have hT : T0 = 27315 / 100 := by norm_num [T0]
      have hb : 4 / 100 * p.ts ≤ 99 / 100 * (6 * (T0 - p.ts)) := by
        have h2' := h2
        rw [hT] at h2' ⊢
        linarith
      have := mul_le_mul_of_nonneg_left hb (mul_nonneg (sq_nonneg p.ts) hD)
      have : 0 ≤ 4 * p.ts * (T0 - p.ts) ^ 3 + (T0 - p.ts) ^ 4 := by positivity
      nlinarith
    have : lf * (p.energyBalance.melt - p.ice.sum) / p.dt ≤ 0 := by
      rw [hE, sub_nonpos]
      exact max_le (by linarith) hsum
    have h3 := mul_nonpos_of_nonpos_of_nonneg this hdt.le
    rw [div_mul_cancel₀ _ hdt.ne'] at h3
    by_contra hc
    have : 0 < lf * (p.energyBalance.melt - p.ice.sum) := mul_pos hl (by linarith)
    linarith

/-- Still air over snow, 1 K below the melting point, gaining 100 W/m² there; ice for 99.99 W/m². -/
noncomputable def smallPack : Pixel where
  dt := 3600
  swIn := 0
  lwIn := 100 + 99 / 100 * sigma * T0 ^ 4
  albedo := 0
  temp := T0
  wetBulb := T0
  specHum := 0
  rain := 0
  snow := 0
  wind := 0
  density := 1
  exch := 0
  latVap := 2500000
  gs := 0
  swe := 2
  ice := [9999 / 100 * 3600 / lf]
  ts := T0 - 1
  layerTemp := T0
  layerCond := 1
  layerThick := 1
  qsat := fun _ => 0

/-- **C79.** The excess does occur: melt can be larger than the ice of the snowpack. -/
theorem C79_melt_exceeds_ice_witness :
    Physical smallPack ∧ smallPack.Partially ∧ smallPack.ice.sum < smallPack.energyBalance.melt := by
  have hphys : Physical smallPack := by
    constructor <;> norm_num [smallPack, T0, lf]
  have hs := slope_pos hphys
  have hpart : smallPack.Partially := by
    refine ⟨⟨?_, by norm_num [smallPack, ice0, lf]⟩, ?_⟩
    · rw [Pixel.dry, solve_eq, ← sub_lt_iff_lt_add', lt_div_iff₀ hs]
      norm_num [smallPack, surplus, slope, T0, sigma, cp, rv, lf, cWater, cIce, avail, latHeat, ice0]
    · rw [Pixel.wet, solve_eq, ← lt_sub_iff_add_lt', div_lt_iff₀ hs]
      norm_num [smallPack, surplus, slope, T0, sigma, cp, rv, lf, cWater, cIce, avail, latHeat, ice0]
  refine ⟨hphys, hpart, ?_⟩
  obtain ⟨-, hm, -⟩ := C79_partial_melt _ hphys hpart
  have h1 : surplus smallPack smallPack.avail (smallPack.latHeat T0) T0 = 100 := by
    norm_num [smallPack, surplus, T0, sigma, cp, lf, cWater, cIce]
  rw [h1, max_eq_left (by norm_num)] at hm
  have h2 : smallPack.dt = 3600 := rfl
  have h3 : smallPack.ice.sum = 9999 / 100 * 3600 / lf := by simp [smallPack]
  rw [h2] at hm
  rw [h3, div_lt_iff₀ (by norm_num [lf])]
  have : lf * smallPack.energyBalance.melt = 100 * 3600 := by
    rw [div_eq_iff (by norm_num)] at hm; exact hm
  rw [mul_comm _ lf, this]; norm_num

end Verif.Surface
