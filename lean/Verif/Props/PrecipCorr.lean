import Verif.Model.PrecipCorr
import Mathlib.Analysis.Real.Pi.Bounds
import Mathlib.Tactic.Linarith
import Mathlib.Tactic.NormNum
import Mathlib.Tactic.Ring
import Mathlib.Tactic.Positivity

/-!
# C64: precipitation correction
-/

namespace Verif.PrecipCorr

/-- **C64.** Constant snow correction factor: rain is unchanged, snow multiplied by the factor, mixed
precipitation in between; with a factor of at least 1 precipitation never decreases. -/
theorem C64_constant (env : Env) (scf : ℝ) (r : Rec) (p : ℝ) (hp : r.precip = some p) (h0 : 0 ≤ p)
    (hs0 : 0 ≤ r.snowfrac) (hs1 : r.snowfrac ≤ 1) :
    ∃ q, correct env [.constantScf scf] r = some (some q) ∧
      (r.snowfrac = 0 → q = p) ∧ (r.snowfrac = 1 → q = scf * p) ∧
      q = p * (1 - r.snowfrac) + scf * (p * r.snowfrac) ∧ (1 ≤ scf → p ≤ q ∧ q ≤ scf * p) := by
  refine ⟨p * (1 + r.snowfrac * (scf - 1)), ?_, ?_, ?_, by ring, ?_⟩
  · simp [correct, factor, hp]
  · intro h; rw [h]; ring
  · intro h; rw [h]; ring
  · intro h
    constructor
    · nlinarith [mul_nonneg h0 hs0, mul_nonneg (mul_nonneg h0 hs0) (by linarith : 0 ≤ scf - 1)]
    · nlinarith [mul_nonneg (mul_nonneg h0 (by linarith : 0 ≤ 1 - r.snowfrac)) (by linarith : 0 ≤ scf - 1)]

theorem correct_acc (env : Env) (ms : List Method) (r : Rec) (p : Option ℝ) (q : Option ℝ)
    (h : ms.foldl (fun acc m => acc.bind fun p => (factor env m r).map fun f => p.map (· * f)) (some p) =
      some q) :
    ∃ fs : List ℝ, (ms.map (factor env · r)) = fs.map some ∧ q = p.map (· * fs.prod) := by
  induction ms generalizing p with
  | nil =>
    simp only [List.foldl_nil, Option.some.injEq] at h
    refine ⟨[], rfl, ?_⟩
    rw [← h]
    cases p <;> simp
  | cons m ms ih =>
    rw [List.foldl_cons] at h
    cases hf : factor env m r with
    | none =>
      simp only [Option.bind_some, hf, Option.map_none] at h
      exfalso
      have : ∀ ms : List Method,
          ms.foldl (fun acc m => acc.bind fun p => (factor env m r).map fun f => p.map (· * f))
            (none : Option (Option ℝ)) = none := by
        intro ms
        induction ms with
        | nil => rfl
        | cons m ms ih => rw [List.foldl_cons]; exact ih
      rw [this] at h
      cases h
    | some f =>
      simp only [Option.bind_some, hf, Option.map_some] at h
      obtain ⟨fs, h1, h2⟩ := ih _ h
      refine ⟨f :: fs, by simp [hf, h1], ?_⟩
      rw [h2]
      cases p with
      | none => rfl
      | some x => simp [mul_assoc]

/-- **C64.** With several methods the factors multiply; zero precipitation stays zero and missing
precipitation missing. -/
theorem C64_sequence (env : Env) (ms : List Method) (r : Rec) (q : Option ℝ)
    (h : correct env ms r = some q) :
    (∃ fs : List ℝ, ms.map (factor env · r) = fs.map some ∧ q = r.precip.map (· * fs.prod)) ∧
    (r.precip = some 0 → q = some 0) ∧ (r.precip = none → q = none) := by
  obtain ⟨fs, h1, h2⟩ := correct_acc env ms r r.precip q h
  refine ⟨⟨fs, h1, h2⟩, ?_, ?_⟩ <;> intro hp <;> rw [h2, hp] <;> simp

/-- **C64.** Records without wind are left unchanged by the wind-dependent methods, and records without
temperature too (their snowfall fraction is 0). -/
theorem C64_missing (env : Env) (r : Rec) (g : KochGauge)
    (h : r.wind = none ∨ (r.tempC = none ∧ r.snowfrac = 0)) :
    factor env (.wmo .hellmann) r = some 1 ∧ factor env (.kochendorfer g) r = some 1 := by
  have e : (1 : ℝ) / (100 / 100) = 1 := by norm_num
  constructor
  · simp only [factor]
    rcases h with h | ⟨h1, h2⟩
    · unfold hellmann
      simp only [h, Option.map_none]
      split_ifs <;> simp
    · unfold hellmann
      simp only [h2, zero_ne_one, and_false, if_false, lt_self_iff_false, false_and]
      norm_num
  · simp only [factor]
    unfold koch
    by_cases hw : r.wet
    · rcases h with h | ⟨h1, -⟩
      · simp [h, hw]
      · cases hwi : r.wind <;> simp [h1, hw]
    · simp [hw]

/-- **C64.** Dry records are left unchanged by the wind-dependent methods. -/
theorem C64_dry (env : Env) (r : Rec) (g : KochGauge) (h : ¬ r.wet) :
    factor env (.wmo .hellmann) r = some 1 ∧ factor env (.kochendorfer g) r = some 1 := by
  constructor
  · simp only [factor]
    unfold hellmann
    simp [h]
  · simp only [factor]
    unfold koch
    simp [h]

/-- **C64 (false of the code).** Every gauge of the "wmo" method except "hellmann" raises an error, for
every record. -/
theorem C64_gauges_false (env : Env) (g : WmoGauge) (r : Rec) :
    factor env (.wmo g) r = none ↔ g ≠ .hellmann := by
  cases g <;> simp only [factor, ne_eq, reduceCtorEq, not_false_eq_true, not_true_eq_false, iff_false]
  cases hellmann env r <;> simp

/-- Specification: transfer function coefficients of the gauges (Kochendorfer et al. 2017, table 3). -/
noncomputable def kochTable : List (KochGauge × ℝ × ℝ × ℝ × ℝ) :=
  [(.usUn, 0.045, 1.21, 0.66, 8), (.allSa, 0.03, 1.04, 0.57, 12), (.norSa, 0.05, 0.66, 0.23, 12),
    (.usSa, 0.03, 1.06, 0.63, 12), (.usDa, 0.021, 0.74, 0.66, 8), (.usBda, 0.01, 0.48, 0.51, 8),
    (.usSdfir, 0.004, 0, 0, 8)]

/-- **C64.** The factor of the Kochendorfer method is the reciprocal of the published catch ratio
`exp (-a U (1 - arctan (b T) + c))`, with the wind speed limited to the maximum of the gauge, and every
gauge has such a row. -/
theorem C64_koch_value (env : Env) (r : Rec) (p w t : ℝ) (hp : r.precip = some p) (h0 : 0 < p)
    (hw : r.wind = some w) (ht : r.tempC = some t) :
    (∀ g : KochGauge, ∃ x, (g, x) ∈ kochTable) ∧
    ∀ row ∈ kochTable, factor env (.kochendorfer row.1) r =
      some (Real.exp (row.2.1 * min w row.2.2.2.2 * (1 - Real.arctan (row.2.2.1 * t) + row.2.2.2.1))) := by
  have hwet : r.wet := ⟨p, hp, h0⟩
  constructor
  · intro g
    cases g <;> simp [kochTable]
  · have key : ∀ g : KochGauge, factor env (.kochendorfer g) r = some (Real.exp (g.coeffs.1 *
        min w g.coeffs.2.2.2 * (1 - Real.arctan (g.coeffs.2.1 * t) + g.coeffs.2.2.1))) := by
      intro g
      simp only [factor, koch, hwet, if_true, hw, ht]
      rw [one_div, ← Real.exp_neg]
      congr 2
      ring
    intro row hr
    rw [key row.1]
    simp only [kochTable, List.mem_cons, List.not_mem_nil, or_false] at hr
    rcases hr with rfl | rfl | rfl | rfl | rfl | rfl | rfl <;> norm_num [KochGauge.coeffs]

/-- **C64.** The factor of the Kochendorfer method is at least 1 exactly while
`arctan (b T) ≤ 1 + c`, for a positive wind speed. -/
theorem C64_koch (env : Env) (g : KochGauge) (r : Rec) (p w t : ℝ) (hp : r.precip = some p) (h0 : 0 < p)
    (hw : r.wind = some w) (hw0 : 0 < w) (ht : r.tempC = some t) :
    ∃ f, factor env (.kochendorfer g) r = some f ∧ 0 < f ∧
      (1 ≤ f ↔ Real.arctan (g.coeffs.2.1 * t) ≤ 1 + g.coeffs.2.2.1) := by
  have hwet : r.wet := ⟨p, hp, h0⟩
  obtain ⟨a, b, c, mw, hc⟩ : ∃ a b c mw, g.coeffs = (a, b, c, mw) := ⟨_, _, _, _, rfl⟩
  have ha : 0 < a ∧ 0 < mw := by
    cases g <;> simp only [KochGauge.coeffs, Prod.mk.injEq] at hc <;> obtain ⟨rfl, -, -, rfl⟩ := hc <;> norm_num
  refine ⟨1 / Real.exp (-a * min w mw * (1 - Real.arctan (b * t) + c)), ?_, by positivity, ?_⟩
  · simp only [factor, koch, hc, hwet, if_true, hw, ht]
  · rw [hc]
    simp only
    rw [le_div_iff₀ (Real.exp_pos _), one_mul, Real.exp_le_one_iff]
    have hm : 0 < a * min w mw := mul_pos ha.1 (lt_min hw0 ha.2)
    constructor
    · intro h
      by_contra hlt
      push Not at hlt
      nlinarith [mul_pos hm (by linarith : 0 < Real.arctan (b * t) - 1 - c)]
    · intro h
      nlinarith [mul_nonneg hm.le (by linarith : 0 ≤ 1 - Real.arctan (b * t) + c)]

/-- **C64.** The Kochendorfer method never reduces precipitation for the gauges us_un, us_sa, us_da and
us_sdfir, and for no gauge at temperatures up to 0 °C. -/
theorem C64_koch_partial (env : Env) (g : KochGauge) (r : Rec) (p w t : ℝ) (hp : r.precip = some p)
    (h0 : 0 < p) (hw : r.wind = some w) (hw0 : 0 < w) (ht : r.tempC = some t)
    (h : g = .usUn ∨ g = .usSa ∨ g = .usDa ∨ g = .usSdfir ∨ t ≤ 0) :
    ∃ q, correct env [.kochendorfer g] r = some (some q) ∧ p ≤ q := by
  obtain ⟨f, h1, h2, h3⟩ := C64_koch env g r p w t hp h0 hw hw0 ht
  refine ⟨p * f, by simp [correct, h1, hp], ?_⟩
  apply le_mul_of_one_le_right h0.le
  rw [h3]
  have hpi := Real.arctan_lt_pi_div_two (g.coeffs.2.1 * t)
  have hpi2 := Real.pi_lt_d2
  rcases h with rfl | rfl | rfl | rfl | h
  · simp only [KochGauge.coeffs] at hpi ⊢; linarith
  · simp only [KochGauge.coeffs] at hpi ⊢; linarith
  · simp only [KochGauge.coeffs] at hpi ⊢; linarith
  · simp only [KochGauge.coeffs, zero_mul, Real.arctan_zero]; norm_num
  · have : Real.arctan (g.coeffs.2.1 * t) ≤ 0 := by
      rw [← Real.arctan_zero]
      apply Real.arctan_mono
      apply mul_nonpos_of_nonneg_of_nonpos _ h
      cases g <;> norm_num [KochGauge.coeffs]
    have hc : 0 ≤ g.coeffs.2.2.1 := by cases g <;> norm_num [KochGauge.coeffs]
    linarith

theorem arctan_le_self {x : ℝ} (hx : 0 ≤ x) : Real.arctan x ≤ x := by
  rcases hx.eq_or_lt with rfl | hx
  · simp
  · have h1 : 0 < Real.arctan x := by rw [← Real.arctan_zero]; exact Real.arctan_strictMono hx
    have h2 := Real.lt_tan h1 (Real.arctan_lt_pi_div_two x)
    rw [Real.tan_arctan] at h2
    exact h2.le

/-- **C64 (false of the code).** With gauge nor_sa precipitation at 5 °C is reduced. -/
theorem C64_koch_false (env : Env) (w : ℝ) (hw0 : 0 < w) :
    ∃ q, correct env [.kochendorfer .norSa] ⟨some 10, some 5, some w, 0⟩ = some (some q) ∧ q < 10 := by
  obtain ⟨f, h1, h2, h3⟩ := C64_koch env .norSa ⟨some 10, some 5, some w, 0⟩ 10 w 5 rfl (by norm_num) rfl hw0 rfl
  refine ⟨10 * f, by simp [correct, h1], ?_⟩
  have hf : ¬ 1 ≤ f := by
    rw [h3]
    simp only [KochGauge.coeffs]
    have e : (66 / 100 * 5 : ℝ) = (10 / 33)⁻¹ := by norm_num
    rw [e, Real.arctan_inv_of_pos (by norm_num)]
    have := arctan_le_self (show (0 : ℝ) ≤ 10 / 33 by norm_num)
    have := Real.pi_gt_d2
    push Not
    linarith
  push Not at hf
  linarith

/-- **C64.** The Hellmann catch ratio for snow is between 16 and 100 % (wind speeds at gauge height between 0 and
7 m/s after clipping), so snow is never reduced and at most multiplied by 6.2. -/
theorem C64_hellmann_snow (env : Env) (r : Rec) (p u : ℝ) (hp : r.precip = some p) (h0 : 0 < p)
    (hs : r.snowfrac = 1) (w : ℝ) (hw : r.wind = some w)
    (hu : Atmosphere.logWind w env.windHeight env.tempHeight env.rough = u) (hu0 : 0 ≤ u) :
    ∃ q, correct env [.wmo .hellmann] r = some (some q) ∧ p ≤ q ∧ q ≤ 62 / 10 * p := by
  have hwet : r.wet := ⟨p, hp, h0⟩
  obtain ⟨m, hm⟩ : ∃ m, min u 7 = m := ⟨_, rfl⟩
  have hm0 : 0 ≤ m := by rw [← hm]; exact le_min hu0 (by norm_num)
  have hm7 : m ≤ 7 := by rw [← hm]; exact min_le_right _ _
  have hcr : hellmann env r = some (100 + 113 / 100 * m ^ 2 - 1945 / 100 * m) := by
    simp only [hellmann, hwet, hs, true_and, if_true, hw, Option.map_some, hu, hm]
  have h1 : 100 + 113 / 100 * m ^ 2 - 1945 / 100 * m ≤ 100 := by nlinarith
  have h2 : 163 / 10 ≤ 100 + 113 / 100 * m ^ 2 - 1945 / 100 * m := by nlinarith
  obtain ⟨cr, hcr'⟩ : ∃ cr, 100 + 113 / 100 * m ^ 2 - 1945 / 100 * m = cr := ⟨_, rfl⟩
  rw [hcr'] at h1 h2 hcr
  refine ⟨p * (1 / (cr / 100)), ?_, ?_, ?_⟩
  · simp only [correct, List.foldl_cons, List.foldl_nil, factor, hcr, hp, Option.bind_some, Option.map_some]
    rw [if_neg (by linarith)]
  · apply le_mul_of_one_le_right h0.le
    rw [le_div_iff₀ (by linarith)]
    linarith
  · rw [mul_comm (62 / 10)]
    apply mul_le_mul_of_nonneg_left _ h0.le
    rw [div_le_iff₀ (by linarith)]
    linarith

/-- **C64.** The Hellmann catch ratio for mixed precipitation at temperatures above freezing is at least 47.8 %, so
such precipitation is at most multiplied by 2.1, and it is not reduced up to half a degree above freezing. -/
theorem C64_hellmann_mixed (env : Env) (r : Rec) (p u t : ℝ) (hp : r.precip = some p) (h0 : 0 < p)
    (hs0 : 0 < r.snowfrac) (hs1 : r.snowfrac < 1) (w : ℝ) (hw : r.wind = some w) (ht : r.tempC = some t)
    (ht0 : 0 ≤ t) (hu : Atmosphere.logWind w env.windHeight env.tempHeight env.rough = u) (hu0 : 0 ≤ u) :
    ∃ q, correct env [.wmo .hellmann] r = some (some q) ∧ 0 < q ∧ q ≤ 21 / 10 * p ∧ (t ≤ 1 / 2 → p ≤ q) := by
  have hwet : r.wet := ⟨p, hp, h0⟩
  obtain ⟨m, hm⟩ : ∃ m, min u 7 = m := ⟨_, rfl⟩
  have hm0 : 0 ≤ m := by rw [← hm]; exact le_min hu0 (by norm_num)
  have hm7 : m ≤ 7 := by rw [← hm]; exact min_le_right _ _
  have hcr : hellmann env r = some (9663 / 100 + 41 / 100 * m ^ 2 - 984 / 100 * m + 595 / 100 * t) := by
    simp only [hellmann, hwet, true_and]
    rw [if_neg hs1.ne, if_pos ⟨hs0, hs1⟩]
    simp only [hw, ht, Option.map_some, hu, hm]
  have h1 : t ≤ 1 / 2 → 9663 / 100 + 41 / 100 * m ^ 2 - 984 / 100 * m + 595 / 100 * t ≤ 100 := by
    intro h; nlinarith
  have h2 : 478 / 10 ≤ 9663 / 100 + 41 / 100 * m ^ 2 - 984 / 100 * m + 595 / 100 * t := by nlinarith
  obtain ⟨cr, hcr'⟩ : ∃ cr, 9663 / 100 + 41 / 100 * m ^ 2 - 984 / 100 * m + 595 / 100 * t = cr := ⟨_, rfl⟩
  rw [hcr'] at h1 h2 hcr
  have hcr0 : 0 < cr / 100 := by linarith
  refine ⟨p * (1 / (cr / 100)), ?_, by positivity, ?_, ?_⟩
  · simp only [correct, List.foldl_cons, List.foldl_nil, factor, hcr, hp, Option.bind_some, Option.map_some]
    rw [if_neg (by linarith)]
  · rw [mul_comm (21 / 10)]
    apply mul_le_mul_of_nonneg_left _ h0.le
    rw [div_le_iff₀ hcr0]
    linarith
  · intro h
    apply le_mul_of_one_le_right h0.le
    rw [le_div_iff₀ hcr0]
    have := h1 h
    linarith

/-- **C64 (false of the code).** For mixed precipitation the Hellmann correction can reduce
precipitation: at 1 °C without wind. -/
theorem C64_hellmann_mixed_false (env : Env) :
    ∃ q, correct env [.wmo .hellmann] ⟨some 10, some 1, some 0, 1 / 2⟩ = some (some q) ∧ q < 10 := by
  have hwet : (⟨some 10, some 1, some 0, 1 / 2⟩ : Rec).wet := ⟨10, rfl, by norm_num⟩
  have hcr : hellmann env ⟨some 10, some 1, some 0, 1 / 2⟩ = some (10258 / 100) := by
    simp only [hellmann, hwet, Atmosphere.logWind, true_and]
    norm_num
  refine ⟨10 * (1 / (10258 / 100 / 100)), ?_, by norm_num⟩
  simp only [correct, List.foldl_cons, List.foldl_nil, factor, hcr, Option.bind_some, Option.map_some]
  norm_num

/-- A record of mixed precipitation without wind. -/
example (env : Env) : ∃ q, correct env [.wmo .hellmann] ⟨some 10, some (1 / 4), some 0, 1 / 2⟩ = some (some q) ∧
    10 ≤ q := by
  obtain ⟨q, h1, -, -, h2⟩ := C64_hellmann_mixed env ⟨some 10, some (1 / 4), some 0, 1 / 2⟩ 10 0 (1 / 4) rfl
    (by norm_num) (by norm_num) (by norm_num) 0 rfl rfl (by norm_num) (by simp [Atmosphere.logWind]) le_rfl
  exact ⟨q, h1, h2 (by norm_num)⟩

/-- A wet snow record. -/
example : ∃ r : Rec, r.precip = some 3 ∧ r.wet ∧ r.snowfrac = 1 :=
  ⟨⟨some 3, some (-2), some 4, 1⟩, rfl, ⟨3, rfl, by norm_num⟩, rfl⟩

end Verif.PrecipCorr
