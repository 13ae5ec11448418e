import Verif.Model.ClearSky
import Mathlib.Analysis.Real.Pi.Bounds
import Mathlib.Tactic.Linarith
import Mathlib.Tactic.Positivity
import Mathlib.Tactic.NormNum
import Mathlib.Tactic.FieldSimp

namespace Verif.ClearSky

open Real

theorem ecc_pos (da : ℝ) : 0 < eccCorr da := by
  unfold eccCorr
  linarith [neg_one_le_cos da, neg_one_le_sin da, neg_one_le_cos (2 * da), neg_one_le_sin (2 * da)]

/-- Denominators of the form `1 - p + p ^ e` with `e ≥ 1`. -/
theorem denom_pos {p e : ℝ} (hp : 0 < p) (he : 1 ≤ e) : 0 < 1 - p + p ^ e := by
  have h := rpow_pos_of_pos hp e
  by_cases h1 : 1 ≤ p
  · have := rpow_le_rpow_of_exponent_le h1 he
    rw [rpow_one] at this; linarith
  · push Not at h1; linarith

theorem gases_range {p : ℝ} (hp : 0 < p) : 0 < transGases p ∧ transGases p ≤ 1 := by
  refine ⟨exp_pos _, ?_⟩
  rw [transGases, exp_le_one_iff]
  have := rpow_pos_of_pos hp (26 / 100)
  linarith

theorem vapor_range {w : ℝ} (hw : 0 ≤ w) : 0 < transVapor w ∧ transVapor w ≤ 1 := by
  have h1 : 1 ≤ (1 + 79034 / 1000 * w) ^ (6828 / 10000 : ℝ) := one_le_rpow (by linarith) (by norm_num)
  have hD : 0 < (1 + 79034 / 1000 * w) ^ (6828 / 10000 : ℝ) + 6385 / 1000 * w := by linarith
  unfold transVapor
  constructor
  · have : 24959 / 10000 * w * 1 / ((1 + 79034 / 1000 * w) ^ (6828 / 10000 : ℝ) + 6385 / 1000 * w) < 1 := by
      rw [div_lt_one hD]; linarith
    linarith
  · have : 0 ≤ 24959 / 10000 * w * 1 / ((1 + 79034 / 1000 * w) ^ (6828 / 10000 : ℝ) + 6385 / 1000 * w) :=
      div_nonneg (by linarith) hD.le
    linarith

theorem ozone_range {l : ℝ} (h0 : 0 ≤ l) (h1 : l ≤ 50) : 0 ≤ transOzone l ∧ transOzone l ≤ 1 := by
  have hb : 1 ≤ 1 + 13948 / 100 * l := by linarith
  have hb0 : 0 < 1 + 13948 / 100 * l := by linarith
  have hq : 0 < 1 + 44 / 1000 * l + 3 / 10000 * l ^ 2 := by positivity
  have h2 : 0 ≤ 2715 / 1000000 * l * 1 / (1 + 44 / 1000 * l + 3 / 10000 * l ^ 2) := by positivity
  obtain ⟨b, hbdef⟩ : ∃ b, 1 + 13948 / 100 * l = b := ⟨_, rfl⟩
  rw [hbdef] at hb hb0
  -- upper bound of the absorptance through the fourth root
  have hu : 1611 / 10000 * l * b ^ (-(3035 / 10000) : ℝ) ≤ 1 := by
    have e1 : b ^ (-(3035 / 10000) : ℝ) ≤ b ^ (-(1 / 4) : ℝ) :=
      rpow_le_rpow_of_exponent_le hb (by norm_num)
    obtain ⟨r, hr⟩ : ∃ r, b ^ (1 / 4 : ℝ) = r := ⟨_, rfl⟩
    have hr0 : 0 < r := hr ▸ rpow_pos_of_pos hb0 _
    have hr4 : r ^ 4 = b := by
      rw [← hr, ← rpow_natCast, ← rpow_mul hb0.le]; norm_num
    have e2 : b ^ (-(1 / 4) : ℝ) = r⁻¹ := by rw [rpow_neg hb0.le, hr]
    have hle : 1611 / 10000 * l ≤ r := by
      refine le_of_pow_le_pow_left₀ (n := 4) (by norm_num) hr0.le ?_
      rw [hr4, ← hbdef]
      have : l ^ 4 ≤ 125000 * l := by
        have h3 : l ^ 3 ≤ 50 ^ 3 := pow_le_pow_left₀ h0 h1 3
        nlinarith
      nlinarith
    calc 1611 / 10000 * l * b ^ (-(3035 / 10000) : ℝ) ≤ 1611 / 10000 * l * r⁻¹ := by
          rw [← e2]; exact mul_le_mul_of_nonneg_left e1 (by positivity)
      _ ≤ 1 := by rw [← div_eq_mul_inv, div_le_one hr0]; exact hle
  -- lower bound through the third root
  have hl : 2715 / 1000000 * l * 1 / (1 + 44 / 1000 * l + 3 / 10000 * l ^ 2) ≤
      1611 / 10000 * l * b ^ (-(3035 / 10000) : ℝ) := by
    have e1 : b ^ (-(1 / 3) : ℝ) ≤ b ^ (-(3035 / 10000) : ℝ) :=
      rpow_le_rpow_of_exponent_le hb (by norm_num)
    obtain ⟨r, hr⟩ : ∃ r, b ^ (1 / 3 : ℝ) = r := ⟨_, rfl⟩
    have hr0 : 0 < r := hr ▸ rpow_pos_of_pos hb0 _
    have hr3 : r ^ 3 = b := by
      rw [← hr, ← rpow_natCast, ← rpow_mul hb0.le]; norm_num
    have e2 : b ^ (-(1 / 3) : ℝ) = r⁻¹ := by rw [rpow_neg hb0.le, hr]
    have hle : r ≤ 50 := by
      refine le_of_pow_le_pow_left₀ (n := 3) (by norm_num) (by norm_num) ?_
      rw [hr3, ← hbdef]; linarith
    have e3 : (1 / 50 : ℝ) ≤ r⁻¹ := by rw [one_div]; exact inv_anti₀ hr0 hle
    calc 2715 / 1000000 * l * 1 / (1 + 44 / 1000 * l + 3 / 10000 * l ^ 2) ≤ 2715 / 1000000 * l * 1 :=
          div_le_self (by positivity) (by nlinarith [sq_nonneg l])
      _ ≤ 1611 / 10000 * l * r⁻¹ := by nlinarith
      _ ≤ _ := by rw [← e2]; exact mul_le_mul_of_nonneg_left e1 (by positivity)
  unfold transOzone
  rw [hbdef]
  constructor <;> linarith

theorem aerosols_range {v p : ℝ} (hv : 2 ≤ v) (hp : 0 < p) :
    0 < transAerosols v p ∧ transAerosols v p < 1 := by
  have hv0 : 0 < v := by linarith
  have h1 : 0 < v ^ (-(66 / 100) : ℝ) := rpow_pos_of_pos hv0 _
  have h2 : v ^ (-(66 / 100) : ℝ) ≤ 3 / 4 := by
    have e1 : v ^ (-(66 / 100) : ℝ) ≤ (2 : ℝ) ^ (-(66 / 100) : ℝ) :=
      rpow_le_rpow_of_nonpos (by norm_num) hv (by norm_num)
    have e2 : (2 : ℝ) ^ (-(66 / 100) : ℝ) ≤ (2 : ℝ) ^ (-(1 / 2) : ℝ) :=
      rpow_le_rpow_of_exponent_le (by norm_num) (by norm_num)
    have e3 : (2 : ℝ) ^ (-(1 / 2) : ℝ) ≤ 3 / 4 := by
      rw [rpow_neg (by norm_num), ← sqrt_eq_rpow, inv_le_comm₀ (by positivity) (by norm_num)]
      exact le_sqrt_of_sq_le (by norm_num)
    linarith
  have hq := rpow_pos_of_pos hp (9 / 10)
  unfold transAerosols
  exact ⟨rpow_pos_of_pos (by linarith) _, rpow_lt_one (by linarith) (by linarith) hq⟩

/-- The Rayleigh transmittance never exceeds 1 (it may be negative for very long paths). -/
theorem rayleigh_le_one {p : ℝ} (hp : 0 < p) : transRayleigh p ≤ 1 := by
  unfold transRayleigh
  by_cases h1 : 1 ≤ p
  · have h := rpow_le_rpow_of_exponent_le h1 (show (1 : ℝ) ≤ 101 / 100 by norm_num)
    rw [rpow_one] at h
    have hx : exp (-(903 / 10000) * p ^ (84 / 100 : ℝ)) ≤ 1 := by
      rw [exp_le_one_iff]; have := rpow_pos_of_pos hp (84 / 100); linarith
    have h0 := exp_pos (-(903 / 10000) * p ^ (84 / 100 : ℝ))
    nlinarith
  · push Not at h1
    obtain ⟨q, hq⟩ : ∃ q, p ^ (1 / 100 : ℝ) = q := ⟨_, rfl⟩
    have hq0 : 0 < q := hq ▸ rpow_pos_of_pos hp _
    have hq1 : q ≤ 1 := hq ▸ rpow_le_one hp.le h1.le (by norm_num)
    have hpw : ∀ k : ℕ, p ^ ((k : ℝ) / 100) = q ^ k := fun k => by
      rw [← hq, ← rpow_natCast, ← rpow_mul hp.le]; congr 1; ring
    have e84 : p ^ (84 / 100 : ℝ) = q ^ 84 := by have := hpw 84; simpa using this
    have e101 : p ^ (101 / 100 : ℝ) = q ^ 101 := by have := hpw 101; simpa using this
    have e100 : p = q ^ 100 := by have := hpw 100; norm_num at this; exact this
    rw [e84, e101]
    have hgeo : q ^ 16 * (1 - q) ≤ 1 / 17 := by
      have hb : ∀ k ≤ 16, q ^ 16 ≤ q ^ k := fun k hk => pow_le_pow_of_le_one hq0.le hq1 hk
      have hsum : 17 * q ^ 16 ≤ ∑ k ∈ Finset.range 17, q ^ k := by
        calc 17 * q ^ 16 = ∑ _k ∈ Finset.range 17, q ^ 16 := by simp
          _ ≤ _ := Finset.sum_le_sum fun k hk => hb k (by have := Finset.mem_range.1 hk; omega)
      have hg : (∑ k ∈ Finset.range 17, q ^ k) * (1 - q) = 1 - q ^ 17 := by
        have := geom_sum_mul_neg q 17; exact this
      have h17 : 0 ≤ q ^ 17 := by positivity
      nlinarith
    have hd : p - q ^ 101 ≤ 903 / 10000 * q ^ 84 := by
      have h84 : 0 < q ^ 84 := by positivity
      have : p - q ^ 101 = q ^ 84 * (q ^ 16 * (1 - q)) := by rw [e100]; ring
      rw [this]; nlinarith
    have hexp := add_one_le_exp (903 / 10000 * q ^ 84)
    have hpos := exp_pos (903 / 10000 * q ^ 84)
    rw [neg_mul, exp_neg, inv_mul_le_iff₀ hpos]
    linarith

end Verif.ClearSky
