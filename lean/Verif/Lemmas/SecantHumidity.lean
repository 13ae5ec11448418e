import Verif.Lemmas.SurfaceTemp
import Verif.Lemmas.SatHumidity
import Mathlib.Analysis.SpecificLimits.Basic
import Mathlib.Topology.Order.IntermediateValue
import Mathlib.Tactic.NormNum

/-!
# The secant iteration with the saturation humidity of the program
-/

namespace Verif.SurfaceTemp

open Verif.Atmosphere (T0 cp Over)
open Verif.SatHumidity
open Classical

/-! ## Contraction around a zero -/

section contract
variable {f : ℝ → ℝ} {m M l h : ℝ}

/-- Slopes between two points. -/
theorem slope_of (hm : 0 < m) (hmM : m ≤ M)
    (H : ∀ x y, l ≤ x → x < y → y < h → m * (y - x) ≤ f x - f y ∧ f x - f y ≤ M * (y - x)) {x y : ℝ}
    (hx : l ≤ x) (hx' : x < h) (hy : l ≤ y) (hy' : y < h) : ∃ s, m ≤ s ∧ s ≤ M ∧ f x - f y = s * (y - x) := by
  rcases lt_trichotomy x y with hlt | rfl | hlt
  · obtain ⟨h1, h2⟩ := H x y hx hlt hy'
    have hp : 0 < y - x := by linarith
    exact ⟨(f x - f y) / (y - x), by rwa [le_div_iff₀ hp], by rwa [div_le_iff₀ hp], by field_simp⟩
  · exact ⟨m, le_rfl, hmM, by ring⟩
  · obtain ⟨h1, h2⟩ := H y x hy hlt hx'
    have hp : 0 < x - y := by linarith
    refine ⟨(f y - f x) / (x - y), by rwa [le_div_iff₀ hp], by rwa [div_le_iff₀ hp], ?_⟩
    have : (f y - f x) / (x - y) * (x - y) = f y - f x := by field_simp
    linarith

/-- Ratio of two slopes. -/
theorem ratio (hm : 0 < m) (hM : M ≤ 7 / 4 * m) {s t : ℝ} (hs : m ≤ s) (hs' : s ≤ 2 * m) (ht : m ≤ t) (ht' : t ≤ M) :
    1 / 2 ≤ t / s ∧ t / s ≤ 7 / 4 := by
  have hs0 : 0 < s := by linarith
  rw [le_div_iff₀ hs0, div_le_iff₀ hs0]
  constructor <;> linarith

theorem ends_contract (hm : 0 < m) (hmM : m ≤ M) (hM : M ≤ 7 / 4 * m)
    (H : ∀ x y, l ≤ x → x < y → y < h → m * (y - x) ≤ f x - f y ∧ f x - f y ≤ M * (y - x)) {z ρ : ℝ} (hz : l ≤ z - ρ)
    (hρ : 0 ≤ ρ) (hzh : 3 / 4 * ρ < h - z) (fz : f z = 0) (N : ℕ) {x y : ℝ} (hx : l ≤ x) (hx' : x < h) (hne : x ≠ y)
    (hy' : y < h) (hyr : |y - z| ≤ ρ) (hN : |y - z| ≤ (4 / 3) ^ N * (tol / 2)) : Ends f x y := by
  induction N generalizing x y with
  | zero =>
    have hyl : l ≤ y := by have := (abs_le.1 hyr).1; linarith
    obtain ⟨s, hs, hs', e⟩ := slope_of hm hmM H hx hx' hyl hy'
    obtain ⟨t, ht, ht', e'⟩ := slope_of hm hmM H (by linarith : l ≤ z) (by linarith) hyl hy'
    obtain ⟨r1, r2⟩ := ratio hm hM hs (by linarith) ht ht'
    have hs0 : 0 < s := by linarith
    have hyx : y - x ≠ 0 := sub_ne_zero.2 (Ne.symm hne)
    have hc : corr f x y = t / s * (y - z) := by
      unfold corr
      rw [show f y - f x = -(s * (y - x)) by linarith, show f y = -(t * (y - z)) by linarith]
      field_simp
    refine ⟨0, ?_⟩
    rw [pixRun_stop]
    have ht0 := tol_pos
    rw [hc, abs_mul, abs_of_pos (by linarith)]
    have := abs_nonneg (y - z)
    simp only [pow_zero, one_mul] at hN
    nlinarith
  | succ N ih =>
    have hyl : l ≤ y := by have := (abs_le.1 hyr).1; linarith
    obtain ⟨s, hs, hs', e⟩ := slope_of hm hmM H hx hx' hyl hy'
    obtain ⟨t, ht, ht', e'⟩ := slope_of hm hmM H (by linarith : l ≤ z) (by linarith) hyl hy'
    obtain ⟨r1, r2⟩ := ratio hm hM hs (by linarith) ht ht'
    have hs0 : 0 < s := by linarith
    have hyx : y - x ≠ 0 := sub_ne_zero.2 (Ne.symm hne)
    have hc : corr f x y = t / s * (y - z) := by
      unfold corr
      rw [show f y - f x = -(s * (y - x)) by linarith, show f y = -(t * (y - z)) by linarith]
      field_simp
    refine ends_of_next fun hgo => ?_
    have hne' : y ≠ y - corr f x y := fun e => hgo (by
      have : corr f x y = 0 := by linarith
      rw [this, abs_zero]; exact tol_pos.le)
    have hcon : |y - corr f x y - z| ≤ 3 / 4 * |y - z| := by
      rw [hc, show y - t / s * (y - z) - z = (1 - t / s) * (y - z) by ring, abs_mul]
      refine mul_le_mul_of_nonneg_right (abs_le.2 ⟨by linarith, by linarith⟩) (abs_nonneg _)
    have hlt : y - corr f x y - z < h - z := lt_of_le_of_lt ((le_abs_self _).trans hcon) (by linarith)
    refine ih hyl hy' hne' (by linarith) (by linarith [abs_nonneg (y - z)]) ?_
    rw [pow_succ] at hN
    linarith

theorem exists_pow (ρ : ℝ) : ∃ N : ℕ, ρ ≤ (4 / 3 : ℝ) ^ N * (tol / 2) := by
  have ht := tol_pos
  obtain ⟨N, hN⟩ := pow_unbounded_of_one_lt (ρ / (tol / 2)) (show (1 : ℝ) < 4 / 3 by norm_num)
  refine ⟨N, ?_⟩
  rw [div_lt_iff₀ (by linarith)] at hN
  exact hN.le

/-- Start with the zero between the iterates; the function may drop by `j` at the right end. -/
theorem ends_between (hlh : l < h) (hm : 0 < m) (hmM : m ≤ M) (hM : M ≤ 7 / 4 * m)
    (H : ∀ x y, l ≤ x → x < y → y < h → m * (y - x) ≤ f x - f y ∧ f x - f y ≤ M * (y - x)) {j : ℝ}
    (hj' : 4 * j ≤ tol * m)
    (Hh : ∀ x, l ≤ x → x < h → m * (h - x) ≤ f x - f h ∧ f x - f h ≤ M * (h - x) + j)
    (hc : ConcaveOn ℝ (Set.Icc l h) f) (fl : 0 ≤ f l) (fh : f h ≤ 0)
    (hz : (∃ z, l ≤ z ∧ z < h ∧ f z = 0) ∨ -f h ≤ j) : Ends f l h := by
  have ht := tol_pos
  have hd : 0 < h - l := by linarith
  obtain ⟨s1, hs1⟩ : ∃ s, s = (f l - f h) / (h - l) := ⟨_, rfl⟩
  have hs1m : m ≤ s1 := by rw [hs1, le_div_iff₀ hd]; exact (Hh l le_rfl hlh).1
  have hs10 : 0 < s1 := by linarith
  have e1 : f h - f l = -(s1 * (h - l)) := by rw [hs1]; field_simp; ring
  have c1 : corr f l h = -f h / s1 := by
    unfold corr; rw [e1]; field_simp
  refine ends_of_next fun hgo => ?_
  have hc0 : 0 ≤ corr f l h := by rw [c1]; exact div_nonneg (by linarith) hs10.le
  rw [abs_of_nonneg hc0, not_le] at hgo
  have hcm : corr f l h * m ≤ -f h := by
    rw [c1, div_mul_eq_mul_div, div_le_iff₀ hs10]
    exact mul_le_mul_of_nonneg_left hs1m (by linarith)
  rcases hz with ⟨z, hz1, hz2, fz⟩ | hz
  · have hlt : f h < f l := by nlinarith
    obtain ⟨b1, b2, b3⟩ := chord_between hc (Set.left_mem_Icc.2 hlh.le) (Set.right_mem_Icc.2 hlh.le) hlh fl fh hlt
      (chord hlt.ne')
    obtain ⟨u, hu⟩ : ∃ u, u = h - corr f l h := ⟨_, rfl⟩
    rw [← hu] at b1 b2 b3 ⊢
    have huh : u < h := by linarith
    have huz : u ≤ z := by
      by_contra hcon
      have := (H z u hz1 (not_le.1 hcon) huh).1
      have hp : 0 < m * (u - z) := mul_pos hm (by linarith [not_le.1 hcon])
      linarith
    have hfz := (Hh z hz1 hz2).2
    -- distance of the zero from the end
    have hg1 : tol * m < M * (h - z) + j := by
      have : tol * m < corr f l h * m := mul_lt_mul_of_pos_right hgo hm
      linarith
    have hg2 : 3 / 7 * tol < h - z := by
      have h1 : M * (h - z) ≤ 7 / 4 * m * (h - z) := mul_le_mul_of_nonneg_right hM (by linarith)
      have h2 : 0 < m * (7 / 4 * (h - z) - 3 / 4 * tol) := by nlinarith
      have := pos_of_mul_pos_right h2 hm.le
      linarith
    have hρ : (z - u) * m < 4 / 3 * (h - z) * m := by
      have h1 : (z - u) * m = corr f l h * m - (h - z) * m := by rw [hu]; ring
      have h2 : M * (h - z) ≤ 7 / 4 * m * (h - z) := mul_le_mul_of_nonneg_right hM (by linarith)
      have h3 : tol * m < 7 / 3 * (h - z) * m := mul_lt_mul_of_pos_right (by linarith) hm
      linarith
    have hρ' : z - u < 4 / 3 * (h - z) := lt_of_mul_lt_mul_right hρ hm.le
    -- second step
    have hs2 := Hh u b1 huh
    obtain ⟨s2, hs2e⟩ : ∃ s, s = (f u - f h) / (h - u) := ⟨_, rfl⟩
    have hhu : 0 < h - u := by linarith
    have hs2m : m ≤ s2 := by rw [hs2e, le_div_iff₀ hhu]; exact hs2.1
    have hs2M : s2 ≤ 2 * m := by
      rw [hs2e, div_le_iff₀ hhu]
      have h1 : M * (h - u) ≤ 7 / 4 * m * (h - u) := mul_le_mul_of_nonneg_right hM hhu.le
      have h2 : tol * m ≤ (h - u) * m := mul_le_mul_of_nonneg_right (by linarith) hm.le
      linarith [hs2.2]
    have hs20 : 0 < s2 := by linarith
    have e2 : f u - f h = s2 * (h - u) := by rw [hs2e]; field_simp
    obtain ⟨t, ht1, ht2, e3⟩ := slope_of hm hmM H b1 huh hz1 hz2
    obtain ⟨r1, r2⟩ := ratio hm hM hs2m hs2M ht1 ht2
    have c2 : corr f h u = -(t / s2 * (z - u)) := by
      unfold corr
      rw [e2, show f u = t * (z - u) by linarith]
      field_simp
      ring
    refine ends_of_next fun hgo2 => ?_
    have hne : u ≠ u - corr f h u := fun e => hgo2 (by
      have : corr f h u = 0 := by linarith
      rw [this, abs_zero]; exact tol_pos.le)
    have hz0 : 0 ≤ z - u := by linarith
    have hcon : |u - corr f h u - z| ≤ 3 / 4 * (z - u) := by
      rw [c2, show u - -(t / s2 * (z - u)) - z = (t / s2 - 1) * (z - u) by ring, abs_mul, abs_of_nonneg hz0]
      exact mul_le_mul_of_nonneg_right (abs_le.2 ⟨by linarith, by linarith⟩) hz0
    obtain ⟨N, hN⟩ := exists_pow (z - u)
    have hlt2 : u - corr f h u - z < h - z := lt_of_le_of_lt ((le_abs_self _).trans hcon) (by linarith)
    exact ends_contract hm hmM hM H (z := z) (ρ := z - u) (by linarith) hz0 (by linarith) fz N b1 huh hne
      (by linarith) (by linarith) (by linarith)
  · exfalso
    have : tol * m < corr f l h * m := mul_lt_mul_of_pos_right hgo hm
    nlinarith

end contract

/-! ## Numbers -/

theorem range_cold {p : ℝ} (hp : 30000 ≤ p) : Range .ice p 1 T0 where
  low := by norm_num [Over.c, T0]
  high := by norm_num [Over.c, Over.b, T0]
  boil := by rw [E_T0]; norm_num [Over.a]; linarith

theorem range_frost {p : ℝ} (hp : 30000 ≤ p) : Range .ice p (T0 - 10) T0 where
  low := by norm_num [Over.c, T0]
  high := by norm_num [Over.c, Over.b, T0]
  boil := by rw [E_T0]; norm_num [Over.a]; linarith

theorem range_warm {p : ℝ} (hp : 30000 ≤ p) : Range .water p T0 (T0 + 90) where
  low := by norm_num [Over.c, T0]
  high := by norm_num [Over.c, Over.b, T0]
  boil := by
    have h1 : Real.exp 5 < 149 := by
      have : Real.exp 5 = Real.exp 1 ^ 5 := by rw [← Real.exp_nat_mul]; norm_num
      rw [this]
      have h := Real.exp_one_lt_d9
      calc Real.exp 1 ^ 5 < 2.7182818286 ^ 5 := pow_lt_pow_left₀ h (Real.exp_pos 1).le (by norm_num)
        _ < 149 := by norm_num
    have h2 : Real.exp (Over.water.b * (T0 + 90 - T0) / (Over.water.c + (T0 + 90 - T0))) < 125 := by
      have e : Over.water.b * (T0 + 90 - T0) / (Over.water.c + (T0 + 90 - T0)) = 5 - 8370 / 32418 := by
        norm_num [Over.b, Over.c, T0]
      rw [e, Real.exp_sub, div_lt_iff₀ (Real.exp_pos _)]
      have := Real.add_one_le_exp (8370 / 32418 : ℝ)
      linarith
    have : E .water (T0 + 90) < 610.78 * 125 := by
      unfold E
      rw [show Over.water.a = 610.78 by norm_num [Over.a]]
      exact mul_lt_mul_of_pos_left h2 (by norm_num)
    linarith

/-- Vapor pressure over ice at -10 °C. -/
theorem E_frost : 42 / 100 * 610.71 ≤ E .ice (T0 - 10) := by
  have h : (42 / 100 : ℝ) ≤ Real.exp (Over.ice.b * (T0 - 10 - T0) / (Over.ice.c + (T0 - 10 - T0))) := by
    have e : Over.ice.b * (T0 - 10 - T0) / (Over.ice.c + (T0 - 10 - T0)) = 3804 / 26244 - 1 := by
      norm_num [Over.b, Over.c, T0]
    rw [e, Real.exp_sub, le_div_iff₀ (Real.exp_pos _)]
    have := Real.add_one_le_exp (3804 / 26244 : ℝ)
    have := Real.exp_one_lt_d9
    linarith
  unfold E
  rw [show Over.ice.a = 610.71 by norm_num [Over.a]]
  linarith

theorem dQ_ice_T0 {p : ℝ} (hp : 30000 ≤ p) : dQ .ice p T0 ≤ 31.8 / p := by
  have hp0 : 0 < p := by linarith
  unfold dQ dE
  rw [E_T0, ← div_eq_mul_inv, div_le_div_iff₀ (by norm_num [Over.a]; apply pow_pos; linarith) hp0]
  norm_num [Over.a, Over.b, Over.c]
  nlinarith

theorem dQ_ice_frost {p : ℝ} (hp : 30000 ≤ p) : 14.1 / p ≤ dQ .ice p (T0 - 10) := by
  have hp0 : 0 < p := by linarith
  have hE := E_frost
  have hb := below (range_frost hp) (Set.left_mem_Icc.2 (by linarith : T0 - 10 ≤ T0))
  have hd : 22.7 ≤ dE .ice (T0 - 10) := by
    unfold dE
    have : (0.0887 : ℝ) ≤ Over.ice.b * Over.ice.c / (Over.ice.c + (T0 - 10 - T0)) ^ 2 := by
      norm_num [Over.b, Over.c, T0]
    nlinarith
  unfold dQ
  rw [← div_eq_mul_inv, div_le_div_iff₀ hp0 (by positivity)]
  have h1 : (p - 378 / 1000 * E .ice (T0 - 10)) ^ 2 ≤ p ^ 2 := pow_le_pow_left₀ hb.le (by linarith) 2
  have h2 : 22.7 * (p * p) ≤ dE .ice (T0 - 10) * (p * p) := mul_le_mul_of_nonneg_right hd (by positivity)
  nlinarith

theorem dQ_water_T0 {p : ℝ} (hp : 30000 ≤ p) : 27.7 / p ≤ dQ .water p T0 := by
  have hp0 : 0 < p := by linarith
  unfold dQ dE
  rw [E_T0, ← div_eq_mul_inv, div_le_div_iff₀ hp0 (by norm_num [Over.a]; apply pow_pos; linarith)]
  norm_num [Over.a, Over.b, Over.c]
  nlinarith

theorem Q_water_T0 {p : ℝ} (hp : 30000 ≤ p) : Q .water p T0 ≤ 383 / p := by
  have hp0 : 0 < p := by linarith
  unfold Q
  rw [E_T0, div_le_div_iff₀ (by norm_num [Over.a]; linarith) hp0]
  norm_num [Over.a]
  nlinarith

theorem Q_ice_frost {p : ℝ} (hp : 30000 ≤ p) : 159.5 / p ≤ Q .ice p (T0 - 10) := by
  have hp0 : 0 < p := by linarith
  have hE := E_frost
  have hb := below (range_frost hp) (Set.left_mem_Icc.2 (by linarith : T0 - 10 ≤ T0))
  unfold Q
  rw [div_le_div_iff₀ hp0 hb]
  nlinarith

/-- The jump of saturation humidity at the melting point. -/
theorem jump {p : ℝ} (hp : 30000 ≤ p) : Q .ice p T0 ≤ Q .water p T0 ∧ Q .water p T0 - Q .ice p T0 ≤ 0.05 / p := by
  have hp0 : 0 < p := by linarith
  have h1 : 0 < p - 378 / 1000 * Over.water.a := by norm_num [Over.a]; linarith
  have h2 : 0 < p - 378 / 1000 * Over.ice.a := by norm_num [Over.a]; linarith
  unfold Q
  rw [E_T0, E_T0]
  constructor
  · rw [div_le_div_iff₀ h2 h1]
    norm_num [Over.a]
    nlinarith
  · rw [div_sub_div _ _ h1.ne' h2.ne', div_le_div_iff₀ (mul_pos h1 h2) hp0]
    norm_num [Over.a]
    nlinarith

/-! ## The iteration of a pixel -/

/-- Balances of the form that occurs in the program: linear terms, emitted radiation, latent heat. -/
structure Form (f : ℝ → ℝ) (q : ℝ → ℝ) (A B R W : ℝ) : Prop where
  eq : ∀ t, f t = A - B * t - R * t ^ 4 - W * q t

/-- Saturation humidity of the program on the temperatures in question. -/
structure Humid (q : ℝ → ℝ) (p : ℝ) : Prop where
  press : 30000 ≤ p
  ice : ∀ t, 1 ≤ t → t < T0 → q t = Q .ice p t
  water : ∀ t, T0 ≤ t → t ≤ T0 + 90 → q t = Q .water p t

section pixel
variable {f q : ℝ → ℝ} {A B R W p : ℝ}

theorem q_convex_cold (h : Humid q p) : ConvexOn ℝ (Set.Icc 1 T0) q := by
  refine convex_raise (Q_convex (range_cold h.press)) (fun t ht => h.ice t ht.1 ht.2) ?_
  rw [h.water T0 le_rfl (by linarith)]
  exact (jump h.press).1

theorem q_mono_cold (h : Humid q p) : MonotoneOn q (Set.Icc 1 T0) := by
  intro x hx y hy hxy
  rcases hxy.eq_or_lt with rfl | hlt
  · exact le_rfl
  have hr := range_cold h.press
  have hxT : x < T0 := lt_of_lt_of_le hlt hy.2
  have hs := (Q_slope hr hx hy hxy).1
  have hd := dQ_pos hr (Set.left_mem_Icc.2 (hx.1.trans hx.2))
  have hle : Q .ice p x ≤ Q .ice p y := by
    have := mul_nonneg hd.le (sub_nonneg.2 hxy); linarith
  rw [h.ice x hx.1 hxT]
  rcases hy.2.eq_or_lt with rfl | hyT
  · rw [h.water T0 le_rfl (by linarith)]
    exact hle.trans (jump h.press).1
  · rw [h.ice y hy.1 hyT]; exact hle

theorem q_convex_warm (h : Humid q p) : ConvexOn ℝ (Set.Icc T0 (T0 + 90)) q :=
  (Q_convex (range_warm h.press)).congr fun t ht => (h.water t ht.1 ht.2).symm

theorem q_slope_warm (h : Humid q p) {x y : ℝ} (hx : x ∈ Set.Icc T0 (T0 + 90)) (hy : y ∈ Set.Icc T0 (T0 + 90))
    (hxy : x ≤ y) : 27.7 / p * (y - x) ≤ q y - q x := by
  rw [h.water x hx.1 hx.2, h.water y hy.1 hy.2]
  refine le_trans ?_ (Q_slope (range_warm h.press) hx hy hxy).1
  exact mul_le_mul_of_nonneg_right (dQ_water_T0 h.press) (by linarith)

theorem f_concave (hf : Form f q A B R W) (hR : 0 ≤ R) (hW : 0 ≤ W) {a b : ℝ} (ha : 0 ≤ a)
    (hq : ConvexOn ℝ (Set.Icc a b) q) : ConcaveOn ℝ (Set.Icc a b) f := by
  have he : f = fun t => (A - B * t) - (R * t ^ 4 + W * q t) := by
    funext t; rw [hf.eq]; ring
  rw [he]
  have hlin : ConcaveOn ℝ (Set.Icc a b) fun t : ℝ => A - B * t := by
    refine ⟨convex_Icc a b, fun x _ y _ s r _ _ hsr => ?_⟩
    simp only [smul_eq_mul]
    have : s = 1 - r := by linarith
    subst this
    exact le_of_eq (by ring)
  have hpow : ConvexOn ℝ (Set.Icc a b) fun t : ℝ => t ^ 4 :=
    (convexOn_pow 4).subset (fun t ht => Set.mem_Ici.2 (ha.trans ht.1)) (convex_Icc a b)
  exact hlin.sub ((hpow.smul hR).add (hq.smul hW))

theorem pow4 {x y : ℝ} (hx : 0 ≤ x) (hxy : x ≤ y) : 4 * x ^ 3 * (y - x) ≤ y ^ 4 - x ^ 4 ∧
    y ^ 4 - x ^ 4 ≤ 4 * y ^ 3 * (y - x) := by
  have e : y ^ 4 - x ^ 4 = (y - x) * (y ^ 3 + y ^ 2 * x + y * x ^ 2 + x ^ 3) := by ring
  have h0 : 0 ≤ y - x := by linarith
  have h1 : x ^ 3 ≤ y ^ 3 := pow_le_pow_left₀ hx hxy 3
  have h2 : x ^ 2 ≤ y ^ 2 := pow_le_pow_left₀ hx hxy 2
  have h3 : x ^ 3 ≤ y ^ 2 * x := by nlinarith
  have h4 : x ^ 3 ≤ y * x ^ 2 := by nlinarith [sq_nonneg x]
  have h5 : y ^ 2 * x ≤ y ^ 3 := by nlinarith [sq_nonneg y]
  have h6 : y * x ^ 2 ≤ y ^ 3 := by nlinarith
  rw [e]
  constructor <;> nlinarith

theorem hdiff (hf : Form f q A B R W) (x y : ℝ) :
    f x - f y = B * (y - x) + R * (y ^ 4 - x ^ 4) + W * (q y - q x) := by
  rw [hf.eq, hf.eq]; ring

theorem f_anti (hf : Form f q A B R W) (hR : 0 < R) (hB : 0 ≤ B) (hW : 0 ≤ W) {a b : ℝ} (ha : 0 ≤ a)
    (hm : MonotoneOn q (Set.Icc a b)) : StrictAntiOn f (Set.Icc a b) := by
  intro x hx y hy hxy
  have h1 := hm hx hy hxy.le
  have h2 : x ^ 4 < y ^ 4 := pow_lt_pow_left₀ hxy (ha.trans hx.1) (by norm_num)
  have h3 := hdiff hf x y
  have h4 : 0 < R * (y ^ 4 - x ^ 4) := mul_pos hR (by linarith)
  have h5 : 0 ≤ B * (y - x) := mul_nonneg hB (by linarith)
  have h6 : 0 ≤ W * (q y - q x) := mul_nonneg hW (by linarith)
  linarith

theorem f_cold (hf : Form f q A B R W) (hq : Humid q p) (hR : 0 < R) (hB : 0 ≤ B) (hW : 0 ≤ W) :
    ConcaveOn ℝ (Set.Icc 1 T0) f ∧ StrictAntiOn f (Set.Icc 1 T0) :=
  ⟨f_concave hf hR.le hW (by norm_num) (q_convex_cold hq), f_anti hf hR hB hW (by norm_num) (q_mono_cold hq)⟩

/-- Zero between the first two iterates. -/
theorem ends_mid (hf : Form f q A B R W) (hq : Humid q p) (hR : 0 < R) (hB : 0 ≤ B) (hW : 0 ≤ W)
    (hWB : 7.125 * W / p ≤ 3 / 4 * B) (h0 : 0 < f (T0 - 10)) (h1 : f T0 ≤ 0) : Ends f (T0 - 10) T0 := by
  have hp := hq.press
  have hp0 : 0 < p := by linarith
  have hT : T0 = 273.15 := by norm_num [T0]
  have hdiff := hdiff hf
  obtain ⟨hcold, hac⟩ := f_cold hf hq hR hB hW
  obtain ⟨j1, j2⟩ := jump hp
  have hqT : q T0 = Q .water p T0 := hq.water T0 le_rfl (by linarith)
  have hrf := range_frost hp
  have hqi : ∀ t, T0 - 10 ≤ t → t < T0 → q t = Q .ice p t := fun t h h' => hq.ice t (by rw [hT] at h; linarith) h'
  obtain ⟨m, hmdef⟩ : ∃ m, m = B + R * (4 * (T0 - 10) ^ 3) + W * (14.1 / p) := ⟨_, rfl⟩
  obtain ⟨M, hMdef⟩ : ∃ M, M = B + R * (4 * T0 ^ 3) + W * (31.8 / p) := ⟨_, rfl⟩
  have hw0 : 0 ≤ W / p := div_nonneg hW hp0.le
  have hw1 : W * (14.1 / p) = 14.1 * (W / p) := by ring
  have hw2 : W * (31.8 / p) = 31.8 * (W / p) := by ring
  have hw3 : 7.125 * (W / p) ≤ 3 / 4 * B := by rw [← mul_div_assoc]; exact hWB
  rw [hw1] at hmdef
  rw [hw2] at hMdef
  have hm0 : 0 < m := by
    rw [hmdef]
    have : 0 < R * (4 * (T0 - 10) ^ 3) := mul_pos hR (by rw [hT]; norm_num)
    linarith
  have hT3 : 4 * (T0 - 10) ^ 3 ≤ 4 * T0 ^ 3 := by rw [hT]; norm_num
  have hT3' : 4 * T0 ^ 3 ≤ 7 / 4 * (4 * (T0 - 10) ^ 3) := by rw [hT]; norm_num
  have hmM : m ≤ M := by
    rw [hmdef, hMdef]
    have := mul_le_mul_of_nonneg_left hT3 hR.le
    linarith
  have hM : M ≤ 7 / 4 * m := by
    rw [hmdef, hMdef]
    have := mul_le_mul_of_nonneg_left hT3' hR.le
    linarith
  have hsl : ∀ x y, T0 - 10 ≤ x → x < y → y ≤ T0 →
      m * (y - x) ≤ B * (y - x) + R * (y ^ 4 - x ^ 4) + W * (Q .ice p y - Q .ice p x) ∧
      B * (y - x) + R * (y ^ 4 - x ^ 4) + W * (Q .ice p y - Q .ice p x) ≤ M * (y - x) := by
    intro x y hx hxy hy
    have hx0 : 0 ≤ T0 - 10 := by rw [hT]; norm_num
    obtain ⟨a1, a2⟩ := pow4 (hx0.trans hx) hxy.le
    have hd : 0 ≤ y - x := by linarith
    obtain ⟨b1, b2⟩ := Q_slope hrf ⟨hx, hxy.le.trans hy⟩ ⟨hx.trans hxy.le, hy⟩ hxy.le
    have c1 : 14.1 / p * (y - x) ≤ Q .ice p y - Q .ice p x :=
      le_trans (mul_le_mul_of_nonneg_right (dQ_ice_frost hp) hd) b1
    have c2 : Q .ice p y - Q .ice p x ≤ 31.8 / p * (y - x) :=
      le_trans b2 (mul_le_mul_of_nonneg_right (dQ_ice_T0 hp) hd)
    have d1 : 4 * (T0 - 10) ^ 3 * (y - x) ≤ y ^ 4 - x ^ 4 := by
      refine le_trans ?_ a1
      have := pow_le_pow_left₀ hx0 hx 3
      exact mul_le_mul_of_nonneg_right (by linarith) hd
    have d2 : y ^ 4 - x ^ 4 ≤ 4 * T0 ^ 3 * (y - x) := by
      refine le_trans a2 ?_
      have := pow_le_pow_left₀ (by linarith : 0 ≤ y) hy 3
      exact mul_le_mul_of_nonneg_right (by linarith) hd
    have e1 := mul_le_mul_of_nonneg_left c1 hW
    have e2 := mul_le_mul_of_nonneg_left c2 hW
    have f1 := mul_le_mul_of_nonneg_left d1 hR.le
    have f2 := mul_le_mul_of_nonneg_left d2 hR.le
    have g1 : W * (14.1 / p * (y - x)) = 14.1 * (W / p) * (y - x) := by ring
    have g2 : W * (31.8 / p * (y - x)) = 31.8 * (W / p) * (y - x) := by ring
    rw [g1] at e1
    rw [g2] at e2
    rw [hmdef, hMdef]
    constructor <;> linarith
  have hjW : W * (q T0 - Q .ice p T0) ≤ 0.05 * (W / p) := by
    rw [hqT]
    refine (mul_le_mul_of_nonneg_left j2 hW).trans (le_of_eq (by ring))
  have hjW0 : 0 ≤ W * (q T0 - Q .ice p T0) := by rw [hqT]; exact mul_nonneg hW (by linarith)
  -- the balance with the formula for ice up to the melting point
  obtain ⟨g, hg⟩ : ∃ g : ℝ → ℝ, g = fun t => A - B * t - R * t ^ 4 - W * Q .ice p t := ⟨_, rfl⟩
  have hgf : ∀ t, T0 - 10 ≤ t → t < T0 → f t = g t := by
    intro t h h'; rw [hf.eq, hg, hqi t h h']
  have hgT : g T0 = f T0 + W * (q T0 - Q .ice p T0) := by rw [hf.eq, hg]; ring
  have hgc : ContinuousOn g (Set.Icc (T0 - 10) T0) := by
    rw [hg]
    exact (by fun_prop : Continuous fun t : ℝ => A - B * t - R * t ^ 4).continuousOn.sub
      (continuousOn_const.mul (Q_continuous hrf))
  refine ends_between (m := m) (M := M) (j := 0.05 * (W / p)) (by linarith) hm0 hmM hM ?_ ?_ ?_
    (hcold.subset (Set.Icc_subset_Icc_left (by rw [hT]; norm_num)) (convex_Icc _ _)) h0.le h1 ?_
  · intro x y hx hxy hy
    have := hsl x y hx hxy hy.le
    rw [hdiff, hqi x hx (hxy.trans hy), hqi y (hx.trans hxy.le) hy]
    exact this
  · rw [hmdef]
    have : 0 ≤ R * (4 * (T0 - 10) ^ 3) := mul_nonneg hR.le (by rw [hT]; norm_num)
    unfold tol
    linarith
  · intro x hx hxT
    obtain ⟨s1, s2⟩ := hsl x T0 hx hxT le_rfl
    have e : f x - f T0 = B * (T0 - x) + R * (T0 ^ 4 - x ^ 4) + W * (Q .ice p T0 - Q .ice p x) +
        W * (q T0 - Q .ice p T0) := by
      rw [hdiff, hqi x hx hxT]; ring
    rw [e]
    constructor <;> linarith
  · rcases le_or_gt 0 (g T0) with hgp | hgn
    · right; rw [hgT] at hgp; linarith
    · left
      have hg0 : 0 ≤ g (T0 - 10) := by rw [← hgf _ le_rfl (by linarith)]; exact h0.le
      obtain ⟨z, hz, hgz⟩ := intermediate_value_Icc' (by linarith : T0 - 10 ≤ T0) hgc ⟨hgn.le, hg0⟩
      have hzT : z < T0 := lt_of_le_of_ne hz.2 fun e => by rw [e] at hgz; linarith
      exact ⟨z, hz.1, hzT, by rw [hgf z hz.1 hzT, hgz]⟩
/-- Surplus at the melting point: all further iterates lie above it. -/
theorem ends_warm (hf : Form f q A B R W) (hq : Humid q p) (hR : 0 < R) (hB : 0 ≤ B) (hW : 0 ≤ W)
    (hhigh : f T0 ≤ 9 * (f (T0 - 10) - f T0)) (h1 : 0 < f T0) : Ends f (T0 - 10) T0 := by
  have hp := hq.press
  have hp0 : 0 < p := by linarith
  have hT : T0 = 273.15 := by norm_num [T0]
  have hdiff := hdiff hf
  obtain ⟨hcold, hac⟩ := f_cold hf hq hR hB hW
  refine ends_of_next fun hgo => ?_
  have hTm : T0 - 10 ∈ Set.Icc 1 T0 := ⟨by rw [hT]; norm_num, by linarith⟩
  have hl := hac hTm (Set.right_mem_Icc.2 (by rw [hT]; norm_num)) (by linarith : T0 - 10 < T0)
  have hch := chord hl.ne'
  obtain ⟨r, hr⟩ : ∃ r, r = T0 - corr f (T0 - 10) T0 := ⟨_, rfl⟩
  rw [← hr] at hch ⊢
  have hD : 0 < f (T0 - 10) - f T0 := by linarith
  have hre : (f (T0 - 10) - f T0) * (r - T0) = 10 * f T0 := by linarith
  have hr1 : T0 < r := by
    have : 0 < (f (T0 - 10) - f T0) * (r - T0) := by rw [hre]; linarith
    have := pos_of_mul_pos_right this hD.le; linarith
  have hr2 : r ≤ T0 + 90 := by
    have : 0 ≤ (f (T0 - 10) - f T0) * (T0 + 90 - r) := by linarith
    have := nonneg_of_mul_nonneg_right this hD; linarith
  -- slope of the chord and slopes above the melting point
  have hcw := q_convex_warm hq
  have hslope : ∀ x y, T0 ≤ x → x < y → y ≤ T0 + 90 → (f (T0 - 10) - f T0) / 10 * (y - x) ≤ f x - f y := by
    intro x y hx hxy hy
    have hqs := q_slope_warm hq ⟨hx, by linarith⟩ ⟨by linarith, hy⟩ hxy.le
    have hd : 0 ≤ y - x := by linarith
    obtain ⟨a1, -⟩ := pow4 (by rw [hT] at hx; linarith : 0 ≤ x) hxy.le
    obtain ⟨-, b2⟩ := pow4 (by rw [hT]; norm_num : 0 ≤ T0 - 10) (by linarith : T0 - 10 ≤ T0)
    have hx3 := pow_le_pow_left₀ (by rw [hT]; norm_num : 0 ≤ T0) hx 3
    have c1 : 4 * T0 ^ 3 * (y - x) ≤ y ^ 4 - x ^ 4 := le_trans (mul_le_mul_of_nonneg_right (by linarith) hd) a1
    have hq1 : q T0 ≤ 383 / p := by rw [hq.water T0 le_rfl (by linarith)]; exact Q_water_T0 hp
    have hq2 : 159.5 / p ≤ q (T0 - 10) := by
      rw [hq.ice _ hTm.1 (by linarith)]; exact Q_ice_frost hp
    have e10 : T0 - (T0 - 10) = 10 := by ring
    have hch1 : f (T0 - 10) - f T0 ≤ B * 10 + R * (4 * T0 ^ 3 * 10) + W * (383 / p - 159.5 / p) := by
      rw [hdiff, e10]
      rw [e10] at b2
      have := mul_le_mul_of_nonneg_left b2 hR.le
      have := mul_le_mul_of_nonneg_left (by linarith : q T0 - q (T0 - 10) ≤ 383 / p - 159.5 / p) hW
      linarith
    have hch2 : (f (T0 - 10) - f T0) / 10 ≤ B + R * (4 * T0 ^ 3) + W * (27.7 / p) := by
      have hw0 : 0 ≤ W / p := div_nonneg hW hp0.le
      have e1 : W * (383 / p - 159.5 / p) = 223.5 * (W / p) := by ring
      have e2 : W * (27.7 / p) = 27.7 * (W / p) := by ring
      rw [e1] at hch1
      rw [e2]
      linarith
    have h1 := mul_le_mul_of_nonneg_right hch2 hd
    have h2 := mul_le_mul_of_nonneg_left c1 hR.le
    have h3 := mul_le_mul_of_nonneg_left hqs hW
    rw [hdiff x y]
    linarith
  have hwarm : ConcaveOn ℝ (Set.Icc T0 (T0 + 90)) f := f_concave hf hR.le hW (by rw [hT]; norm_num) hcw
  have haw : StrictAntiOn f (Set.Icc T0 (T0 + 90)) := by
    intro x hx y hy hxy
    have := hslope x y hx.1 hxy hy.2
    have : 0 < (f (T0 - 10) - f T0) / 10 * (y - x) := mul_pos (by linarith) (by linarith)
    linarith
  have hrf : f r ≤ 0 := by
    have := hslope T0 r le_rfl hr1 hr2
    linarith
  have hclosed : RightClosed f (Set.Icc T0 (T0 + 90)) := by
    intro x hx y hy u hxy hfy hlt he
    have hu := le_chord_right hxy hfy hlt he
    refine ⟨hy.1.trans hu, le_trans ?_ hr2⟩
    -- the zero of the chord lies left of `r`
    have s1 := hslope x y hx.1 hxy hy.2
    have s2 : (f (T0 - 10) - f T0) / 10 * (y - T0) ≤ f T0 - f y := by
      rcases hy.1.eq_or_lt with e | e
      · rw [← e]; simp
      · exact hslope T0 y le_rfl e hy.2
    have e1 : (f x - f y) * (u - y) = f y * (y - x) := by linarith
    obtain ⟨d, hd⟩ : ∃ d, d = (f (T0 - 10) - f T0) / 10 := ⟨_, rfl⟩
    have hd0 : 0 < d := by rw [hd]; linarith
    rw [← hd] at s1 s2
    have hre' : d * (r - T0) = f T0 := by rw [hd]; linarith
    have h1 : d * (y - x) * (u - y) ≤ f y * (y - x) := by
      rw [← e1]; exact mul_le_mul_of_nonneg_right s1 (by linarith)
    have h2 : d * (u - y) ≤ f y := by
      have : (y - x) * (d * (u - y)) ≤ (y - x) * f y := by linarith
      exact le_of_mul_le_mul_left this (by linarith)
    have h3 : d * (u - T0) ≤ d * (r - T0) := by linarith
    have := le_of_mul_le_mul_left h3 hd0
    linarith
  exact ends_B hwarm haw hclosed ⟨le_rfl, by linarith⟩ ⟨hr1.le, hr2⟩ hr1 h1.le hrf

/-- The iteration of a pixel ends. -/
theorem ends_pixel (hf : Form f q A B R W) (hq : Humid q p) (hR : 0 < R) (hB : 0 ≤ B) (hW : 0 ≤ W)
    (hWB : 7.125 * W / p ≤ 3 / 4 * B) (hlow : 0 ≤ f 1) (hhigh : f T0 ≤ 9 * (f (T0 - 10) - f T0)) :
    Ends f (T0 - 10) T0 := by
  have hT : T0 = 273.15 := by norm_num [T0]
  obtain ⟨hcold, hac⟩ := f_cold hf hq hR hB hW
  rcases le_or_gt (f (T0 - 10)) 0 with h0 | h0
  · -- both right of the zero
    exact ends_right hcold hac (a := 1) (Set.left_mem_Icc.2 (by rw [hT]; norm_num)) hlow (by rw [hT]; norm_num)
      (Set.right_mem_Icc.2 (by rw [hT]; norm_num)) (by linarith) h0
  rcases le_or_gt (f T0) 0 with h1 | h1
  · exact ends_mid hf hq hR hB hW hWB h0 h1
  · exact ends_warm hf hq hR hB hW hhigh h1

end pixel

end Verif.SurfaceTemp
