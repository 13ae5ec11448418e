import Verif.Props.Atmosphere
import Mathlib.Analysis.Calculus.MeanValue
import Mathlib.Analysis.SpecialFunctions.ExpDeriv
import Mathlib.Analysis.Complex.ExponentialBounds

/-!
# Slope of the saturation vapor pressure and the secant iteration of the wet-bulb temperature

Temperatures in degrees Celsius. The saturation vapor pressure jumps by 0.07 Pa and has a kink at 0.
-/

namespace Verif.WetBulb

open Verif.Atmosphere

/-- Saturation vapor pressure over a surface. -/
noncomputable def val (o : Over) (t : ℝ) : ℝ := o.a * Real.exp (o.b * t / (o.c + t))

/-- Its derivative. -/
noncomputable def dv (o : Over) (t : ℝ) : ℝ := o.a * (Real.exp (o.b * t / (o.c + t)) * (o.b * o.c / (o.c + t) ^ 2))

theorem val_deriv (o : Over) (t : ℝ) (h : 0 < o.c + t) : HasDerivAt (val o) (dv o t) t := by
  have h1 : HasDerivAt (fun t : ℝ => o.b * t / (o.c + t)) (o.b * o.c / (o.c + t) ^ 2) t := by
    have := ((hasDerivAt_id t).const_mul o.b).div ((hasDerivAt_id t).const_add o.c) h.ne'
    refine this.congr_deriv ?_
    simp only [id]
    congr 1
    ring
  exact (h1.exp).const_mul o.a

theorem coef_pos (o : Over) : 0 < o.a ∧ 0 < o.b ∧ 0 < o.c := by
  cases o <;> norm_num [Over.a, Over.b, Over.c]

theorem dv_pos (o : Over) {t : ℝ} (h : 0 < o.c + t) : 0 < dv o t := by
  obtain ⟨h1, h2, h3⟩ := coef_pos o
  unfold dv
  positivity

theorem dv_ratio (o : Over) {u v : ℝ} (hu : 0 < o.c + u) (hv : 0 < o.c + v) :
    dv o v = dv o u * (((o.c + u) / (o.c + v)) ^ 2 *
      Real.exp (o.b * o.c * (v - u) / ((o.c + u) * (o.c + v)))) := by
  have e : o.b * v / (o.c + v) = o.b * u / (o.c + u) + o.b * o.c * (v - u) / ((o.c + u) * (o.c + v)) := by
    field_simp
    ring
  unfold dv
  rw [e, Real.exp_add]
  field_simp

theorem dv_mono (o : Over) {u v : ℝ} (hu : 0 < o.c + u) (huv : u ≤ v) (h : 2 * (o.c + v) ≤ o.b * o.c) :
    dv o u ≤ dv o v := by
  have hv : 0 < o.c + v := by linarith
  rw [dv_ratio o hu hv]
  refine le_mul_of_one_le_right (dv_pos o hu).le ?_
  have h1 : (o.c + v) / (o.c + u) ≤ Real.exp ((v - u) / (o.c + u)) := by
    have := Real.add_one_le_exp ((v - u) / (o.c + u))
    refine le_trans (le_of_eq ?_) this
    field_simp
    ring
  have h2 : ((o.c + v) / (o.c + u)) ^ 2 ≤ Real.exp (o.b * o.c * (v - u) / ((o.c + u) * (o.c + v))) := by
    calc ((o.c + v) / (o.c + u)) ^ 2 ≤ (Real.exp ((v - u) / (o.c + u))) ^ 2 := by gcongr
      _ = Real.exp (2 * ((v - u) / (o.c + u))) := by rw [← Real.exp_nat_mul]; norm_num
      _ ≤ _ := by
        rw [Real.exp_le_exp, ← mul_div_assoc, div_le_div_iff₀ hu (by positivity)]
        have : 0 ≤ (v - u) * (o.c + u) := mul_nonneg (by linarith) hu.le
        nlinarith
  have h3 : ((o.c + u) / (o.c + v)) ^ 2 * ((o.c + v) / (o.c + u)) ^ 2 = 1 := by
    field_simp
  calc (1 : ℝ) = ((o.c + u) / (o.c + v)) ^ 2 * ((o.c + v) / (o.c + u)) ^ 2 := h3.symm
    _ ≤ _ := by gcongr

theorem dv_growth (o : Over) {u v : ℝ} (hu : 0 < o.c + u) (huv : u ≤ v) :
    dv o v ≤ dv o u * Real.exp ((o.b * o.c / (o.c + u) - 2) * ((v - u) / (o.c + v))) := by
  have hv : 0 < o.c + v := by linarith
  rw [dv_ratio o hu hv]
  refine mul_le_mul_of_nonneg_left ?_ (dv_pos o hu).le
  have h1 : (o.c + u) / (o.c + v) ≤ Real.exp (-((v - u) / (o.c + v))) := by
    have := Real.add_one_le_exp (-((v - u) / (o.c + v)))
    refine le_trans (le_of_eq ?_) this
    field_simp
    ring
  have h2 : ((o.c + u) / (o.c + v)) ^ 2 ≤ Real.exp (-2 * ((v - u) / (o.c + v))) := by
    calc ((o.c + u) / (o.c + v)) ^ 2 ≤ (Real.exp (-((v - u) / (o.c + v)))) ^ 2 := by gcongr
      _ = Real.exp (-2 * ((v - u) / (o.c + v))) := by
        rw [← Real.exp_nat_mul]; congr 1; push_cast; ring
  calc _ ≤ Real.exp (-2 * ((v - u) / (o.c + v))) *
        Real.exp (o.b * o.c * (v - u) / ((o.c + u) * (o.c + v))) := by gcongr
    _ = _ := by
      rw [← Real.exp_add]
      congr 1
      field_simp
      ring

/-- Upper bounds of the exponential function. -/
theorem exp_le_pow (x : ℝ) (n : ℕ) (hn : 0 < n) (hx : x < n) : Real.exp x ≤ (1 / (1 - x / n)) ^ n := by
  have hn' : (0 : ℝ) < n := by exact_mod_cast hn
  have h0 : 0 < 1 - x / n := by
    rw [sub_pos, div_lt_one hn']; exact hx
  have h1 : 1 - x / n ≤ Real.exp (-(x / n)) := by
    have := Real.add_one_le_exp (-(x / n)); linarith
  have h2 : Real.exp (x / n) ≤ 1 / (1 - x / n) := by
    rw [le_div_iff₀ h0]
    calc Real.exp (x / n) * (1 - x / n) ≤ Real.exp (x / n) * Real.exp (-(x / n)) := by gcongr
      _ = 1 := by rw [← Real.exp_add]; simp
  calc Real.exp x = Real.exp (x / n) ^ n := by rw [← Real.exp_nat_mul]; congr 1; field_simp
    _ ≤ _ := by gcongr

/-- Continuous part of the saturation vapor pressure: the jump at 0 is removed. -/
noncomputable def cont (t : ℝ) : ℝ := if 0 ≤ t then val .water t else val .ice t + 7 / 100

/-- Its right derivative. -/
noncomputable def k (t : ℝ) : ℝ := if 0 ≤ t then dv .water t else dv .ice t

theorem cpos {o : Over} {t : ℝ} (h : -200 ≤ t) : 0 < o.c + t := by
  cases o <;> norm_num [Over.c] <;> linarith

theorem cont_right {t : ℝ} (h : -200 ≤ t) : HasDerivWithinAt cont (k t) (Set.Ici t) t := by
  by_cases h0 : 0 ≤ t
  · have h1 := (val_deriv .water t (cpos h)).hasDerivWithinAt (s := Set.Ici t)
    have e : k t = dv .water t := if_pos h0
    rw [e]
    refine h1.congr (fun x hx => if_pos (le_trans h0 hx)) (if_pos h0)
  · have h1 := ((val_deriv .ice t (cpos h)).add_const (7 / 100 : ℝ)).hasDerivWithinAt (s := Set.Ici t)
    have e : k t = dv .ice t := if_neg h0
    rw [e]
    refine h1.congr_of_eventuallyEq ?_ (if_neg h0)
    have : ∀ᶠ x in nhdsWithin t (Set.Ici t), x < 0 :=
      (eventually_lt_nhds (not_le.mp h0)).filter_mono nhdsWithin_le_nhds
    filter_upwards [this] with x hx
    exact if_neg (not_le.mpr hx)

theorem cont_continuousOn : ContinuousOn cont (Set.Ici (-200)) := by
  have hv : ∀ o : Over, ContinuousOn (val o) (Set.Ici (-200)) :=
    fun o x hx => (val_deriv o x (cpos hx)).continuousAt.continuousWithinAt
  have h0 : val .water 0 = val .ice 0 + 7 / 100 := by norm_num [val, Over.a]
  unfold cont
  refine ContinuousOn.if ?_ ((hv .water).mono Set.inter_subset_left)
    (((hv .ice).add continuousOn_const).mono Set.inter_subset_left)
  intro a ha
  have : a = 0 := by
    have h2 := ha.2
    rw [show {a : ℝ | 0 ≤ a} = Set.Ici 0 from rfl, frontier_Ici] at h2
    simpa using h2
  rw [this]
  exact h0

theorem cont_le {u v B : ℝ} (hu : -200 ≤ u) (huv : u ≤ v) (h : ∀ x, u ≤ x → x ≤ v → k x ≤ B) :
    cont v - cont u ≤ B * (v - u) := by
  have := image_le_of_deriv_right_le_deriv_boundary (f := cont) (f' := k) (a := u) (b := v)
    (cont_continuousOn.mono fun x hx => le_trans hu hx.1)
    (fun x hx => cont_right (le_trans hu hx.1)) (B := fun x => cont u + B * (x - u)) (B' := fun _ => B)
    (by simp) (by fun_prop) (fun x _ => by
      have := (((hasDerivAt_id x).sub_const u).const_mul B).const_add (cont u)
      simpa using this.hasDerivWithinAt) (fun x hx => h x hx.1 hx.2.le) (x := v) ⟨huv, le_rfl⟩
  linarith

theorem le_cont {u v A : ℝ} (hu : -200 ≤ u) (huv : u ≤ v) (h : ∀ x, u ≤ x → x ≤ v → A ≤ k x) :
    A * (v - u) ≤ cont v - cont u := by
  have := image_le_of_deriv_right_le_deriv_boundary (f := fun x => cont u + A * (x - u)) (f' := fun _ => A)
    (B := cont) (B' := k) (a := u) (b := v) (by fun_prop) (fun x _ => by
      have := (((hasDerivAt_id x).sub_const u).const_mul A).const_add (cont u)
      simpa using this.hasDerivWithinAt) (by simp)
    (cont_continuousOn.mono fun x hx => le_trans hu hx.1)
    (fun x hx => cont_right (le_trans hu hx.1)) (fun x hx => h x hx.1 hx.2.le) (x := v) ⟨huv, le_rfl⟩
  linarith

/-! ## Bounds of the slope -/

theorem k_pos {t : ℝ} (h : -200 ≤ t) : 0 < k t := by
  unfold k
  split <;> exact dv_pos _ (cpos h)

theorem ice0 : dv .ice 0 = 61071 / 100 * (2244 / 27244) := by
  norm_num [dv, Over.a, Over.b, Over.c]

theorem water0 : dv .water 0 = 61078 / 100 * (1708 / 23418) := by
  norm_num [dv, Over.a, Over.b, Over.c]

theorem ice_mono {u v : ℝ} (hu : -200 ≤ u) (huv : u ≤ v) (hv : v ≤ 0) : dv .ice u ≤ dv .ice v :=
  dv_mono .ice (cpos hu) huv (by norm_num [Over.b, Over.c]; linarith)

theorem water_mono {u v : ℝ} (hu : -200 ≤ u) (huv : u ≤ v) (hv : v ≤ 1000) : dv .water u ≤ dv .water v :=
  dv_mono .water (cpos hu) huv (by norm_num [Over.b, Over.c]; linarith)

/-- The slope grows with temperature, up to the kink. -/
theorem k_near_mono {y x : ℝ} (hy : -200 ≤ y) (hyx : y ≤ x) (hx : x ≤ 60) :
    k y ≤ k x + 6 ∧ (0 ≤ y → k y ≤ k x) := by
  unfold k
  rcases le_or_gt 0 y with h | h
  · rw [if_pos h, if_pos (h.trans hyx)]
    have := water_mono hy hyx (by linarith)
    exact ⟨by linarith, fun _ => this⟩
  · rw [if_neg (not_le.mpr h)]
    refine ⟨?_, fun h' => absurd h' (not_le.mpr h)⟩
    rcases le_or_gt 0 x with hx0 | hx0
    · rw [if_pos hx0]
      have h1 := ice_mono hy h.le le_rfl
      have h2 := water_mono (by norm_num) hx0 (by linarith)
      rw [ice0] at h1
      rw [water0] at h2
      norm_num at h1 h2
      linarith
    · rw [if_neg (not_le.mpr hx0)]
      have := ice_mono hy hyx hx0.le
      linarith

theorem k_cold {x : ℝ} (hx0 : -200 ≤ x) (hx : x ≤ 0) : k x ≤ 504 / 10 := by
  have h0 : dv .ice 0 ≤ 504 / 10 := by rw [ice0]; norm_num
  unfold k
  rcases lt_or_eq_of_le hx with h | h
  · rw [if_neg (not_le.mpr h)]
    exact (ice_mono hx0 hx le_rfl).trans h0
  · rw [h, if_pos le_rfl, water0]; norm_num

theorem k_cold10 {x : ℝ} (hx0 : -200 ≤ x) (hx : x ≤ -10) : k x ≤ 27 := by
  have h1 : k x ≤ dv .ice (-10) := by
    rw [k, if_neg (by linarith)]
    exact ice_mono hx0 hx (by norm_num)
  refine h1.trans ?_
  have h2 := Real.quadratic_le_exp_of_nonneg (x := 22440 / 26244) (by norm_num)
  have h3 : Real.exp (-(22440 / 26244)) ≤ 451 / 1000 := by
    rw [Real.exp_neg, inv_le_comm₀ (Real.exp_pos _) (by norm_num)]
    refine le_trans ?_ h2
    norm_num
  have e : dv .ice (-10) = 61071 / 100 * (2244 / 100 * (27244 / 100) / (26244 / 100) ^ 2) *
      Real.exp (-(22440 / 26244)) := by
    simp only [dv, Over.a, Over.b, Over.c]
    rw [show (2244 / 100 * -10 / (27244 / 100 + -10) : ℝ) = -(22440 / 26244) by norm_num]
    norm_num
    ring
  rw [e]
  refine (mul_le_mul_of_nonneg_left h3 (by norm_num)).trans ?_
  norm_num

theorem k_cold30 {x : ℝ} (hx0 : -200 ≤ x) (hx : x ≤ -30) : k x ≤ 15 / 2 := by
  have h1 : k x ≤ dv .ice (-30) := by
    rw [k, if_neg (by linarith)]
    exact ice_mono hx0 hx (by norm_num)
  refine h1.trans ?_
  have h2 := Real.quadratic_le_exp_of_nonneg (x := 33660 / 24244) (by norm_num)
  have h3 : Real.exp (-(67320 / 24244)) ≤ 1 / 10 := by
    rw [Real.exp_neg, inv_le_comm₀ (Real.exp_pos _) (by norm_num),
      show (67320 / 24244 : ℝ) = 33660 / 24244 + 33660 / 24244 by norm_num, Real.exp_add]
    have h4 : (16 / 5 : ℝ) ≤ Real.exp (33660 / 24244) := le_trans (by norm_num) h2
    nlinarith
  have e : dv .ice (-30) = 61071 / 100 * (2244 / 100 * (27244 / 100) / (24244 / 100) ^ 2) *
      Real.exp (-(67320 / 24244)) := by
    simp only [dv, Over.a, Over.b, Over.c]
    rw [show (2244 / 100 * -30 / (27244 / 100 + -30) : ℝ) = -(67320 / 24244) by norm_num]
    norm_num
    ring
  rw [e]
  refine (mul_le_mul_of_nonneg_left h3 (by norm_num)).trans ?_
  norm_num

theorem k_warm {x : ℝ} (h0 : 0 ≤ x) (hx : x ≤ 60) : 44 ≤ k x := by
  rw [k, if_pos h0]
  have := water_mono (by norm_num) h0 (by linarith)
  rw [water0] at this
  norm_num at this
  linarith

theorem k_le26 {x : ℝ} (h0 : -200 ≤ x) (hx : x ≤ 26) : k x ≤ 250 := by
  rcases le_or_gt x 0 with h | h
  · exact (k_cold h0 h).trans (by norm_num)
  rw [k, if_pos h.le]
  refine (water_mono h0 hx (by norm_num)).trans ?_
  have h1 := exp_le_pow (17072 / 10000) 16 (by norm_num) (by norm_num)
  have h2 : Real.exp (1708 / 100 * 26 / (23418 / 100 + 26)) ≤ 65 / 10 := by
    refine le_trans (Real.exp_le_exp.mpr ?_) (h1.trans ?_) <;> norm_num
  simp only [dv, Over.a, Over.b, Over.c]
  nlinarith [Real.exp_pos (1708 / 100 * 26 / (23418 / 100 + 26))]

theorem k_le56 {x : ℝ} (h0 : -200 ≤ x) (hx : x ≤ 56) : k x ≤ 900 := by
  rcases le_or_gt x 0 with h | h
  · exact (k_cold h0 h).trans (by norm_num)
  rw [k, if_pos h.le]
  refine (water_mono h0 hx (by norm_num)).trans ?_
  have h1 := exp_le_pow (32963 / 10000) 64 (by norm_num) (by norm_num)
  have h2 : Real.exp (1708 / 100 * 56 / (23418 / 100 + 56)) ≤ 31 := by
    refine le_trans (Real.exp_le_exp.mpr ?_) (h1.trans ?_) <;> norm_num
  simp only [dv, Over.a, Over.b, Over.c]
  nlinarith [Real.exp_pos (1708 / 100 * 56 / (23418 / 100 + 56))]

/-- Growth of the slope over 10 K, and over 2 K. -/
theorem k_growth {y x ψ : ℝ} (hy : -200 ≤ y) (hyx : y ≤ x) (hx : x ≤ 60) (hψ : 30 ≤ ψ) :
    (x ≤ y + 10 → k x + ψ ≤ 19 / 10 * (k y + ψ)) ∧ (x ≤ y + 2 → k x + ψ ≤ 5 / 4 * (k y + ψ)) := by
  have he : Real.exp 1 ≤ 272 / 100 := by have := Real.exp_one_lt_d9; linarith
  have he5 : Real.exp (1 / 5) ≤ 5 / 4 := by
    refine (exp_le_pow (1 / 5) 1 (by norm_num) (by norm_num)).trans ?_
    norm_num
  have hky := k_pos hy
  rcases le_or_gt 0 y with h0 | h0
  · -- over water
    have hg := dv_growth .water (cpos hy) hyx
    have e1 : k x = dv .water x := if_pos (h0.trans hyx)
    have e2 : k y = dv .water y := if_pos h0
    rw [← e1, ← e2] at hg
    have hc : Over.water.b * Over.water.c / (Over.water.c + y) - 2 ≤ 1508 / 100 := by
      have : Over.water.b * Over.water.c / (Over.water.c + y) ≤ Over.water.b := by
        rw [div_le_iff₀ (cpos hy)]
        norm_num [Over.b, Over.c]
        linarith
      norm_num [Over.b] at this ⊢
      linarith
    constructor
    · intro hd
      have hs : (x - y) / (Over.water.c + x) ≤ 10 / (24418 / 100) := by
        rw [div_le_div_iff₀ (cpos (by linarith)) (by norm_num)]
        norm_num [Over.c]
        linarith
      have hs0 : 0 ≤ (x - y) / (Over.water.c + x) := div_nonneg (by linarith) (cpos (by linarith)).le
      have hexp : Real.exp ((Over.water.b * Over.water.c / (Over.water.c + y) - 2) * ((x - y) / (Over.water.c + x)))
          ≤ 19 / 10 := by
        have h1 := exp_le_pow (6177 / 10000) 16 (by norm_num) (by norm_num)
        refine le_trans (Real.exp_le_exp.mpr ?_) (h1.trans (by norm_num))
        calc _ ≤ 1508 / 100 * ((x - y) / (Over.water.c + x)) := mul_le_mul_of_nonneg_right hc hs0
          _ ≤ 1508 / 100 * (10 / (24418 / 100)) := by gcongr
          _ ≤ _ := by norm_num
      nlinarith
    · intro hd
      have hs : (x - y) / (Over.water.c + x) ≤ 2 / (23418 / 100) := by
        rw [div_le_div_iff₀ (cpos (by linarith)) (by norm_num)]
        norm_num [Over.c]
        linarith
      have hs0 : 0 ≤ (x - y) / (Over.water.c + x) := div_nonneg (by linarith) (cpos (by linarith)).le
      have hexp : Real.exp ((Over.water.b * Over.water.c / (Over.water.c + y) - 2) * ((x - y) / (Over.water.c + x)))
          ≤ 5 / 4 := by
        refine le_trans (Real.exp_le_exp.mpr ?_) he5
        calc _ ≤ 1508 / 100 * ((x - y) / (Over.water.c + x)) := mul_le_mul_of_nonneg_right hc hs0
          _ ≤ 1508 / 100 * (2 / (23418 / 100)) := by gcongr
          _ ≤ _ := by norm_num
      nlinarith
  have e2 : k y = dv .ice y := if_neg (not_le.mpr h0)
  -- growth over ice from `y` to `v ≤ 0`
  have hice : ∀ v L r : ℝ, y ≤ v → v ≤ 0 → L ≤ y → -200 ≤ L → 0 ≤ r →
      (Over.ice.b * Over.ice.c / (Over.ice.c + L) - 2) * (v - y) ≤ r * (Over.ice.c + v) →
      dv .ice v ≤ k y * Real.exp r := by
    intro v L r h1 h2 h3 h4 h5 h6
    have hg := dv_growth .ice (cpos hy) h1
    rw [← e2] at hg
    refine hg.trans (mul_le_mul_of_nonneg_left (Real.exp_le_exp.mpr ?_) hky.le)
    have hL : 0 < Over.ice.c + L := cpos h4
    have hV : 0 < Over.ice.c + v := cpos (by linarith)
    rw [← mul_div_assoc, div_le_iff₀ hV]
    have : Over.ice.b * Over.ice.c / (Over.ice.c + y) ≤ Over.ice.b * Over.ice.c / (Over.ice.c + L) := by
      have := coef_pos .ice
      gcongr
      · exact mul_nonneg this.2.1.le this.2.2.le
    nlinarith
  rcases le_or_gt 0 x with hx0 | hx0
  · -- across the melting point
    have e1 : k x = dv .water x := if_pos hx0
    have hw := dv_growth .water (cpos (by norm_num)) hx0
    rw [← e1, water0] at hw
    have hx' : (Over.water.b * Over.water.c / (Over.water.c + 0) - 2) * ((x - 0) / (Over.water.c + x)) ≤
        646 / 10000 * x := by
      have : (x - 0) / (Over.water.c + x) ≤ x / (23418 / 100) := by
        rw [sub_zero]
        refine div_le_div_of_nonneg_left hx0 (by norm_num) ?_
        norm_num [Over.c]; linarith
      calc _ = 1508 / 100 * ((x - 0) / (Over.water.c + x)) := by
            congr 1; norm_num [Over.b, Over.c]
        _ ≤ 1508 / 100 * (x / (23418 / 100)) := by gcongr
        _ ≤ _ := by
          rw [← mul_div_assoc, div_le_iff₀ (by norm_num)]
          nlinarith
    have hw' : k x ≤ 4455 / 100 * Real.exp (646 / 10000 * x) := by
      refine hw.trans ?_
      have h1 := Real.exp_le_exp.mpr hx'
      refine mul_le_mul (by norm_num) h1 (Real.exp_pos _).le (by norm_num)
    constructor
    · intro hd
      have hi := hice 0 (-10) (782 / 10000 * -y) h0.le le_rfl (by linarith) (by norm_num) (by linarith)
        (by norm_num [Over.b, Over.c]; linarith)
      rw [ice0] at hi
      have hprod : Real.exp (646 / 10000 * x) * Real.exp (782 / 10000 * -y) ≤ 272 / 100 := by
        rw [← Real.exp_add]
        exact (Real.exp_le_exp.mpr (by linarith)).trans he
      have h1 : Real.exp (646 / 10000 * x) ≤ 272 / 100 :=
        (Real.exp_le_exp.mpr (by linarith)).trans he
      have hp1 := Real.exp_pos (646 / 10000 * x)
      have hR : k x * 503 / 10 ≤ 4455 / 100 * (272 / 100) * k y := by
        have h2 : (503 / 10 : ℝ) ≤ k y * Real.exp (782 / 10000 * -y) := by
          refine le_trans ?_ hi
          norm_num
        have h3 : 4455 / 100 * Real.exp (646 / 10000 * x) * (503 / 10) ≤
            4455 / 100 * Real.exp (646 / 10000 * x) * (k y * Real.exp (782 / 10000 * -y)) := by gcongr
        have h4 : k y * (Real.exp (646 / 10000 * x) * Real.exp (782 / 10000 * -y)) ≤ k y * (272 / 100) := by gcongr
        nlinarith
      nlinarith
    · intro hd
      have hi := hice 0 (-10) (782 / 10000 * -y) h0.le le_rfl (by linarith) (by norm_num) (by linarith)
        (by norm_num [Over.b, Over.c]; linarith)
      rw [ice0] at hi
      have hprod : Real.exp (646 / 10000 * x) * Real.exp (782 / 10000 * -y) ≤ 5 / 4 := by
        rw [← Real.exp_add]
        exact (Real.exp_le_exp.mpr (by linarith)).trans he5
      have hp1 := Real.exp_pos (646 / 10000 * x)
      have hR : k x ≤ 5 / 4 * k y := by
        have h2 : (503 / 10 : ℝ) ≤ k y * Real.exp (782 / 10000 * -y) := by
          refine le_trans ?_ hi
          norm_num
        have h3 : 4455 / 100 * Real.exp (646 / 10000 * x) * (503 / 10) ≤
            4455 / 100 * Real.exp (646 / 10000 * x) * (k y * Real.exp (782 / 10000 * -y)) := by gcongr
        have h4 : k y * (Real.exp (646 / 10000 * x) * Real.exp (782 / 10000 * -y)) ≤ k y * (5 / 4) := by gcongr
        nlinarith
      nlinarith
  · -- over ice
    have e1 : k x = dv .ice x := if_neg (not_le.mpr hx0)
    have hcold := k_cold (by linarith : -200 ≤ x) hx0.le
    constructor
    · intro hd
      rcases le_or_gt x (-10) with h10 | h10
      · have := k_cold10 (by linarith) h10
        linarith
      · have hi := hice x (-20) 1 hyx hx0.le (by linarith) (by norm_num) (by norm_num)
          (by norm_num [Over.b, Over.c]; linarith)
        rw [← e1] at hi
        have : k x ≤ k y * (272 / 100) := hi.trans (mul_le_mul_of_nonneg_left he hky.le)
        linarith
    · intro hd
      rcases le_or_gt x (-30) with h30 | h30
      · have := k_cold30 (by linarith) h30
        linarith
      · have hi := hice x (-32) (1 / 5) hyx hx0.le (by linarith) (by norm_num) (by norm_num)
          (by norm_num [Over.b, Over.c]; linarith)
        rw [← e1] at hi
        have : k x ≤ k y * (5 / 4) := hi.trans (mul_le_mul_of_nonneg_left he5 hky.le)
        linarith

/-! ## The balance and its slopes -/

/-- The psychrometric balance without the jump. -/
noncomputable def bal (ψ tc e t : ℝ) : ℝ := cont t + ψ * (t - tc) - e

/-- The jump. -/
noncomputable def eta (t : ℝ) : ℝ := if 0 ≤ t then 0 else 7 / 100

/-- The psychrometric balance. -/
noncomputable def res (ψ tc e t : ℝ) : ℝ := bal ψ tc e t - eta t

theorem eta_range (t : ℝ) : 0 ≤ eta t ∧ eta t ≤ 7 / 100 := by
  unfold eta
  split <;> norm_num

theorem eta_anti {u v : ℝ} (h : u ≤ v) : eta v ≤ eta u := by
  unfold eta
  split
  · split <;> norm_num
  · rw [if_neg (by linarith)]

variable {ψ tc e : ℝ}

theorem slope_ub {a b s B : ℝ} (ha : -200 ≤ a) (hb : -200 ≤ b) (hab : a ≠ b)
    (h : ∀ x, min a b ≤ x → x ≤ max a b → k x + ψ ≤ B) (hs : bal ψ tc e b - bal ψ tc e a = s * (b - a)) : s ≤ B := by
  simp only [bal] at hs
  rcases lt_or_gt_of_ne hab with h1 | h1
  · have := cont_le (B := B - ψ) ha h1.le fun x h2 h3 => by
      have := h x (by rw [min_eq_left h1.le]; exact h2) (by rw [max_eq_right h1.le]; exact h3)
      linarith
    have h2 : s * (b - a) ≤ B * (b - a) := by linarith
    exact le_of_mul_le_mul_right h2 (by linarith)
  · have := cont_le (B := B - ψ) hb h1.le fun x h2 h3 => by
      have := h x (by rw [min_eq_right h1.le]; exact h2) (by rw [max_eq_left h1.le]; exact h3)
      linarith
    have h2 : s * (a - b) ≤ B * (a - b) := by linarith
    exact le_of_mul_le_mul_right h2 (by linarith)

theorem slope_lb {a b s A : ℝ} (ha : -200 ≤ a) (hb : -200 ≤ b) (hab : a ≠ b)
    (h : ∀ x, min a b ≤ x → x ≤ max a b → A ≤ k x + ψ) (hs : bal ψ tc e b - bal ψ tc e a = s * (b - a)) : A ≤ s := by
  simp only [bal] at hs
  rcases lt_or_gt_of_ne hab with h1 | h1
  · have := le_cont (A := A - ψ) ha h1.le fun x h2 h3 => by
      have := h x (by rw [min_eq_left h1.le]; exact h2) (by rw [max_eq_right h1.le]; exact h3)
      linarith
    have h2 : A * (b - a) ≤ s * (b - a) := by linarith
    exact le_of_mul_le_mul_right h2 (by linarith)
  · have := le_cont (A := A - ψ) hb h1.le fun x h2 h3 => by
      have := h x (by rw [min_eq_right h1.le]; exact h2) (by rw [max_eq_left h1.le]; exact h3)
      linarith
    have h2 : A * (a - b) ≤ s * (a - b) := by linarith
    exact le_of_mul_le_mul_right h2 (by linarith)

/-- Slopes over two intervals compare as the slopes at their points. -/
theorem slope_cmp {a b c d s t r q : ℝ} (ha : -200 ≤ a) (hb : -200 ≤ b) (hc : -200 ≤ c) (hd : -200 ≤ d)
    (hab : a ≠ b) (hcd : c ≠ d) (hr : 0 < r)
    (h : ∀ y x, min a b ≤ y → y ≤ max a b → min c d ≤ x → x ≤ max c d → k y + ψ ≤ r * (k x + ψ) + q)
    (hs : bal ψ tc e b - bal ψ tc e a = s * (b - a)) (ht : bal ψ tc e d - bal ψ tc e c = t * (d - c)) :
    s ≤ r * t + q := by
  have h1 : (s - q) / r ≤ t := by
    refine slope_lb hc hd hcd (fun x h1 h2 => ?_) ht
    have := slope_ub ha hb hab (fun y h3 h4 => h y x h3 h4 h1 h2) hs
    rw [div_le_iff₀ hr]
    linarith
  rw [div_le_iff₀ hr] at h1
  linarith

/-- All points of a window of 10 K (2 K) have comparable slopes. -/
theorem k_window {y x : ℝ} (hy : -200 ≤ y) (hx : -200 ≤ x) (hy6 : y ≤ 60) (hx6 : x ≤ 60) (hψ : 30 ≤ ψ) :
    (|y - x| ≤ 10 → k y + ψ ≤ 19 / 10 * (k x + ψ)) ∧ (|y - x| ≤ 2 → k y + ψ ≤ 5 / 4 * (k x + ψ)) := by
  have hk := k_pos hx
  rcases le_total x y with h | h
  · obtain ⟨h1, h2⟩ := k_growth hx h hy6 hψ
    rw [abs_of_nonneg (by linarith)]
    exact ⟨fun h3 => h1 (by linarith), fun h3 => h2 (by linarith)⟩
  · obtain ⟨h1, -⟩ := k_near_mono hy h hx6
    exact ⟨fun _ => by linarith, fun _ => by linarith⟩

theorem window_cmp {a b c d s t lo m : ℝ} (hlo : -200 ≤ lo) (hm : m ≤ 60) (hψ : 30 ≤ ψ)
    (ha : lo ≤ a ∧ a ≤ m) (hb : lo ≤ b ∧ b ≤ m) (hc : lo ≤ c ∧ c ≤ m) (hd : lo ≤ d ∧ d ≤ m)
    (hab : a ≠ b) (hcd : c ≠ d)
    (hs : bal ψ tc e b - bal ψ tc e a = s * (b - a)) (ht : bal ψ tc e d - bal ψ tc e c = t * (d - c)) :
    (m - lo ≤ 10 → s ≤ 19 / 10 * t) ∧ (m - lo ≤ 2 → s ≤ 5 / 4 * t) := by
  have key : ∀ y x, min a b ≤ y → y ≤ max a b → min c d ≤ x → x ≤ max c d →
      (lo ≤ y ∧ y ≤ m) ∧ (lo ≤ x ∧ x ≤ m) := by
    intro y x h1 h2 h3 h4
    have := le_min ha.1 hb.1; have := max_le ha.2 hb.2; have := le_min hc.1 hd.1; have := max_le hc.2 hd.2
    exact ⟨⟨by linarith, by linarith⟩, ⟨by linarith, by linarith⟩⟩
  constructor
  · intro hw
    have := slope_cmp (q := 0) (r := 19 / 10) (by linarith) (by linarith) (by linarith) (by linarith) hab hcd
      (by norm_num) (fun y x h1 h2 h3 h4 => by
        obtain ⟨k1, k2⟩ := key y x h1 h2 h3 h4
        rw [add_zero]
        refine (k_window (by linarith) (by linarith) (by linarith) (by linarith) hψ).1 ?_
        rw [abs_le]; constructor <;> linarith) hs ht
    linarith
  · intro hw
    have := slope_cmp (q := 0) (r := 5 / 4) (by linarith) (by linarith) (by linarith) (by linarith) hab hcd
      (by norm_num) (fun y x h1 h2 h3 h4 => by
        obtain ⟨k1, k2⟩ := key y x h1 h2 h3 h4
        rw [add_zero]
        refine (k_window (by linarith) (by linarith) (by linarith) (by linarith) hψ).2 ?_
        rw [abs_le]; constructor <;> linarith) hs ht
    linarith

/-- The slope to a point from a lower and from a higher point: near-convexity. -/
theorem right_cmp {w p x τ σ q : ℝ} (hw : -200 ≤ w) (hx : -200 ≤ x) (hp6 : p ≤ 60) (hx6 : x ≤ 60)
    (hwp : w ≤ p) (hpx : p ≠ x) (hxw : x ≠ w) (hq : 0 ≤ q)
    (h : ∀ y z, min x w ≤ y → y ≤ z → z ≤ 60 → k y ≤ k z + q)
    (hτ : bal ψ tc e x - bal ψ tc e w = τ * (x - w)) (hσ : bal ψ tc e x - bal ψ tc e p = σ * (x - p)) :
    τ ≤ σ + q := by
  rcases eq_or_lt_of_le hwp with he | hlt
  · rw [← he] at hσ
    have : τ * (x - w) = σ * (x - w) := by linarith
    have := mul_right_cancel₀ (sub_ne_zero.mpr hxw) this
    linarith
  -- slopes of adjacent intervals
  have adj : ∀ u m v s t : ℝ, min x w ≤ u → u < m → m < v → v ≤ 60 →
      bal ψ tc e m - bal ψ tc e u = s * (m - u) → bal ψ tc e v - bal ψ tc e m = t * (v - m) → s ≤ t + q := by
    intro u m v s t h0 h1 h2 h3 hs ht
    have hu : -200 ≤ u := le_trans (le_min hx hw) h0
    have := slope_cmp (q := q) (r := 1) hu (by linarith) (by linarith) (by linarith) h1.ne h2.ne
      one_pos (fun y z a1 a2 a3 a4 => by
        rw [min_eq_left h1.le] at a1
        rw [max_eq_right h1.le] at a2
        rw [min_eq_left h2.le] at a3
        rw [max_eq_right h2.le] at a4
        have := h y z (h0.trans a1) (a2.trans a3) (a4.trans h3)
        linarith) hs ht
    linarith
  obtain ⟨s1, hs1⟩ : ∃ s, bal ψ tc e p - bal ψ tc e w = s * (p - w) :=
    ⟨(bal ψ tc e p - bal ψ tc e w) / (p - w), by rw [div_mul_cancel₀ _ (by linarith)]⟩
  rcases lt_or_gt_of_ne hxw with h1 | h1
  · -- x < w < p
    have h2 := adj x w p τ s1 (min_le_left _ _) h1 hlt hp6 (by linarith) hs1
    have h3 : (τ - q) * (p - x) ≤ σ * (p - x) := by
      have h4 : (τ - q) * (p - w) ≤ s1 * (p - w) := mul_le_mul_of_nonneg_right (by linarith) (by linarith)
      have h5 : 0 ≤ q * (w - x) := mul_nonneg hq (by linarith)
      nlinarith
    have := le_of_mul_le_mul_right h3 (by linarith)
    linarith
  · rcases lt_or_gt_of_ne hpx with h2 | h2
    · -- w < p < x
      have h3 := adj w p x s1 σ (min_le_right _ _) hlt h2 hx6 hs1 hσ
      have h4 : τ * (x - w) ≤ (σ + q) * (x - w) := by
        have h5 : s1 * (p - w) ≤ (σ + q) * (p - w) := mul_le_mul_of_nonneg_right h3 (by linarith)
        have h6 : 0 ≤ q * (x - p) := mul_nonneg hq (by linarith)
        nlinarith
      exact le_of_mul_le_mul_right h4 (by linarith)
    · -- w < x < p
      exact adj w x p τ σ (min_le_right _ _) h1 h2 hp6 hτ (by linarith)

/-! ## One secant step -/

/-- Air temperature, vapor pressure and root of the balance. -/
structure Air (ψ tc e w : ℝ) : Prop where
  psych : 30 ≤ ψ
  cold : -50 ≤ tc
  hot : tc ≤ 50
  vap : 0 ≤ e
  root : bal ψ tc e w = 0
  le : w ≤ tc
  ge : -200 ≤ w

/-- Farthest distance of an iterate from the root. -/
noncomputable def far (tc w : ℝ) : ℝ := max (tc - w) 5

theorem cont_mono {u v : ℝ} (hu : -200 ≤ u) (huv : u ≤ v) : cont u ≤ cont v := by
  have := le_cont (A := 0) hu huv fun x hx _ => (k_pos (by linarith)).le
  linarith

theorem Air.far_cold {w : ℝ} (h : Air ψ tc e w) (hw : w < 0) : far tc w ≤ 41 / 2 := by
  refine max_le ?_ (by norm_num)
  have h1 := h.root
  have h2 := cont_mono h.ge hw.le
  have h3 : cont 0 = 61078 / 100 := by norm_num [cont, val, Over.a]
  simp only [bal] at h1
  have h4 := h.psych; have h5 := h.vap; have h6 := h.le
  have h7 : ψ * (tc - w) ≤ 61078 / 100 := by nlinarith
  nlinarith

theorem Air.far_warm {w : ℝ} (h : Air ψ tc e w) (hw : 0 ≤ w) : far tc w ≤ 50 ∧ w + far tc w ≤ 56 := by
  have h1 := h.hot; have h2 := h.le
  unfold far
  rcases le_total (tc - w) 5 with h3 | h3
  · rw [max_eq_right h3]; constructor <;> linarith
  · rw [max_eq_left h3]; constructor <;> linarith

theorem Air.w_ge {w : ℝ} (h : Air ψ tc e w) : -71 ≤ w := by
  by_contra h1
  push Not at h1
  have h2 := h.far_cold (by linarith)
  have h3 : tc - w ≤ far tc w := le_max_left _ _
  have := h.cold
  linarith

/-- Two consecutive iterates. -/
structure Pair (tc w p x : ℝ) : Prop where
  up : x - w ≤ far tc w
  down : -5 ≤ x - w
  prev : (0 ≤ p - w ∧ p - w ≤ far tc w) ∨ (-10 ≤ p - w ∧ p - w < 0 ∧ x - p ≤ 10)
  left : 0 ≤ w → x < w → p - w ≤ 10
  gap : 1 / 100 ≤ |x - p|

theorem Pair.ne {w p x : ℝ} (h : Pair tc w p x) : p ≠ x := by
  rintro rfl
  have := h.gap
  norm_num at this

theorem pair_slopes {w p x : ℝ} (h : Air ψ tc e w) (hp : Pair tc w p x) :
    ∃ τ σ, bal ψ tc e x = τ * (x - w) ∧ bal ψ tc e x - bal ψ tc e p = σ * (x - p) ∧ 30 ≤ τ ∧ 30 ≤ σ ∧
      75 / 1000 * (σ + 7) ≤ τ ∧ τ ≤ 19 / 10 * σ ∧ (0 ≤ p - w → τ ≤ 6 / 5 * σ) ∧
      (0 ≤ p - w → 0 ≤ x - w → 0 ≤ w → τ ≤ σ) ∧
      (|p - w| ≤ 1 / 2 → |x - w| ≤ 1 / 2 → τ ≤ 5 / 4 * σ ∧ σ ≤ 5 / 4 * τ) := by
  have hpx := hp.ne
  have hw71 := h.w_ge
  have hψ := h.psych
  have hfar : w + far tc w ≤ 56 ∧ (w < 0 → w + far tc w ≤ 26) := by
    rcases le_or_gt 0 w with h0 | h0
    · exact ⟨(h.far_warm h0).2, fun h1 => absurd h1 (not_lt.mpr h0)⟩
    · have := h.far_cold h0
      exact ⟨by linarith, fun _ => by linarith⟩
  have hfar5 : 5 ≤ far tc w := le_max_right _ _
  have hxr : -200 ≤ x ∧ x ≤ w + far tc w := ⟨by linarith [hp.down], by linarith [hp.up]⟩
  have hpr : -200 ≤ p ∧ p ≤ w + far tc w := by
    rcases hp.prev with h1 | h1
    · exact ⟨by linarith, by linarith⟩
    · exact ⟨by linarith, by linarith⟩
  obtain ⟨σ, hσ⟩ : ∃ s, bal ψ tc e x - bal ψ tc e p = s * (x - p) :=
    ⟨(bal ψ tc e x - bal ψ tc e p) / (x - p), by rw [div_mul_cancel₀ _ (sub_ne_zero.mpr hpx.symm)]⟩
  have hσ30 : 30 ≤ σ := slope_lb hpr.1 hxr.1 hpx (fun y h1 _ => by
    have := k_pos (le_trans (le_min hpr.1 hxr.1) h1); linarith) hσ
  by_cases hxw : x = w
  · refine ⟨σ, σ, by rw [hxw, h.root]; ring, hσ, hσ30, hσ30, by linarith, by linarith, fun _ => by linarith,
      fun _ _ _ => le_rfl, fun _ _ => ⟨by linarith, by linarith⟩⟩
  obtain ⟨τ, hτ⟩ : ∃ s, bal ψ tc e x - bal ψ tc e w = s * (x - w) :=
    ⟨(bal ψ tc e x - bal ψ tc e w) / (x - w), by rw [div_mul_cancel₀ _ (sub_ne_zero.mpr hxw)]⟩
  have hτ30 : ψ ≤ τ := slope_lb h.ge hxr.1 (Ne.symm hxw) (fun y h1 _ => by
    have := k_pos (le_trans (le_min h.ge hxr.1) h1); linarith) hτ
  have hright : 0 ≤ p - w → τ ≤ σ + 6 := fun h1 =>
    right_cmp h.ge hxr.1 (by linarith) (by linarith) (by linarith) hpx hxw (by norm_num)
      (fun y z a1 a2 a3 => (k_near_mono (le_trans (le_min hxr.1 h.ge) a1) a2 a3).1) hτ hσ
  refine ⟨τ, σ, by rw [← hτ, h.root]; ring, hσ, by linarith, hσ30, ?_, ?_, fun h1 => by linarith [hright h1], ?_, ?_⟩
  · -- the slope is bounded
    rcases le_or_gt 0 w with h0 | h0
    · have h1 : σ ≤ 900 + ψ := slope_ub hpr.1 hxr.1 hpx (fun y h1 h2 => by
        have h3 := le_trans (le_min hpr.1 hxr.1) h1
        have h4 : y ≤ 56 := h2.trans (max_le (by linarith) (by linarith))
        linarith [k_le56 h3 h4]) hσ
      rcases lt_or_gt_of_ne hxw with h2 | h2
      · -- left of the root
        have h3 := hp.down
        have h4 := hp.left h0 h2
        have h5 : -10 ≤ p - w := by rcases hp.prev with h6 | h6 <;> linarith
        have h6 : σ ≤ 19 / 10 * (k w + ψ) := slope_ub hpr.1 hxr.1 hpx (fun y a1 a2 => by
          have b1 := le_trans (le_min hpr.1 hxr.1) a1
          have b2 : w - 10 ≤ y := le_trans (le_min (by linarith) (by linarith)) a1
          have b3 : y ≤ w + 10 := a2.trans (max_le (by linarith) (by linarith))
          have b4 : y ≤ 56 := a2.trans (max_le (by linarith) (by linarith))
          exact (k_window b1 h.ge (by linarith) (by linarith) hψ).1 (by rw [abs_le]; constructor <;> linarith)) hσ
        have h7 : (k w + ψ) / (19 / 10) ≤ τ := slope_lb h.ge hxr.1 (Ne.symm hxw) (fun y a1 a2 => by
          rw [min_eq_right h2.le] at a1
          rw [max_eq_left h2.le] at a2
          rw [div_le_iff₀ (by norm_num)]
          have := (k_window (y := w) (x := y) h.ge (by linarith) (by linarith) (by linarith) hψ).1
            (by rw [abs_le]; constructor <;> linarith)
          linarith) hτ
        rw [div_le_iff₀ (by norm_num)] at h7
        linarith
      · have h5 : ψ + 44 ≤ τ := slope_lb h.ge hxr.1 (Ne.symm hxw) (fun y h6 h7 => by
            rw [min_eq_left h2.le] at h6
            rw [max_eq_right h2.le] at h7
            linarith [k_warm (x := y) (by linarith) (by linarith)]) hτ
        linarith
    · have h26 := hfar.2 h0
      have h1 : σ ≤ 250 + ψ := slope_ub hpr.1 hxr.1 hpx (fun y h1 h2 => by
        have h3 := le_trans (le_min hpr.1 hxr.1) h1
        have h4 : y ≤ 26 := h2.trans (max_le (by linarith) (by linarith))
        linarith [k_le26 h3 h4]) hσ
      linarith
  · rcases hp.prev with h1 | h1
    · linarith [hright h1.1]
    · -- window of 10 K
      have h2 := hp.down
      have := (window_cmp (lo := min p x) (m := max w x) (le_min hpr.1 hxr.1) (max_le (by linarith) (by linarith)) hψ
        (a := w) (b := x) (c := p) (d := x)
        ⟨(min_le_left _ _).trans (by linarith), le_max_left _ _⟩ ⟨min_le_right _ _, le_max_right _ _⟩
        ⟨min_le_left _ _, le_trans (by linarith) (le_max_left _ _)⟩ ⟨min_le_right _ _, le_max_right _ _⟩
        (Ne.symm hxw) hpx hτ hσ).1 ?_
      · exact this
      · rcases le_total p x with h3 | h3 <;> rcases le_total w x with h4 | h4 <;>
          simp only [min_eq_left, min_eq_right, max_eq_left, max_eq_right, h3, h4] <;> linarith
  · intro h1 h2 h3
    have := right_cmp (q := 0) h.ge hxr.1 (by linarith) (by linarith) (by linarith) hpx hxw le_rfl
      (fun y z a1 a2 a3 => by
        have a0 : 0 ≤ y := le_trans (le_min (by linarith) h3) a1
        have := (k_near_mono (by linarith) a2 a3).2 a0
        linarith) hτ hσ
    linarith
  · intro h1 h2
    rw [abs_le] at h1 h2
    have hw := fun (a b c d s t : ℝ) h1 h2 h3 h4 h5 h6 h7 h8 =>
      (window_cmp (ψ := ψ) (tc := tc) (e := e) (a := a) (b := b) (c := c) (d := d) (s := s) (t := t)
        (lo := w - 1 / 2) (m := w + 1 / 2) (by linarith) (by linarith) hψ h1 h2 h3 h4 h5 h6 h7 h8).2 (by linarith)
    refine ⟨hw w x p x τ σ ?_ ?_ ?_ ?_ (Ne.symm hxw) hpx hτ hσ, hw p x w x σ τ ?_ ?_ ?_ ?_ hpx (Ne.symm hxw) hσ hτ⟩ <;>
      constructor <;> linarith

/-- The secant step. -/
noncomputable def delta (ψ tc e p x : ℝ) : ℝ := (x - p) / (res ψ tc e x - res ψ tc e p) * res ψ tc e x

set_option maxHeartbeats 1000000 in
theorem secant_step {w p x : ℝ} (h : Air ψ tc e w) (hp : Pair tc w p x) :
    res ψ tc e x - res ψ tc e p ≠ 0 ∧
    |x - delta ψ tc e p x - w| ≤ 37 / 40 * |x - w| + 24 / 10000 ∧
    (|p - w| ≤ 1 / 2 → |x - w| ≤ 1 / 2 → |x - delta ψ tc e p x - w| ≤ 2 / 5 * |x - w| + 24 / 10000) ∧
    (|delta ψ tc e p x| ≤ 1 / 100 → |x - w| ≤ 14 / 100) ∧
    (1 / 100 < |delta ψ tc e p x| → Pair tc w x (x - delta ψ tc e p x)) := by
  obtain ⟨τ, σ, h1, h2, h3, h4, h5, h6, h7, h8, h9⟩ := pair_slopes h hp
  have hpx := hp.ne
  have hne : x - p ≠ 0 := sub_ne_zero.mpr hpx.symm
  obtain ⟨j, hj, hj0, hj7⟩ : ∃ j, eta p - eta x = j * (x - p) ∧ 0 ≤ j ∧ j ≤ 7 := by
    refine ⟨(eta p - eta x) / (x - p), by rw [div_mul_cancel₀ _ hne], ?_, ?_⟩
    · rcases lt_or_gt_of_ne hpx with a | a
      · exact div_nonneg (by linarith [eta_anti a.le]) (by linarith)
      · exact div_nonneg_of_nonpos (by linarith [eta_anti a.le]) (by linarith)
    · have hg := hp.gap
      have e1 := eta_range p; have e2 := eta_range x
      refine (le_abs_self _).trans ?_
      rw [abs_div, div_le_iff₀ (by linarith)]
      have : |eta p - eta x| ≤ 7 / 100 := by rw [abs_le]; constructor <;> linarith
      linarith
  obtain ⟨s, hs⟩ : ∃ s, s = σ + j := ⟨_, rfl⟩
  have hs30 : 30 ≤ s := by linarith
  have hres : res ψ tc e x - res ψ tc e p = s * (x - p) := by
    simp only [res]; rw [hs]; linarith
  have hd : delta ψ tc e p x = (τ * (x - w) - eta x) / s := by
    unfold delta
    rw [hres, div_mul_eq_mul_div, div_eq_div_iff (mul_ne_zero (by linarith) hne) (by linarith)]
    simp only [res, h1]
    ring
  obtain ⟨E, hE⟩ : ∃ E, E = x - w := ⟨_, rfl⟩
  obtain ⟨A, hA⟩ : ∃ A, A = p - w := ⟨_, rfl⟩
  obtain ⟨ρ, hρ⟩ : ∃ ρ, ρ = τ / s := ⟨_, rfl⟩
  obtain ⟨z, hz⟩ : ∃ z, z = eta x / s := ⟨_, rfl⟩
  have hz0 : 0 ≤ z := by rw [hz]; exact div_nonneg (eta_range x).1 (by linarith)
  have hz1 : z ≤ 24 / 10000 := by
    rw [hz, div_le_iff₀ (by linarith)]
    linarith [(eta_range x).2]
  have hρ0 : 75 / 1000 ≤ ρ := by rw [hρ, le_div_iff₀ (by linarith)]; linarith
  have hρ1 : ρ ≤ 19 / 10 := by rw [hρ, div_le_iff₀ (by linarith)]; linarith
  have hnext : x - delta ψ tc e p x - w = (1 - ρ) * E + z := by
    rw [hd, hρ, hz, hE]; field_simp; ring
  have hdz : delta ψ tc e p x = ρ * E - z := by
    rw [hd, hρ, hz, hE]; field_simp
  rw [hnext]
  rw [← hE] at h8 h9 ⊢
  rw [← hA] at h7 h8 h9 ⊢
  have hc1 : |(1 - ρ) * E + z| ≤ 37 / 40 * |E| + 24 / 10000 := by
    refine (abs_add_le _ _).trans ?_
    rw [abs_mul, abs_of_nonneg hz0]
    have : |1 - ρ| ≤ 37 / 40 := by rw [abs_le]; constructor <;> linarith
    have := mul_le_mul_of_nonneg_right this (abs_nonneg E)
    linarith
  refine ⟨?_, hc1, ?_, ?_, ?_⟩
  · rw [hres]
    exact mul_ne_zero (by linarith) hne
  · intro a1 a2
    obtain ⟨b1, b2⟩ := h9 a1 a2
    have c1 : ρ ≤ 5 / 4 := by rw [hρ, div_le_iff₀ (by linarith)]; linarith
    have c2 : 3 / 5 ≤ ρ := by rw [hρ, le_div_iff₀ (by linarith)]; linarith
    refine (abs_add_le _ _).trans ?_
    rw [abs_mul, abs_of_nonneg hz0]
    have : |1 - ρ| ≤ 2 / 5 := by rw [abs_le]; constructor <;> linarith
    have := mul_le_mul_of_nonneg_right this (abs_nonneg E)
    linarith
  · intro a
    rw [hdz] at a
    have b : ρ * |E| ≤ 124 / 10000 := by
      have : |ρ * E| ≤ |ρ * E - z| + z := by
        have := abs_add_le (ρ * E - z) z
        rw [sub_add_cancel, abs_of_nonneg hz0] at this
        exact this
      rw [abs_mul, abs_of_nonneg (by linarith)] at this
      linarith
    -- the jump only shifts by `z ≤ 0.07 / s`, which is small compared with the tolerance
    have hzr : z ≤ ρ * (24 / 10000) := by
      rw [hz, hρ, div_mul_eq_mul_div, div_le_div_iff_of_pos_right (by linarith)]
      linarith [(eta_range x).2]
    have b' : ρ * |E| ≤ 1 / 100 + ρ * (24 / 10000) := by
      have : |ρ * E| ≤ |ρ * E - z| + z := by
        have := abs_add_le (ρ * E - z) z
        rw [sub_add_cancel, abs_of_nonneg hz0] at this
        exact this
      rw [abs_mul, abs_of_nonneg (by linarith)] at this
      linarith
    by_contra hc
    push Not at hc
    nlinarith
  · intro a
    have hfar5 : 5 ≤ far tc w := le_max_right _ _
    have hup := hp.up; have hdown := hp.down
    rw [← hE] at hup hdown
    have hEabs : |E| ≤ far tc w := by rw [abs_le]; constructor <;> linarith
    -- no overshoot to the left for a root above the melting point
    have hover : 0 ≤ w → 0 ≤ A → 0 ≤ E → 0 ≤ (1 - ρ) * E + z := by
      intro a1 a2 a3
      have : ρ ≤ 1 := by rw [hρ, div_le_one (by linarith)]; linarith [h8 a2 a3 a1]
      have := mul_nonneg (sub_nonneg.mpr this) a3
      linarith
    have hneg : E < 0 → |(1 - ρ) * E + z| ≤ 5 := by
      intro a1
      have : |E| ≤ 5 := by rw [abs_le]; constructor <;> linarith
      linarith
    have hprev := hp.prev
    rw [← hA] at hprev
    have hxp : x - p = E - A := by rw [hE, hA]; ring
    rw [hxp] at hprev
    refine ⟨?_, ?_, ?_, ?_, ?_⟩
    · rw [hnext]
      have := (le_abs_self _).trans hc1
      linarith
    · rw [hnext]
      rcases lt_or_ge E 0 with a1 | a1
      · exact (abs_le.mp (hneg a1)).1
      rcases hprev with a2 | a2
      · rcases lt_or_ge w 0 with a3 | a3
        · have a4 := h.far_cold a3
          have a5 : ρ ≤ 6 / 5 := by rw [hρ, div_le_iff₀ (by linarith)]; linarith [h7 a2.1]
          nlinarith
        · linarith [hover a3 a2.1 a1]
      · -- bracketed root
        have hbr : A ≤ (1 - ρ) * E + z := by
          have hbp : bal ψ tc e p ≤ 0 := by
            have hm := cont_mono (u := p) (v := w) (by linarith [h.w_ge]) (by linarith)
            have hr := h.root
            simp only [bal] at hr ⊢
            nlinarith [h.psych]
          have e1 : s * ((1 - ρ) * E + z - A) = -res ψ tc e p := by
            have : res ψ tc e p = res ψ tc e x - s * (x - p) := by linarith
            rw [this, hxp]
            simp only [res, h1, ← hE]
            rw [hρ, hz]
            field_simp
            ring
          have e2 : 0 ≤ -res ψ tc e p := by
            simp only [res]; linarith [(eta_range p).1]
          rw [← e1] at e2
          have := nonneg_of_mul_nonneg_right e2 (by linarith)
          linarith
        have : -(9 / 10) * E ≤ (1 - ρ) * E := mul_le_mul_of_nonneg_right (by linarith) a1
        rcases le_or_gt E (11 / 2) with a3 | a3 <;> linarith
    · rw [← hE]
      rcases lt_or_ge E 0 with a1 | a1
      · refine Or.inr ⟨by linarith, a1, ?_⟩
        have e1 : x - delta ψ tc e p x - x = ((1 - ρ) * E + z) - E := by rw [← hnext, hE]; ring
        rw [e1]
        linarith [(abs_le.mp (hneg a1)).2]
      · exact Or.inl ⟨a1, hup⟩
    · intro a1 a2
      rw [← hE]
      have a3 : (1 - ρ) * E + z < 0 := by rw [← hnext]; linarith
      rcases hprev with a4 | a4
      · by_contra hc
        push Not at hc
        linarith [hover a1 a4.1 (by linarith)]
      · linarith
    · rw [show x - delta ψ tc e p x - x = -delta ψ tc e p x by ring, abs_neg]
      exact a.le

end Verif.WetBulb
