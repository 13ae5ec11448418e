import Verif.Model.Atmosphere
import Verif.Model.SurfaceTemp
import Mathlib.Analysis.Convex.Deriv
import Mathlib.Analysis.SpecialFunctions.ExpDeriv
import Mathlib.Analysis.Complex.ExponentialBounds

/-!
# Saturation humidity as a function of temperature: slopes and convexity
-/

namespace Verif.SatHumidity

open Verif.Atmosphere (T0 Over svp svpOver specificHumidity)

/-- Magnus formula. -/
noncomputable def E (o : Over) (t : ℝ) : ℝ := o.a * Real.exp (o.b * (t - T0) / (o.c + (t - T0)))

/-- Its derivative. -/
noncomputable def dE (o : Over) (t : ℝ) : ℝ := E o t * (o.b * o.c / (o.c + (t - T0)) ^ 2)

/-- Specific humidity of saturated air over a surface. -/
noncomputable def Q (o : Over) (p t : ℝ) : ℝ := 622 / 1000 * E o t / (p - 378 / 1000 * E o t)

/-- Its derivative. -/
noncomputable def dQ (o : Over) (p t : ℝ) : ℝ := 622 / 1000 * p * dE o t * ((p - 378 / 1000 * E o t) ^ 2)⁻¹

theorem a_pos (o : Over) : 0 < o.a := by cases o <;> norm_num [Over.a]
theorem b_pos (o : Over) : 0 < o.b := by cases o <;> norm_num [Over.b]
theorem c_pos (o : Over) : 0 < o.c := by cases o <;> norm_num [Over.c]

theorem E_pos (o : Over) (t : ℝ) : 0 < E o t := mul_pos (a_pos o) (Real.exp_pos _)

theorem E_T0 (o : Over) : E o T0 = o.a := by simp [E]

theorem dE_pos (o : Over) {t : ℝ} (ht : 0 < o.c + (t - T0)) : 0 < dE o t := by
  have := E_pos o t; have := b_pos o; have := c_pos o
  unfold dE; positivity

theorem hasDerivAt_E (o : Over) {t : ℝ} (ht : 0 < o.c + (t - T0)) : HasDerivAt (E o) (dE o t) t := by
  have h1 : HasDerivAt (fun t : ℝ => o.b * (t - T0)) o.b t := by
    simpa using ((hasDerivAt_id t).sub_const T0).const_mul o.b
  have h2 : HasDerivAt (fun t : ℝ => o.c + (t - T0)) 1 t := by
    simpa using ((hasDerivAt_id t).sub_const T0).const_add o.c
  have h3 := ((h1.div h2 ht.ne').exp).const_mul o.a
  refine h3.congr_deriv ?_
  unfold dE E
  simp only [Pi.div_apply]
  field_simp
  ring

theorem hasDerivAt_dE (o : Over) {t : ℝ} (ht : 0 < o.c + (t - T0)) :
    HasDerivAt (dE o) (E o t * (o.b * o.c / (o.c + (t - T0)) ^ 4) * (o.b * o.c - 2 * (o.c + (t - T0)))) t := by
  have h2 : HasDerivAt (fun t : ℝ => (o.c + (t - T0)) ^ 2) (2 * (o.c + (t - T0))) t := by
    have h1 : HasDerivAt (fun t : ℝ => o.c + (t - T0)) 1 t := by
      simpa using ((hasDerivAt_id t).sub_const T0).const_add o.c
    exact (h1.pow 2).congr_deriv (by norm_num)
  have h3 := (hasDerivAt_const t (o.b * o.c)).div h2 (pow_pos ht 2).ne'
  have h4 := (hasDerivAt_E o ht).mul h3
  refine h4.congr_deriv ?_
  simp only [dE, Pi.div_apply]
  field_simp
  ring

/-- Where the formulas are used: right of the pole, where the curve is convex, below boiling. -/
structure Range (o : Over) (p l u : ℝ) : Prop where
  low : 0 < o.c + (l - T0)
  high : 2 * (o.c + (u - T0)) ≤ o.b * o.c
  boil : 378 / 1000 * E o u < p

variable {o : Over} {p l u : ℝ}

theorem E_mono (h : 0 < o.c + (l - T0)) : MonotoneOn (E o) (Set.Ici l) := by
  refine monotoneOn_of_deriv_nonneg (convex_Ici l) (fun t ht => ?_) (fun t ht => ?_) (fun t ht => ?_)
  · exact (hasDerivAt_E o (by have := Set.mem_Ici.1 ht; linarith)).continuousAt.continuousWithinAt
  · rw [interior_Ici] at ht
    exact (hasDerivAt_E o (by have := Set.mem_Ioi.1 ht; linarith)).differentiableAt.differentiableWithinAt
  · rw [interior_Ici] at ht
    have h' : 0 < o.c + (t - T0) := by have := Set.mem_Ioi.1 ht; linarith
    rw [(hasDerivAt_E o h').deriv]
    exact (dE_pos o h').le

theorem dE_mono (h : Range o p l u) : MonotoneOn (dE o) (Set.Icc l u) := by
  have hlow := h.low
  have hhigh := h.high
  refine monotoneOn_of_deriv_nonneg (convex_Icc l u) (fun t ht => ?_) (fun t ht => ?_) (fun t ht => ?_)
  · exact (hasDerivAt_dE o (by have := ht.1; linarith)).continuousAt.continuousWithinAt
  · rw [interior_Icc] at ht
    exact (hasDerivAt_dE o (by have := ht.1; linarith)).differentiableAt.differentiableWithinAt
  · rw [interior_Icc] at ht
    have h' : 0 < o.c + (t - T0) := by have := ht.1; linarith
    rw [(hasDerivAt_dE o h').deriv]
    have := E_pos o t; have := b_pos o; have := c_pos o
    have h2 : 0 ≤ o.b * o.c - 2 * (o.c + (t - T0)) := by have := ht.2; linarith
    positivity

theorem below (h : Range o p l u) {t : ℝ} (ht : t ∈ Set.Icc l u) : 0 < p - 378 / 1000 * E o t := by
  have := E_mono h.low (Set.mem_Ici.2 ht.1) (Set.mem_Ici.2 (ht.1.trans ht.2)) ht.2
  have := h.boil
  linarith

theorem hasDerivAt_Q (h : Range o p l u) {t : ℝ} (ht : t ∈ Set.Icc l u) : HasDerivAt (Q o p) (dQ o p t) t := by
  have h' : 0 < o.c + (t - T0) := by have := h.low; have := ht.1; linarith
  have hb := below h ht
  have h1 := (hasDerivAt_E o h').const_mul (622 / 1000 : ℝ)
  have h2 : HasDerivAt (fun t => p - 378 / 1000 * E o t) (-(378 / 1000 * dE o t)) t := by
    simpa using ((hasDerivAt_E o h').const_mul (378 / 1000 : ℝ)).const_sub p
  refine (h1.div h2 hb.ne').congr_deriv ?_
  unfold dQ
  field_simp
  ring

theorem dQ_mono (h : Range o p l u) : MonotoneOn (dQ o p) (Set.Icc l u) := by
  intro x hx y hy hxy
  have hp : 0 < p := by
    have := below h hx; have := E_pos o x; linarith
  have h1 := dE_mono h hx hy hxy
  have h2 := E_mono h.low (Set.mem_Ici.2 hx.1) (Set.mem_Ici.2 hy.1) hxy
  have hb := below h hy
  have hx0 : 0 < dE o x := dE_pos o (by have := h.low; have := hx.1; linarith)
  unfold dQ
  have h3 : ((p - 378 / 1000 * E o x) ^ 2)⁻¹ ≤ ((p - 378 / 1000 * E o y) ^ 2)⁻¹ := by
    apply inv_anti₀ (by positivity)
    apply pow_le_pow_left₀ hb.le
    linarith
  apply mul_le_mul _ h3 (by positivity) (by nlinarith)
  exact mul_le_mul_of_nonneg_left h1 (by positivity)

theorem dQ_pos (h : Range o p l u) {t : ℝ} (ht : t ∈ Set.Icc l u) : 0 < dQ o p t := by
  have hb := below h ht
  have hp : 0 < p := by have := E_pos o t; linarith
  have : 0 < dE o t := dE_pos o (by have := h.low; have := ht.1; linarith)
  unfold dQ; positivity

theorem Q_convex (h : Range o p l u) : ConvexOn ℝ (Set.Icc l u) (Q o p) := by
  refine MonotoneOn.convexOn_of_deriv (convex_Icc l u) (fun t ht => ?_) (fun t ht => ?_) ?_
  · exact (hasDerivAt_Q h ht).continuousAt.continuousWithinAt
  · rw [interior_Icc] at ht
    exact (hasDerivAt_Q h ⟨ht.1.le, ht.2.le⟩).differentiableAt.differentiableWithinAt
  · intro x hx y hy hxy
    rw [interior_Icc] at hx hy
    rw [(hasDerivAt_Q h ⟨hx.1.le, hx.2.le⟩).deriv, (hasDerivAt_Q h ⟨hy.1.le, hy.2.le⟩).deriv]
    exact dQ_mono h ⟨hx.1.le, hx.2.le⟩ ⟨hy.1.le, hy.2.le⟩ hxy

theorem Q_continuous (h : Range o p l u) : ContinuousOn (Q o p) (Set.Icc l u) :=
  fun _ ht => (hasDerivAt_Q h ht).continuousAt.continuousWithinAt

theorem Q_nonneg (h : Range o p l u) {t : ℝ} (ht : t ∈ Set.Icc l u) : 0 < Q o p t := by
  have hb := below h ht
  have := E_pos o t
  unfold Q; positivity

/-- Slopes lie between the derivatives at the ends. -/
theorem Q_slope (h : Range o p l u) {x y : ℝ} (hx : x ∈ Set.Icc l u) (hy : y ∈ Set.Icc l u) (hxy : x ≤ y) :
    dQ o p l * (y - x) ≤ Q o p y - Q o p x ∧ Q o p y - Q o p x ≤ dQ o p u * (y - x) := by
  have hlu : l ≤ u := hx.1.trans hx.2
  have hd : DifferentiableOn ℝ (Q o p) (interior (Set.Icc l u)) := fun t ht => by
    rw [interior_Icc] at ht
    exact (hasDerivAt_Q h ⟨ht.1.le, ht.2.le⟩).differentiableAt.differentiableWithinAt
  constructor
  · refine (convex_Icc l u).mul_sub_le_image_sub_of_le_deriv (Q_continuous h) hd (fun t ht => ?_) x hx y hy hxy
    rw [interior_Icc] at ht
    rw [(hasDerivAt_Q h ⟨ht.1.le, ht.2.le⟩).deriv]
    exact dQ_mono h (Set.left_mem_Icc.2 hlu) ⟨ht.1.le, ht.2.le⟩ ht.1.le
  · refine (convex_Icc l u).image_sub_le_mul_sub_of_deriv_le (Q_continuous h) hd (fun t ht => ?_) x hx y hy hxy
    rw [interior_Icc] at ht
    rw [(hasDerivAt_Q h ⟨ht.1.le, ht.2.le⟩).deriv]
    exact dQ_mono h ⟨ht.1.le, ht.2.le⟩ (Set.right_mem_Icc.2 hlu) ht.2.le

/-- Raising a convex function at the right end of its interval leaves it convex. -/
theorem convex_raise {f g : ℝ → ℝ} {a b : ℝ} (hf : ConvexOn ℝ (Set.Icc a b) f) (he : ∀ t ∈ Set.Ico a b, g t = f t)
    (hb : f b ≤ g b) : ConvexOn ℝ (Set.Icc a b) g := by
  have hge : ∀ t ∈ Set.Icc a b, f t ≤ g t := by
    intro t ht
    rcases ht.2.eq_or_lt with e | e
    · rw [e]; exact hb
    · exact (he t ⟨ht.1, e⟩).ge
  refine ⟨convex_Icc a b, fun x hx y hy s r hs hr hsr => ?_⟩
  have hm := convex_Icc a b hx hy hs hr hsr
  rcases hm.2.eq_or_lt with e | e
  · -- at the end
    simp only [smul_eq_mul] at e ⊢
    have hs1 : s = 1 - r := by linarith
    subst hs1
    have h1 : (1 - r) * (b - x) = 0 ∧ r * (b - y) = 0 := by
      have p1 : 0 ≤ (1 - r) * (b - x) := mul_nonneg hs (by linarith [hx.2])
      have p2 : 0 ≤ r * (b - y) := mul_nonneg hr (by linarith [hy.2])
      constructor <;> nlinarith
    rw [e]
    have q1 : (1 - r) * g x = (1 - r) * g b := by
      rcases mul_eq_zero.1 h1.1 with h | h
      · rw [h]; ring
      · rw [show x = b by linarith]
    have q2 : r * g y = r * g b := by
      rcases mul_eq_zero.1 h1.2 with h | h
      · rw [h]; ring
      · rw [show y = b by linarith]
    rw [q1, q2]
    exact le_of_eq (by ring)
  · rw [he _ ⟨hm.1, e⟩]
    refine (hf.2 hx hy hs hr hsr).trans ?_
    simp only [smul_eq_mul]
    exact add_le_add (mul_le_mul_of_nonneg_left (hge x hx) hs) (mul_le_mul_of_nonneg_left (hge y hy) hr)

end Verif.SatHumidity
