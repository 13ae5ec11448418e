import Verif.Lemmas.Terrain
import Mathlib.Tactic.Positivity
import Mathlib.Tactic.NormNum
import Mathlib.Tactic.IntervalCases

/-!
# Slope, aspect, surface normals and curvature (C67-C69)
-/

set_option linter.unusedSectionVars false

namespace Verif.Terrain

open Real

/-! ## Specification -/

/-- Elevation on an `n × m` raster rises by `a` per column to the east and by `b` per row to the south. -/
def IsPlane {K : Type*} [Field K] (n m : ℕ) (d : ℕ → ℕ → K) (a b c : K) : Prop :=
  ∀ i j, i < n → j < m → d i j = c + a * j + b * i

/-- `az` (degrees) is the azimuth of the direction with the given components to the east and north. -/
def IsAzimuth (az east north : ℝ) : Prop :=
  0 ≤ az ∧ az < 360 ∧ ∃ r, 0 < r ∧ east = r * sin (az * (π / 180)) ∧ north = r * cos (az * (π / 180))

/-- A cell not on the border. -/
def Interior (n m i j : ℕ) : Prop := 0 < i ∧ i + 1 < n ∧ 0 < j ∧ j + 1 < m

/-! ## C67 -/

section gradient
variable {K : Type*} [Field K] [LinearOrder K] [IsStrictOrderedRing K]

/-- **C67.** The gradient of a plane: exact, but halved across the western and eastern border (east-west
component) and the northern and southern border (north-south component). -/
theorem C67_plane_gradient {n m i j : ℕ} (hn : 3 ≤ n) (hm : 3 ≤ m) (hi : i < n) (hj : j < m)
    {res a b c : K} (hr : 0 < res) {d : ℕ → ℕ → K} (hd : IsPlane n m d a b c) :
    dzdx n m res d i j = (if j = 0 ∨ j + 1 = m then 1 / 2 else 1) * (a / res) ∧
    dzdy n m res d i j = (if i = 0 ∨ i + 1 = n then 1 / 2 else 1) * (b / res) := by
  have hr' := hr.ne'
  have e1 : (((min j (m - 2) + 1 : ℕ) : K)) - ((max j 1 - 1 : ℕ) : K) =
      if j = 0 ∨ j + 1 = m then 1 else 2 := by
    split_ifs with h
    · have : min j (m - 2) + 1 = (max j 1 - 1) + 1 := by omega
      rw [this]; push_cast; ring
    · have : min j (m - 2) + 1 = (max j 1 - 1) + 2 := by omega
      rw [this]; push_cast; ring
  have e2 : (((min i (n - 2) + 1 : ℕ) : K)) - ((max i 1 - 1 : ℕ) : K) =
      if i = 0 ∨ i + 1 = n then 1 else 2 := by
    split_ifs with h
    · have : min i (n - 2) + 1 = (max i 1 - 1) + 1 := by omega
      rw [this]; push_cast; ring
    · have : min i (n - 2) + 1 = (max i 1 - 1) + 2 := by omega
      rw [this]; push_cast; ring
  constructor
  · rw [dzdx, za_eq hn hm hi hj, zc_eq hn hm hi hj, zd_eq hn hm hi hj, zf_eq hn hm hi hj,
      zg_eq hn hm hi hj, zi_eq hn hm hi hj]
    rw [hd _ _ (by omega) (by omega), hd _ _ (by omega) (by omega), hd _ _ (by omega) (by omega),
      hd _ _ (by omega) (by omega), hd _ _ (by omega) (by omega), hd _ _ (by omega) (by omega)]
    have : ∀ x y p q r : K, x - y = (if j = 0 ∨ j + 1 = m then 1 else 2) →
        ((c + a * x + b * p + 2 * (c + a * x + b * q) + (c + a * x + b * r)) -
          (c + a * y + b * p + 2 * (c + a * y + b * q) + (c + a * y + b * r))) / (8 * res) =
        (if j = 0 ∨ j + 1 = m then 1 / 2 else 1) * (a / res) := by
      intro x y p q r h
      have hx : x = y + (if j = 0 ∨ j + 1 = m then 1 else 2) := by rw [← h]; ring
      rw [hx]; split_ifs <;> field_simp <;> ring
    exact this _ _ _ _ _ e1
  · rw [dzdy, za_eq hn hm hi hj, zc_eq hn hm hi hj, zb_eq hn hm hi hj, zh_eq hn hm hi hj,
      zg_eq hn hm hi hj, zi_eq hn hm hi hj]
    rw [hd _ _ (by omega) (by omega), hd _ _ (by omega) (by omega), hd _ _ (by omega) (by omega),
      hd _ _ (by omega) (by omega), hd _ _ (by omega) (by omega), hd _ _ (by omega) (by omega)]
    have : ∀ x y p q r : K, x - y = (if i = 0 ∨ i + 1 = n then 1 else 2) →
        ((c + a * p + b * x + 2 * (c + a * q + b * x) + (c + a * r + b * x)) -
          (c + a * p + b * y + 2 * (c + a * q + b * y) + (c + a * r + b * y))) / (8 * res) =
        (if i = 0 ∨ i + 1 = n then 1 / 2 else 1) * (b / res) := by
      intro x y p q r h
      have hx : x = y + (if i = 0 ∨ i + 1 = n then 1 else 2) := by rw [← h]; ring
      rw [hx]; split_ifs <;> field_simp <;> ring
    exact this _ _ _ _ _ e2

example : IsPlane (K := ℚ) 3 4 (fun i j => 100 + 5 * j - 2 * i) 5 (-2) 100 ∧
    dzdx (K := ℚ) 3 4 10 (fun i j => 100 + 5 * j - 2 * i) 1 1 = 1 / 2 ∧
    dzdx (K := ℚ) 3 4 10 (fun i j => 100 + 5 * j - 2 * i) 1 0 = 1 / 4 :=
  ⟨fun i j _ _ => by ring, by decide +kernel, by decide +kernel⟩

end gradient

theorem slopeOf_range (gx gy : ℝ) : 0 ≤ slopeOf gx gy ∧ slopeOf gx gy < 90 := by
  have h0 : 0 ≤ arctan (sqrt (gx ^ 2 + gy ^ 2)) := arctan_nonneg.2 (sqrt_nonneg _)
  have h1 := arctan_lt_pi_div_two (sqrt (gx ^ 2 + gy ^ 2))
  have hp := pi_pos
  refine ⟨by unfold slopeOf deg; positivity, ?_⟩
  unfold slopeOf deg
  rw [← mul_div_assoc, div_lt_iff₀ hp]; linarith

theorem deg_rad (x : ℝ) : deg x * (π / 180) = x := by
  unfold deg; field_simp

theorem aspect_azimuth (gx gy : ℝ) (hg : ¬(gx = 0 ∧ gy = 0)) : IsAzimuth (aspectOf gx gy) (-gx) gy := by
  have hz : (⟨-gx, gy⟩ : ℂ) ≠ 0 := fun h => hg
    ⟨by simpa using congrArg Complex.re h, by simpa using congrArg Complex.im h⟩
  obtain ⟨θ, hθ⟩ : ∃ θ, Complex.arg ⟨-gx, gy⟩ = θ := ⟨_, rfl⟩
  have hlo : -π < θ := hθ ▸ Complex.neg_pi_lt_arg _
  have hhi : θ ≤ π := hθ ▸ Complex.arg_le_pi _
  have hp := pi_pos
  have dlo : -180 < deg θ := by
    unfold deg; rw [← mul_div_assoc, lt_div_iff₀ hp]; linarith
  have dhi : deg θ ≤ 180 := by
    unfold deg; rw [← mul_div_assoc, div_le_iff₀ hp]; linarith
  have hc : cos θ = -gx / ‖(⟨-gx, gy⟩ : ℂ)‖ := by rw [← hθ, Complex.cos_arg hz]
  have hs : sin θ = gy / ‖(⟨-gx, gy⟩ : ℂ)‖ := by rw [← hθ, Complex.sin_arg]
  have hr : 0 < ‖(⟨-gx, gy⟩ : ℂ)‖ := norm_pos_iff.2 hz
  have key : ∀ az, (az * (π / 180) = π / 2 - θ ∨ az * (π / 180) = π / 2 - θ + 2 * π) →
      0 ≤ az → az < 360 → IsAzimuth az (-gx) gy := by
    intro az h h0 h1
    refine ⟨h0, h1, _, hr, ?_, ?_⟩
    · rcases h with h | h <;> rw [h] <;> (try rw [sin_add_two_pi]) <;> rw [sin_pi_div_two_sub, hc] <;>
        field_simp
    · rcases h with h | h <;> rw [h] <;> (try rw [cos_add_two_pi]) <;> rw [cos_pi_div_two_sub, hs] <;>
        field_simp
  have hd := deg_rad θ
  unfold aspectOf
  simp only [hθ]
  split_ifs with h1 h2
  · exact key _ (Or.inl (by rw [sub_mul, hd]; ring)) (by linarith) (by linarith)
  · exact key _ (Or.inr (by rw [add_mul, sub_mul, hd]; ring)) (by linarith) (by linarith)
  · push Not at h1 h2
    exact key _ (Or.inl (by rw [sub_mul, hd]; ring)) (by linarith) (by linarith)

/-- **C67.** Slope in `[0, 90)`, zero exactly for a vanishing gradient; otherwise the aspect is the azimuth,
in `[0, 360)`, of the direction of steepest descent. -/
theorem C67_range {n m : ℕ} (hn : 3 ≤ n) (hm : 3 ≤ m) (res : ℝ) (d : ℕ → ℕ → ℝ) (i j : ℕ) :
    let s := slopeAspect n m res d i j
    let gx := dzdx n m res d i j
    let gy := dzdy n m res d i j
    0 ≤ s.1 ∧ s.1 < 90 ∧ (s.1 = 0 ↔ gx = 0 ∧ gy = 0) ∧
    (¬(gx = 0 ∧ gy = 0) → ∃ az, s.2 = some az ∧ IsAzimuth az (-gx) gy) := by
  intro s gx gy
  have hs : s = (slopeOf gx gy, some (aspectOf gx gy)) := by
    simp only [s, slopeAspect]; rw [if_neg (by omega)]
  rw [hs]
  refine ⟨(slopeOf_range _ _).1, (slopeOf_range _ _).2, ?_, fun h => ⟨_, rfl, aspect_azimuth _ _ h⟩⟩
  have hp : (180 / π) ≠ 0 := by have := pi_pos; positivity
  simp only [slopeOf, deg, mul_eq_zero, hp, or_false, arctan_eq_zero_iff]
  rw [sqrt_eq_zero (by positivity)]
  constructor
  · intro h
    have h1 := sq_nonneg gx; have h2 := sq_nonneg gy
    exact ⟨pow_eq_zero_iff (two_ne_zero) |>.1 (by linarith), pow_eq_zero_iff (two_ne_zero) |>.1 (by linarith)⟩
  · rintro ⟨h1, h2⟩; rw [h1, h2]; norm_num

/-- **C67 (partial).** Away from the border, slope and aspect of a plane are exact. The full claim, for every
cell, is false: see `C67_border_false`. -/
theorem C67_plane_interior_partial {n m i j : ℕ} (hij : Interior n m i j) {res a b c : ℝ} (hr : 0 < res)
    {d : ℕ → ℕ → ℝ} (hd : IsPlane n m d a b c) (hab : ¬(a = 0 ∧ b = 0)) :
    ∃ s az, slopeAspect n m res d i j = (s, some az) ∧ 0 ≤ s ∧ s < 90 ∧
      tan (s * (π / 180)) = sqrt ((a / res) ^ 2 + (b / res) ^ 2) ∧ IsAzimuth az (-(a / res)) (b / res) := by
  obtain ⟨h1, h2, h3, h4⟩ := hij
  obtain ⟨hx, hy⟩ := C67_plane_gradient (show 3 ≤ n by omega) (show 3 ≤ m by omega) (show i < n by omega)
    (show j < m by omega) hr hd
  rw [if_neg (by omega), one_mul] at hx hy
  refine ⟨_, _, by rw [slopeAspect, if_neg (by omega)], (slopeOf_range _ _).1, (slopeOf_range _ _).2, ?_, ?_⟩
  · rw [slopeOf, deg_rad, tan_arctan, hx, hy]
  · rw [hx, hy]
    refine aspect_azimuth _ _ fun h => hab ?_
    simpa [hr.ne'] using h

example : Interior 3 3 1 1 ∧ IsPlane (K := ℝ) 3 3 (fun i j => 100 + 5 * j + -2 * i) 5 (-2) 100 :=
  ⟨by unfold Interior; omega, fun i j _ _ => rfl⟩

/-- **C67 (negated).** On the western and eastern border the slope of every plane inclined east-west is too
small: the claim that slopes of planes are exact at every cell fails. -/
theorem C67_border_false {n m i j : ℕ} (hn : 3 ≤ n) (hm : 3 ≤ m) (hi : i < n) (hj : j = 0 ∨ j + 1 = m)
    {res a c : ℝ} (hr : 0 < res) (ha : a ≠ 0) {d : ℕ → ℕ → ℝ} (hd : IsPlane n m d a 0 c) :
    tan ((slopeAspect n m res d i j).1 * (π / 180)) = |a / res| / 2 ∧
    (slopeAspect n m res d i j).1 * (π / 180) < arctan |a / res| := by
  obtain ⟨hx, hy⟩ := C67_plane_gradient hn hm hi (show j < m by omega) hr hd
  rw [if_pos hj] at hx
  rw [zero_div, mul_zero] at hy
  have hs : (slopeAspect n m res d i j).1 * (π / 180) = arctan (|a / res| / 2) := by
    rw [slopeAspect, if_neg (by omega)]
    simp only [slopeOf]
    rw [deg_rad, hx, hy]
    congr 1
    rw [show ((1 / 2 * (a / res)) ^ 2 + (0 : ℝ) ^ 2) = (a / res / 2) ^ 2 by ring, sqrt_sq_eq_abs, abs_div]
    norm_num
  have hpos : 0 < |a / res| := abs_pos.2 (div_ne_zero ha hr.ne')
  rw [hs, tan_arctan]
  exact ⟨rfl, arctan_strictMono (by linarith)⟩

example : IsPlane (K := ℝ) 3 3 (fun _ j => 7 + 5 * j + 0) 5 0 7 := fun i j _ _ => by ring

/-- **C67 is false on narrow grids.** With fewer than three rows or columns every pixel is flat and without aspect,
also on a tilted plane. -/
theorem C67_narrow_false {n m : ℕ} (h : n < 3 ∨ m < 3) (res : ℝ) (d : ℕ → ℕ → ℝ) (i j : ℕ) :
    slopeAspect n m res d i j = (0, none) ∧
    ∃ d' : ℕ → ℕ → ℝ, IsPlane n m d' 1 0 0 ∧ slopeAspect n m res d' i j = (0, none) :=
  ⟨by rw [slopeAspect, if_pos h], fun _ k => k, by intro a b _ _; simp, by rw [slopeAspect, if_pos h]⟩

/-- **C67.** Adding a constant to the DEM changes neither slope nor aspect. -/
theorem C67_offset (n m : ℕ) (res c : ℝ) (d : ℕ → ℕ → ℝ) (i j : ℕ) :
    slopeAspect n m res (fun i j => d i j + c) i j = slopeAspect n m res d i j := by
  have h1 : dzdx n m res (fun i j => d i j + c) i j = dzdx n m res d i j := by
    simp only [dzdx, za, zc, zd, zf, zg, zi, copyRow, copyCol, rollRows, rollCols]
    congr 1; split_ifs <;> ring
  have h2 : dzdy n m res (fun i j => d i j + c) i j = dzdy n m res d i j := by
    simp only [dzdy, za, zc, zb, zh, zg, zi, copyRow, copyCol, rollRows, rollCols]
    congr 1; split_ifs <;> ring
  simp only [slopeAspect, h1, h2]

/-! ## C68 -/

/-- Dot product. -/
def dot3 (u v : ℝ × ℝ × ℝ) : ℝ := u.1 * v.1 + u.2.1 * v.2.1 + u.2.2 * v.2.2

theorem rawNormal_z (n m : ℕ) (res : ℝ) (d : ℕ → ℕ → ℝ) (i j : ℕ) :
    (rawNormal n m res d i j).2.2 = res ^ 2 := by
  simp only [rawNormal, copyCol, copyRow]; split_ifs <;> rfl

/-- **C68.** Normal vectors have unit length and point upwards. -/
theorem C68_unit_upward (n m : ℕ) {res : ℝ} (hr : 0 < res) (d : ℕ → ℕ → ℝ) (i j : ℕ) :
    dot3 (normalVector n m res d i j) (normalVector n m res d i j) = 1 ∧
    0 < (normalVector n m res d i j).2.2 := by
  unfold normalVector
  split_ifs with h
  · norm_num [dot3]
  · obtain ⟨v, hv⟩ : ∃ v, rawNormal n m res d i j = v := ⟨_, rfl⟩
    have hz : v.2.2 = res ^ 2 := hv ▸ rawNormal_z n m res d i j
    simp only [hv]
    have hz0 : 0 < v.2.2 := by rw [hz]; positivity
    have hs : 0 < v.1 ^ 2 + v.2.1 ^ 2 + v.2.2 ^ 2 := by positivity
    have hq := sqrt_pos.2 hs
    refine ⟨?_, div_pos hz0 hq⟩
    simp only [dot3]
    have := sq_sqrt hs.le
    field_simp
    linarith

/-- **C68.** The normal of a plane is exact at every cell, including the border: it is the upward unit vector
orthogonal to both directions of the plane (components to the east, north and up). -/
theorem C68_plane {n m i j : ℕ} (hn : 3 ≤ n) (hm : 3 ≤ m) (hi : i < n) (hj : j < m) {res a b c : ℝ}
    (hr : 0 < res) {d : ℕ → ℕ → ℝ} (hd : IsPlane n m d a b c) :
    let g := sqrt (1 + (a / res) ^ 2 + (b / res) ^ 2)
    normalVector n m res d i j = (-(a / res) / g, b / res / g, 1 / g) ∧
    dot3 (normalVector n m res d i j) (res, 0, a) = 0 ∧
    dot3 (normalVector n m res d i j) (0, -res, b) = 0 := by
  intro g
  have hraw : rawNormal n m res d i j = (res ^ 2 * -(a / res), res ^ 2 * (b / res), res ^ 2) := by
    have h := rawNormal_eq hn hm hi hj d res
    simp only at h
    rw [h, hd _ _ (by omega) (by omega), hd _ _ (by omega) (by omega), hd _ _ (by omega) (by omega),
      hd _ _ (by omega) (by omega)]
    have e : ((max i 1 : ℕ) : ℝ) = ((max i 1 - 1 : ℕ) : ℝ) + 1 := by
      rw [← Nat.cast_add_one]; congr 1; omega
    generalize ((max i 1 - 1 : ℕ) : ℝ) = p at *
    rw [e]; push_cast
    generalize (min (j : ℝ) ((m - 2 : ℕ) : ℝ)) = q
    have hr' := hr.ne'
    refine Prod.ext ?_ (Prod.ext ?_ rfl) <;> simp only <;> field_simp <;> ring
  have hg : 0 < g := sqrt_pos.2 (by positivity)
  have hlen : sqrt ((res ^ 2 * -(a / res)) ^ 2 + (res ^ 2 * (b / res)) ^ 2 + (res ^ 2) ^ 2) = res ^ 2 * g := by
    rw [show (res ^ 2 * -(a / res)) ^ 2 + (res ^ 2 * (b / res)) ^ 2 + (res ^ 2) ^ 2 =
      (res ^ 2) ^ 2 * (1 + (a / res) ^ 2 + (b / res) ^ 2) by ring, sqrt_mul (by positivity),
      sqrt_sq (by positivity)]
  have hv : normalVector n m res d i j = (-(a / res) / g, b / res / g, 1 / g) := by
    unfold normalVector
    rw [if_neg (by omega)]
    simp only [hraw, hlen]
    have hr2 : (res ^ 2) ≠ 0 := by positivity
    refine Prod.ext ?_ (Prod.ext ?_ ?_) <;> simp only
    · exact mul_div_mul_left _ _ hr2
    · exact mul_div_mul_left _ _ hr2
    · rw [← mul_div_mul_left 1 g hr2, mul_one]
  refine ⟨hv, ?_, ?_⟩ <;> rw [hv] <;> simp only [dot3] <;> have hr' := hr.ne' <;> field_simp <;> ring

/-- **C68.** Slope and aspect agree with the normal: in the interior of a plane the normal is
`(sin s sin az, sin s cos az, cos s)`. -/
theorem C68_agrees {n m i j : ℕ} (hij : Interior n m i j) {res a b c : ℝ} (hr : 0 < res)
    {d : ℕ → ℕ → ℝ} (hd : IsPlane n m d a b c) (hab : ¬(a = 0 ∧ b = 0)) :
    ∃ s az, slopeAspect n m res d i j = (s, some az) ∧
      normalVector n m res d i j =
        (sin (s * (π / 180)) * sin (az * (π / 180)), sin (s * (π / 180)) * cos (az * (π / 180)),
          cos (s * (π / 180))) := by
  obtain ⟨s, az, h, hs0, hs90, ht, -, -, r, hr0, he, hnn⟩ := C67_plane_interior_partial hij hr hd hab
  obtain ⟨h1, h2, h3, h4⟩ := hij
  obtain ⟨hv, -, -⟩ := C68_plane (show 3 ≤ n by omega) (show 3 ≤ m by omega) (show i < n by omega)
    (show j < m by omega) hr hd
  refine ⟨s, az, h, ?_⟩
  have hrr : (a / res) ^ 2 + (b / res) ^ 2 = r ^ 2 := by
    rw [show (a / res) ^ 2 = (-(a / res)) ^ 2 by ring, he, hnn]
    have := sin_sq_add_cos_sq (az * (π / 180))
    linear_combination r ^ 2 * this
  rw [hrr, sqrt_sq hr0.le] at ht
  have hx0 : -(π / 2) < s * (π / 180) := by have := pi_pos; nlinarith [mul_nonneg hs0 pi_pos.le]
  have hx1 : s * (π / 180) < π / 2 := by have := pi_pos; nlinarith
  have hsr : s * (π / 180) = arctan r := by rw [← ht, arctan_tan hx0 hx1]
  rw [hv, add_assoc, hrr, hsr, sin_arctan, cos_arctan, he, hnn]
  refine Prod.ext ?_ (Prod.ext ?_ rfl) <;> simp only <;> ring

/-- **C68.** The cosine of incidence lies in `[-1, 1]` and is the sun's height on flat ground. -/
theorem C68_incidence (n m : ℕ) {res : ℝ} (hr : 0 < res) (d : ℕ → ℕ → ℝ) (i j : ℕ) (sun : ℝ × ℝ × ℝ)
    (hs : dot3 sun sun = 1) :
    |incidence sun (normalVector n m res d i j)| ≤ 1 ∧
    (∀ c, 3 ≤ n → 3 ≤ m → i < n → j < m → IsPlane n m d 0 0 c →
      incidence sun (normalVector n m res d i j) = sun.2.2) := by
  obtain ⟨h1, -⟩ := C68_unit_upward n m hr d i j
  obtain ⟨v, hv⟩ : ∃ v, normalVector n m res d i j = v := ⟨_, rfl⟩
  refine ⟨?_, ?_⟩
  · rw [hv] at h1 ⊢
    simp only [dot3, incidence] at *
    rw [abs_le]
    constructor <;>
    nlinarith [sq_nonneg (sun.1 - v.1), sq_nonneg (sun.2.1 + v.2.1), sq_nonneg (sun.2.2 - v.2.2),
      sq_nonneg (sun.1 + v.1), sq_nonneg (sun.2.1 - v.2.1), sq_nonneg (sun.2.2 + v.2.2)]
  · intro c hn hm hi hj hd
    rw [(C68_plane hn hm hi hj hr hd).1]
    simp [incidence]

example : dot3 (0, 3 / 5, 4 / 5) (0, 3 / 5, 4 / 5) = 1 := by norm_num [dot3]

/-- **C68.** The cosine of incidence is that of spherical trigonometry: for a sun at azimuth `az'` (clockwise from north) and
elevation `e` on a slope of inclination `s` and aspect `az` it is `sin e cos s + cos e sin s cos (az' - az)`. -/
theorem C68_slope_incidence {n m i j : ℕ} (hij : Interior n m i j) {res a b c : ℝ} (hr : 0 < res)
    {d : ℕ → ℕ → ℝ} (hd : IsPlane n m d a b c) (hab : ¬(a = 0 ∧ b = 0)) (az' e : ℝ) :
    ∃ s az, slopeAspect n m res d i j = (s, some az) ∧
      incidence (sin az' * cos e, -(cos az' * cos e), sin e) (normalVector n m res d i j) =
        sin e * cos (s * (π / 180)) + cos e * sin (s * (π / 180)) * cos (az' - az * (π / 180)) := by
  obtain ⟨s, az, h1, h2⟩ := C68_agrees hij hr hd hab
  refine ⟨s, az, h1, ?_⟩
  rw [h2, cos_sub]
  simp only [incidence]
  ring

/-! ## C69 -/

/-- **C69.** Curvature vanishes on planes at cells farther than the shift from every border. -/
theorem C69_plane {n m k i j : ℕ} (hi : k ≤ i) (hi' : i + k < n) (hj : k ≤ j) (hj' : j + k < m) (L : ℝ)
    {a b c : ℝ} {d : ℕ → ℕ → ℝ} (hd : IsPlane n m d a b c) : curvature n m k L d i j = 0 := by
  simp only [curvature, shiftEdge, shiftIdx]
  rw [min_eq_left (show i + k ≤ n - 1 by omega), min_eq_left (show j + k ≤ m - 1 by omega)]
  rw [hd i j (by omega) (by omega), hd i (j + k) (by omega) (by omega), hd i (j - k) (by omega) (by omega),
    hd (i + k) j (by omega) (by omega), hd (i - k) j (by omega) (by omega),
    hd (i - k) (j + k) (by omega) (by omega), hd (i + k) (j - k) (by omega) (by omega),
    hd (i + k) (j + k) (by omega) (by omega), hd (i - k) (j - k) (by omega) (by omega)]
  rw [Nat.cast_sub hi, Nat.cast_sub hj]; push_cast
  ring_nf

example : IsPlane (K := ℝ) 5 5 (fun i j => 1 + 2 * j + 3 * i) 2 3 1 := fun _ _ _ _ => rfl

/-- **C69.** Curvature changes sign with the DEM and ignores a constant offset. -/
theorem C69_sign_offset (n m k : ℕ) (L c : ℝ) (d : ℕ → ℕ → ℝ) (i j : ℕ) :
    curvature n m k L (fun i j => -d i j) i j = -curvature n m k L d i j ∧
    curvature n m k L (fun i j => d i j + c) i j = curvature n m k L d i j := by
  constructor <;> simp only [curvature, shiftEdge] <;> ring

/-- **C69.** A cell that no cell within the shift distance exceeds has non-negative curvature, positive if
one of its eight sampled neighbours is lower. -/
theorem C69_summit {n m k i j : ℕ} (hi : i < n) (hj : j < m) {L : ℝ} (hL : 0 < L) {d : ℕ → ℕ → ℝ}
    (h : ∀ p q, p < n → q < m → p ≤ i + k → i ≤ p + k → q ≤ j + k → j ≤ q + k → d p q ≤ d i j) :
    0 ≤ curvature n m k L d i j ∧
    ((∃ dir < 8, shiftEdge n m k dir d i j < d i j) → 0 < curvature n m k L d i j) := by
  have hs : ∀ dir, shiftEdge n m k dir d i j ≤ d i j := by
    intro dir
    unfold shiftEdge
    apply h <;> unfold shiftIdx <;> simp only <;> split <;> simp only <;> omega
  have hq : 0 < sqrt 2 := sqrt_pos.2 (by norm_num)
  have key : curvature n m k L d i j =
      (((d i j - shiftEdge n m k 6 d i j) + (d i j - shiftEdge n m k 2 d i j) +
        (d i j - shiftEdge n m k 4 d i j) + (d i j - shiftEdge n m k 0 d i j)) / (16 * L)) +
      (((d i j - shiftEdge n m k 5 d i j) + (d i j - shiftEdge n m k 1 d i j) +
        (d i j - shiftEdge n m k 7 d i j) + (d i j - shiftEdge n m k 3 d i j)) / (16 * sqrt 2 * L)) := by
    simp only [curvature]; field_simp; ring
  have h0 := hs 0; have h1 := hs 1; have h2 := hs 2; have h3 := hs 3
  have h4 := hs 4; have h5 := hs 5; have h6 := hs 6; have h7 := hs 7
  rw [key]
  refine ⟨add_nonneg (div_nonneg (by linarith) (by positivity)) (div_nonneg (by linarith) (by positivity)), ?_⟩
  rintro ⟨dir, hdir, hlt⟩
  interval_cases dir
  all_goals first
    | exact add_pos_of_pos_of_nonneg (div_pos (by linarith) (by positivity))
        (div_nonneg (by linarith) (by positivity))
    | exact add_pos_of_nonneg_of_pos (div_nonneg (by linarith) (by positivity))
        (div_pos (by linarith) (by positivity))

example : ∀ p q, p < 3 → q < 3 → p ≤ 1 + 1 → 1 ≤ p + 1 → q ≤ 1 + 1 → 1 ≤ q + 1 →
    (fun i j : ℕ => if i = 1 ∧ j = 1 then (9 : ℝ) else 5) p q ≤ 9 := by
  intro p q _ _ _ _ _ _; simp only; split_ifs <;> norm_num

end Verif.Terrain
