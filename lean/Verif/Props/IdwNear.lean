import Verif.Props.Idw
import Mathlib.Algebra.Order.BigOperators.Group.List

/-!
# C162: interpolated values near a station and far from all stations
-/

namespace Verif.Idw

/-! ## Specification -/

/-- Specification: the distance of a station from a target. -/
noncomputable def distance (p : Pt) (t : ℝ × ℝ) : ℝ :=
  Real.sqrt ((t.1 - p.x) ^ 2 + (t.2 - p.y) ^ 2)

/-- Specification: the arithmetic mean of the station values. -/
noncomputable def meanValue (ps : List Pt) : ℝ := (ps.map Pt.z).sum / ps.length

/-! ## Lemmas -/

theorem dist_zero_eq (p : Pt) (t : ℝ × ℝ) : dist 0 p t.1 t.2 = distance p t := by
  simp [dist, distance]

theorem weight_zero_eq (power : ℝ) (p : Pt) (t : ℝ × ℝ) :
    weight power 0 t.1 t.2 p = 1 / distance p t ^ power := by
  simp [weight, distance]

theorem abs_list_sum_le (ps : List Pt) (f : Pt → ℝ) (c : ℝ) (h : ∀ p ∈ ps, |f p| ≤ c) :
    |(ps.map f).sum| ≤ ps.length * c := by
  induction ps with
  | nil => simp
  | cons p ps ih =>
    have h1 := h p List.mem_cons_self
    have h2 := ih fun q hq => h q (List.mem_cons_of_mem _ hq)
    simp only [List.map_cons, List.sum_cons, List.length_cons, Nat.cast_add, Nat.cast_one]
    calc |f p + (ps.map f).sum| ≤ |f p| + |(ps.map f).sum| := abs_add_le _ _
      _ ≤ _ := by linarith

theorem sum_weighted_sub (ps : List Pt) (w : Pt → ℝ) (c : ℝ) :
    (ps.map fun p => w p * (p.z - c)).sum =
      (ps.map fun p => w p * p.z).sum - c * (ps.map w).sum := by
  induction ps with
  | nil => simp
  | cons p ps ih => simp only [List.map_cons, List.sum_cons, ih]; ring

theorem le_sum_of_mem (ps : List Pt) (w : Pt → ℝ) (hw : ∀ p ∈ ps, 0 ≤ w p) (p : Pt)
    (hp : p ∈ ps) : w p ≤ (ps.map w).sum := by
  apply List.single_le_sum
  · intro a ha
    obtain ⟨q, hq, rfl⟩ := List.mem_map.mp ha
    exact hw q hq
  · exact List.mem_map_of_mem hp

/-! ## Theorems -/

/-- **C162.** Near a station, the interpolated value is near the value of the station. -/
theorem C162_near (power : ℝ) (hpow : 0 < power) (x y z : List (Option ℝ)) (ts : List (ℝ × ℝ))
    (i : ℕ) (t : ℝ × ℝ) (v : ℝ) (h : ValueAt power 0 x y z ts i t v) (p : Pt)
    (hp : p ∈ usable x y z) (D ρ : ℝ) (hD : 0 < D)
    (hfar : ∀ q ∈ usable x y z, q = p ∨ D ≤ distance q t)
    (hρ : ∀ q ∈ usable x y z, |q.z - p.z| ≤ ρ) :
    |v - p.z| ≤ (usable x y z).length * ρ * (distance p t / D) ^ power := by
  have hd0 : 0 ≤ distance p t := Real.sqrt_nonneg _
  have hρ0 : 0 ≤ ρ := (abs_nonneg _).trans (hρ p hp)
  have hrhs : 0 ≤ (usable x y z).length * ρ * (distance p t / D) ^ power := by positivity
  by_cases hhit : ∃ q ∈ usable x y z, distance q t = 0
  · obtain ⟨q, hq, h0⟩ := hhit
    have hqp : q = p := by
      rcases hfar q hq with e | e
      · exact e
      · linarith
    subst hqp
    have hz : ∀ r : Pt, distance r t = 0 ↔ (r.x, r.y) = t := by
      intro r
      rw [← dist_zero_eq, dist_eq_zero]
      constructor
      · rintro ⟨a, b, -⟩; exact Prod.ext a b
      · rintro rfl; exact ⟨rfl, rfl, rfl⟩
    have := C12_exact power x y z ts i t v h q hq ((hz q).mp h0) fun r hr hrt => by
      rcases hfar r hr with e | e
      · rw [e]
      · rw [(hz r).mpr hrt] at e; linarith
    rw [this, sub_self, abs_zero]; exact hrhs
  · push Not at hhit
    have hpos : ∀ q ∈ usable x y z, 0 < distance q t := fun q hq =>
      lt_of_le_of_ne (Real.sqrt_nonneg _) (hhit q hq).symm
    obtain ⟨hW, hv⟩ := C12_weighted_mean power 0 x y z ts i t v h (Or.inr fun q hq e => by
      apply hhit q hq
      rw [← e]; simp [distance])
    have hdp := hpos p hp
    have hpw : 0 < distance p t ^ power := Real.rpow_pos_of_pos hdp _
    have hDw : 0 < D ^ power := Real.rpow_pos_of_pos hD _
    have hw0 : ∀ q ∈ usable x y z, 0 ≤ weight power 0 t.1 t.2 q := fun q hq => by
      rw [weight_zero_eq]
      have := Real.rpow_pos_of_pos (hpos q hq) power
      positivity
    have hWp := le_sum_of_mem _ _ hw0 p hp
    rw [weight_zero_eq] at hWp
    have hsum := abs_list_sum_le (usable x y z)
      (fun q => weight power 0 t.1 t.2 q * (q.z - p.z)) (ρ / D ^ power) fun q hq => by
        rcases hfar q hq with e | e
        · rw [e]; simp; positivity
        · rw [abs_mul, abs_of_nonneg (hw0 q hq), weight_zero_eq, div_mul_eq_mul_div, one_mul]
          exact div_le_div₀ hρ0 (hρ q hq) hDw (Real.rpow_le_rpow hD.le e hpow.le)
    rw [sum_weighted_sub, ← hv, ← sub_mul, abs_mul, abs_of_pos hW] at hsum
    have h1 : |v - p.z| * (1 / distance p t ^ power) ≤ (usable x y z).length * (ρ / D ^ power) :=
      (mul_le_mul_of_nonneg_left hWp (abs_nonneg _)).trans hsum
    rw [mul_one_div, div_le_iff₀ hpw] at h1
    rw [Real.div_rpow hd0 hD.le]
    calc |v - p.z| ≤ _ := h1
      _ = _ := by ring

/-- **C162.** There is no jump at a station that shares its position with no other: for every
tolerance there is a radius within which all interpolated values differ from the value of the
station by less. -/
theorem C162_limit (power : ℝ) (hpow : 0 < power) (x y z : List (Option ℝ)) (p : Pt)
    (hp : p ∈ usable x y z)
    (huniq : ∀ q ∈ usable x y z, q = p ∨ (q.x, q.y) ≠ (p.x, p.y)) (ε : ℝ) (hε : 0 < ε) :
    ∃ δ > 0, ∀ (ts : List (ℝ × ℝ)) (i : ℕ) (t : ℝ × ℝ) (v : ℝ),
      ValueAt power 0 x y z ts i t v → distance p t < δ → |v - p.z| < ε := by
  have tri : ∀ (q : Pt) (t : ℝ × ℝ), distance q (p.x, p.y) ≤ distance q t + distance p t := by
    intro q t
    have hq : 0 ≤ distance q t := Real.sqrt_nonneg _
    have hp : 0 ≤ distance p t := Real.sqrt_nonneg _
    have hq2 : distance q t ^ 2 = (t.1 - q.x) ^ 2 + (t.2 - q.y) ^ 2 := Real.sq_sqrt (by positivity)
    have hp2 : distance p t ^ 2 = (t.1 - p.x) ^ 2 + (t.2 - p.y) ^ 2 := Real.sq_sqrt (by positivity)
    have hc : -((t.1 - q.x) * (t.1 - p.x) + (t.2 - q.y) * (t.2 - p.y)) ≤
        distance q t * distance p t := by
      apply le_of_sq_le_sq _ (mul_nonneg hq hp)
      rw [mul_pow, hq2, hp2]
      nlinarith [sq_nonneg ((t.1 - q.x) * (t.2 - p.y) - (t.2 - q.y) * (t.1 - p.x))]
    apply Real.sqrt_le_iff.mpr ⟨by positivity, ?_⟩
    simp only
    nlinarith
  -- a distance that all other stations keep from the station
  have hsep : ∃ E > 0, ∀ q ∈ usable x y z, q = p ∨ E ≤ distance q (p.x, p.y) := by
    generalize usable x y z = ps at huniq
    induction ps with
    | nil => exact ⟨1, one_pos, by simp⟩
    | cons q ps ih =>
      obtain ⟨E, hE, h⟩ := ih fun r hr => huniq r (List.mem_cons_of_mem _ hr)
      rcases huniq q List.mem_cons_self with e | e
      · refine ⟨E, hE, fun r hr => ?_⟩
        rcases List.mem_cons.mp hr with rfl | hr
        · exact Or.inl e
        · exact h r hr
      · have hq : 0 < distance q (p.x, p.y) := by
          refine lt_of_le_of_ne (Real.sqrt_nonneg _) fun h0 => e ?_
          rw [← dist_zero_eq] at h0
          obtain ⟨a, b, -⟩ := (dist_eq_zero ..).mp h0.symm
          exact Prod.ext a b
        refine ⟨min E (distance q (p.x, p.y)), lt_min hE hq, fun r hr => ?_⟩
        rcases List.mem_cons.mp hr with rfl | hr
        · exact Or.inr (min_le_right _ _)
        · exact (h r hr).imp id fun h => (min_le_left _ _).trans h
  obtain ⟨E, hE, hsep⟩ := hsep
  have hbd : ∃ ρ > 0, ∀ q ∈ usable x y z, |q.z - p.z| ≤ ρ := by
    generalize usable x y z = ps
    induction ps with
    | nil => exact ⟨1, one_pos, by simp⟩
    | cons q ps ih =>
      obtain ⟨ρ, h0, h⟩ := ih
      refine ⟨max ρ |q.z - p.z|, lt_max_of_lt_left h0, fun r hr => ?_⟩
      rcases List.mem_cons.mp hr with rfl | hr
      · exact le_max_right _ _
      · exact (h r hr).trans (le_max_left _ _)
  obtain ⟨ρ, hρ0, hρ⟩ := hbd
  have hn : 0 < ((usable x y z).length : ℝ) := by
    exact_mod_cast List.length_pos_of_mem hp
  set c : ℝ := ε / ((usable x y z).length * ρ) with hc
  have hc0 : 0 < c := by positivity
  refine ⟨min (E / 2) (E / 2 * c ^ (1 / power)),
    lt_min (by linarith) (mul_pos (by linarith) (Real.rpow_pos_of_pos hc0 _)), ?_⟩
  intro ts i t v h hd
  have hd0 : 0 ≤ distance p t := Real.sqrt_nonneg _
  have hnear := C162_near power hpow x y z ts i t v h p hp (E / 2) ρ (by linarith)
    (fun q hq => (hsep q hq).imp id fun hq => by
      have := tri q t
      have := hd.trans_le (min_le_left _ _)
      linarith) hρ
  refine hnear.trans_lt ?_
  have h1 : distance p t / (E / 2) < c ^ (1 / power) := by
    rw [div_lt_iff₀ (by linarith)]
    have := hd.trans_le (min_le_right _ _)
    linarith
  have h2 := Real.rpow_lt_rpow (by positivity) h1 hpow
  rw [← Real.rpow_mul hc0.le, one_div, inv_mul_cancel₀ hpow.ne', Real.rpow_one] at h2
  calc _ < (usable x y z).length * ρ * c := mul_lt_mul_of_pos_left h2 (by positivity)
    _ = ε := by rw [hc]; field_simp

/-- **C162.** If all stations are nearly equally far away, the value is nearly the mean. -/
theorem C162_far (power : ℝ) (hpow : 0 < power) (x y z : List (Option ℝ)) (ts : List (ℝ × ℝ))
    (i : ℕ) (t : ℝ × ℝ) (v : ℝ) (h : ValueAt power 0 x y z ts i t v) (D D' ρ : ℝ) (hD : 0 < D)
    (hdist : ∀ q ∈ usable x y z, D ≤ distance q t ∧ distance q t ≤ D')
    (hρ : ∀ q ∈ usable x y z, |q.z - meanValue (usable x y z)| ≤ ρ) :
    |v - meanValue (usable x y z)| ≤ ρ * ((D' / D) ^ power - 1) := by
  obtain ⟨-, -, hu, -⟩ := (valueAt_iff ..).mp h
  obtain ⟨q₀, hq₀⟩ := List.exists_mem_of_ne_nil _ hu
  have hρ0 : 0 ≤ ρ := (abs_nonneg _).trans (hρ q₀ hq₀)
  have hD' : 0 < D' := hD.trans_le ((hdist q₀ hq₀).1.trans (hdist q₀ hq₀).2)
  have hDw : 0 < D ^ power := Real.rpow_pos_of_pos hD _
  have hDw' : 0 < D' ^ power := Real.rpow_pos_of_pos hD' _
  have hn : 0 < ((usable x y z).length : ℝ) := by
    exact_mod_cast List.length_pos_of_mem hq₀
  obtain ⟨hW, hv⟩ := C12_weighted_mean power 0 x y z ts i t v h (Or.inr fun q hq e => by
    have := (hdist q hq).1
    rw [← e] at this
    simp [distance] at this
    linarith)
  set m := meanValue (usable x y z) with hm
  -- the weights lie between their values at the two distances
  have hw : ∀ q ∈ usable x y z, 1 / D' ^ power ≤ weight power 0 t.1 t.2 q ∧
      weight power 0 t.1 t.2 q ≤ 1 / D ^ power := fun q hq => by
    have hq0 : 0 < distance q t := hD.trans_le (hdist q hq).1
    rw [weight_zero_eq]
    exact ⟨one_div_le_one_div_of_le (Real.rpow_pos_of_pos hq0 _)
        (Real.rpow_le_rpow hq0.le (hdist q hq).2 hpow.le),
      one_div_le_one_div_of_le hDw (Real.rpow_le_rpow hD.le (hdist q hq).1 hpow.le)⟩
  -- deviations from the mean cancel for equal weights
  have hcancel : ((usable x y z).map fun q => (1 / D' ^ power) * (q.z - m)).sum = 0 := by
    rw [sum_weighted_sub _ (fun _ => 1 / D' ^ power), List.sum_map_mul_left]
    simp only [List.map_const', List.sum_replicate, nsmul_eq_mul]
    rw [hm, meanValue]
    field_simp
    simp
  have hsum := abs_list_sum_le (usable x y z)
    (fun q => (weight power 0 t.1 t.2 q - 1 / D' ^ power) * (q.z - m))
    ((1 / D ^ power - 1 / D' ^ power) * ρ) fun q hq => by
      rw [abs_mul, abs_of_nonneg (sub_nonneg.mpr (hw q hq).1)]
      exact mul_le_mul (by linarith [(hw q hq).2]) (hρ q hq) (abs_nonneg _)
        (by linarith [(hw q hq).1, (hw q hq).2])
  have hsplit : ((usable x y z).map fun q =>
      (weight power 0 t.1 t.2 q - 1 / D' ^ power) * (q.z - m)).sum =
      (v - m) * ((usable x y z).map (weight power 0 t.1 t.2)).sum := by
    have e1 := sum_weighted_sub (usable x y z) (weight power 0 t.1 t.2) m
    have e2 : ∀ ps : List Pt, (ps.map fun q =>
        (weight power 0 t.1 t.2 q - 1 / D' ^ power) * (q.z - m)).sum =
        (ps.map fun q => weight power 0 t.1 t.2 q * (q.z - m)).sum -
        (ps.map fun q => (1 / D' ^ power) * (q.z - m)).sum := by
      intro ps
      induction ps with
      | nil => simp
      | cons p ps ih => simp only [List.map_cons, List.sum_cons, ih]; ring
    rw [e2, hcancel, e1, ← hv]; ring
  rw [hsplit, abs_mul, abs_of_pos hW] at hsum
  have hWlow : (usable x y z).length * (1 / D' ^ power) ≤
      ((usable x y z).map (weight power 0 t.1 t.2)).sum := by
    have := List.card_nsmul_le_sum ((usable x y z).map (weight power 0 t.1 t.2)) (1 / D' ^ power)
      fun a ha => by
        obtain ⟨q, hq, rfl⟩ := List.mem_map.mp ha
        exact (hw q hq).1
    simpa using this
  have h1 := (mul_le_mul_of_nonneg_left hWlow (abs_nonneg (v - m))).trans hsum
  have h2 : |v - m| * (1 / D' ^ power) ≤ (1 / D ^ power - 1 / D' ^ power) * ρ := by
    have : (usable x y z).length * (|v - m| * (1 / D' ^ power)) ≤
        (usable x y z).length * ((1 / D ^ power - 1 / D' ^ power) * ρ) := by linarith
    exact le_of_mul_le_mul_left this hn
  rw [mul_one_div, div_le_iff₀ hDw'] at h2
  rw [Real.div_rpow hD'.le hD.le]
  calc _ ≤ _ := h2
    _ = _ := by field_simp

/-! ## The hypotheses can be met -/

theorem usable_example :
    usable [some 0, some 4, some 7] [some 0, some 0, some 1] [some 10, some 20, none] =
      [⟨0, 0, 10⟩, ⟨4, 0, 20⟩] := by simp [usable]

theorem distance_example :
    distance ⟨0, 0, 10⟩ (1, 0) = 1 ∧ distance ⟨4, 0, 20⟩ (1, 0) = 3 := by
  constructor
  · simp [distance]
  · rw [distance, show ((1 : ℝ) - 4) ^ 2 + (0 - 0) ^ 2 = 3 ^ 2 by norm_num]
    exact Real.sqrt_sq (by norm_num)

/-- A pixel at distance 1 from a station with value 10 and 3 from one with value 20 gets 11. -/
theorem valueAt_example :
    ValueAt 2 0 [some 0, some 4, some 7] [some 0, some 0, some 1] [some 10, some 20, none]
      [(1, 0)] 0 (1, 0) 11 := by
  rw [valueAt_iff]
  refine ⟨by simp, rfl, by simp [usable], ?_⟩
  rw [usable_example, loop_of_all_pos]
  · norm_num [weight_zero_eq 2 _ ((1 : ℝ), (0 : ℝ)), distance_example.1, distance_example.2,
      weight_zero_eq 2 ⟨0, 0, 10⟩ (1, 0), weight_zero_eq 2 ⟨4, 0, 20⟩ (1, 0)]
  · intro p hp
    simp only [List.mem_cons, List.not_mem_nil, or_false] at hp
    rcases hp with rfl | rfl <;> norm_num [dist_eq_zero]

/-- `C162_near` bounds the difference 1 by 20/9. -/
example : |(11 : ℝ) - 10| ≤ (2 : ℕ) * 10 * (1 / 3) ^ (2 : ℝ) := by
  have := C162_near 2 (by norm_num) _ _ _ _ _ _ _ valueAt_example ⟨0, 0, 10⟩
    (by rw [usable_example]; simp) 3 10 (by norm_num)
    (by
      rw [usable_example]; intro q hq
      simp only [List.mem_cons, List.not_mem_nil, or_false] at hq
      rcases hq with rfl | rfl
      · exact Or.inl rfl
      · exact Or.inr distance_example.2.ge)
    (by
      rw [usable_example]; intro q hq
      simp only [List.mem_cons, List.not_mem_nil, or_false] at hq
      rcases hq with rfl | rfl <;> norm_num)
  rw [usable_example, distance_example.1] at this
  exact this

/-- The two stations of the example have different positions, as `C162_limit` requires. -/
example : ∀ q ∈ usable [some 0, some 4, some 7] [some 0, some 0, some 1] [some 10, some 20, none],
    q = ⟨0, 0, 10⟩ ∨ (q.x, q.y) ≠ ((0 : ℝ), (0 : ℝ)) := by
  rw [usable_example]; intro q hq
  simp only [List.mem_cons, List.not_mem_nil, or_false] at hq
  rcases hq with rfl | rfl
  · exact Or.inl rfl
  · right; simp

/-- `C162_far` bounds the difference 4 from the mean 15. -/
example : |(11 : ℝ) - 15| ≤ 5 * ((3 / 1) ^ (2 : ℝ) - 1) := by
  have hm : meanValue (usable [some 0, some 4, some 7] [some 0, some 0, some 1]
      [some 10, some 20, none]) = 15 := by
    rw [usable_example]; norm_num [meanValue]
  have := C162_far 2 (by norm_num) _ _ _ _ _ _ _ valueAt_example 1 3 5 one_pos
    (by
      rw [usable_example]; intro q hq
      simp only [List.mem_cons, List.not_mem_nil, or_false] at hq
      rcases hq with rfl | rfl
      · rw [distance_example.1]; norm_num
      · rw [distance_example.2]; norm_num)
    (by
      rw [hm, usable_example]; intro q hq
      simp only [List.mem_cons, List.not_mem_nil, or_false] at hq
      rcases hq with rfl | rfl <;> norm_num)
  rw [hm] at this
  exact this

end Verif.Idw
