import Verif.Model.WindDir
import Verif.Props.Atmosphere
import Mathlib.Tactic

/-!
# C96: aggregated wind direction
-/

namespace Verif.WindDir

open Verif.Atmosphere

/-- Specification: the records that have a speed and a direction. -/
def complete : List Record → List (ℝ × ℝ)
  | [] => []
  | (some ws, some wd) :: rs => (ws, wd) :: complete rs
  | (none, _) :: rs => complete rs
  | (some _, none) :: rs => complete rs

/-- Specification: components of the mean wind vector of speeds and directions. -/
noncomputable def meanVector (l : List (ℝ × ℝ)) : ℝ × ℝ :=
  ((l.map fun p => -p.1 * Real.sin (p.2 * (Real.pi / 180))).sum / l.length,
    (l.map fun p => -p.1 * Real.cos (p.2 * (Real.pi / 180))).sum / l.length)

theorem filterMap_uv (rs : List Record) : rs.filterMap uv = (complete rs).map fun p => windToUv p.1 p.2 := by
  induction rs with
  | nil => rfl
  | cons r rs ih =>
    obtain ⟨ws, wd⟩ := r
    rw [List.filterMap_cons]
    cases ws <;> cases wd <;> simp [complete, uv, ih]

theorem aggregateDir_eq (rs : List Record) :
    aggregateDir rs = if complete rs = [] then none
      else some (windFromUv (meanVector (complete rs)).1 (meanVector (complete rs)).2).2 := by
  simp only [aggregateDir, filterMap_uv, mean, List.map_map, List.map_eq_nil_iff, List.length_map]
  by_cases h : complete rs = []
  · simp [h]
  · simp [h, meanVector, windToUv, Function.comp_def]

/-- Components of speed and direction of a vector are the vector. -/
theorem uv_fromUv (u v : ℝ) : windToUv (windFromUv u v).1 (windFromUv u v).2 = (u, v) := by
  have hpi := Real.pi_pos
  have hnorm : ‖(⟨u, v⟩ : ℂ)‖ = Real.sqrt (u ^ 2 + v ^ 2) := by
    rw [Complex.norm_def, Complex.normSq_mk]; ring_nf
  have hre := Complex.norm_mul_cos_arg (⟨u, v⟩ : ℂ)
  have him := Complex.norm_mul_sin_arg (⟨u, v⟩ : ℂ)
  rw [hnorm] at hre him
  simp only at hre him
  simp only [windFromUv, windToUv]
  obtain ⟨s, hs⟩ : ∃ s, Real.sqrt (u ^ 2 + v ^ 2) = s := ⟨_, rfl⟩
  obtain ⟨a, ha⟩ : ∃ a, Complex.arg ⟨u, v⟩ = a := ⟨_, rfl⟩
  rw [hs, ha] at hre him
  rw [hs, ha]
  unfold fmod
  obtain ⟨n, hn⟩ : ∃ n : ℤ, ⌊(270 - a * (180 / Real.pi)) / 360⌋ = n := ⟨_, rfl⟩
  rw [hn]
  have hang : (270 - a * (180 / Real.pi) - 360 * (n : ℝ)) * (Real.pi / 180) =
      Real.pi / 2 - a + Real.pi - n * (2 * Real.pi) := by
    field_simp; ring
  rw [hang, Real.sin_sub_int_mul_two_pi, Real.cos_sub_int_mul_two_pi, Real.sin_add_pi, Real.cos_add_pi,
    Real.sin_pi_div_two_sub, Real.cos_pi_div_two_sub]
  rw [Prod.mk.injEq]
  constructor <;> linarith

theorem windFromUv_pos (u v : ℝ) (h : (u, v) ≠ (0, 0)) : 0 < (windFromUv u v).1 := by
  simp only [windFromUv]
  apply Real.sqrt_pos.mpr
  by_contra hc
  have hu : u = 0 := by nlinarith [sq_nonneg u, sq_nonneg v]
  have hv : v = 0 := by nlinarith [sq_nonneg u, sq_nonneg v]
  exact h (by rw [hu, hv])

/-- **C96.** The aggregated direction is missing exactly if no record has both speed and direction. -/
theorem C96_missing (rs : List Record) :
    aggregateDir rs = none ↔ ∀ r ∈ rs, r.1 = none ∨ r.2 = none := by
  rw [aggregateDir_eq]
  have : complete rs = [] ↔ ∀ r ∈ rs, r.1 = none ∨ r.2 = none := by
    induction rs with
    | nil => simp [complete]
    | cons r rs ih =>
      obtain ⟨ws, wd⟩ := r
      cases ws <;> cases wd <;> simp [complete, ih]
  rw [← this]
  split_ifs with h <;> simp [h]

/-- **C96.** The aggregated direction is in [0, 360) and is the direction of the mean wind vector of the complete
records: a wind from this direction has the components of the mean vector. -/
theorem C96_vector (rs : List Record) (d : ℝ) (h : aggregateDir rs = some d) :
    0 ≤ d ∧ d < 360 ∧ ∃ s, 0 ≤ s ∧ windToUv s d = meanVector (complete rs) ∧
      (meanVector (complete rs) ≠ (0, 0) → 0 < s) := by
  rw [aggregateDir_eq] at h
  split_ifs at h with hc
  have hd := Option.some.inj h
  obtain ⟨m, hm⟩ : ∃ m, meanVector (complete rs) = m := ⟨_, rfl⟩
  rw [hm] at hd ⊢
  obtain ⟨r1, r2, r3⟩ := C62_range m.1 m.2
  rw [hd] at r2 r3
  refine ⟨r2, r3, (windFromUv m.1 m.2).1, r1, ?_, fun hne => windFromUv_pos _ _ hne⟩
  rw [← hd]
  exact uv_fromUv m.1 m.2

/-- **C96.** The mean vector determines the direction: if it is that of a wind with positive speed from the direction
`wd`, the result is `wd` modulo 360. -/
theorem C96_direction (rs : List Record) (hne : complete rs ≠ []) (s wd : ℝ) (hs : 0 < s)
    (h : meanVector (complete rs) = windToUv s wd) : aggregateDir rs = some (fmod wd 360) := by
  rw [aggregateDir_eq, if_neg hne, h, C62_round_trip s wd hs]

theorem complete_length_pos {rs : List Record} (h : complete rs ≠ []) : (0 : ℝ) < (complete rs).length := by
  exact_mod_cast List.length_pos_iff.mpr h

/-- **C96.** If all records with wind have the same direction, the result is this direction. -/
theorem C96_common (rs : List Record) (wd : ℝ) (h0 : 0 ≤ wd) (h1 : wd < 360)
    (hnn : ∀ p ∈ complete rs, 0 ≤ p.1) (hdir : ∀ p ∈ complete rs, 0 < p.1 → p.2 = wd)
    (hwind : ∃ p ∈ complete rs, 0 < p.1) : aggregateDir rs = some wd := by
  obtain ⟨p0, hp0, hp0w⟩ := hwind
  have hne : complete rs ≠ [] := List.ne_nil_of_mem hp0
  have hlen := complete_length_pos hne
  obtain ⟨l, hl⟩ : ∃ l, complete rs = l := ⟨_, rfl⟩
  have hsum : 0 < (l.map Prod.fst).sum := by
    rw [hl] at hp0 hnn
    clear hdir hlen hne hl
    induction l with
    | nil => simp at hp0
    | cons q l ih =>
      rw [List.map_cons, List.sum_cons]
      have hq := hnn q (by simp)
      have hrest : 0 ≤ (l.map Prod.fst).sum := by
        apply List.sum_nonneg
        intro x hx
        obtain ⟨y, hy, rfl⟩ := List.mem_map.mp hx
        exact hnn y (by simp [hy])
      rcases List.mem_cons.mp hp0 with rfl | hp0
      · linarith
      · have := ih (fun p hp => hnn p (by simp [hp])) hp0
        linarith
  have hfm : fmod wd 360 = wd := by
    unfold fmod
    rw [show ⌊wd / 360⌋ = 0 by
      rw [Int.floor_eq_iff]
      constructor
      · simp; positivity
      · rw [div_lt_iff₀ (by norm_num)]; push_cast; linarith]
    simp
  have key : ∀ f : ℝ → ℝ, (l.map fun p => -p.1 * f (p.2 * (Real.pi / 180))).sum =
      -(l.map Prod.fst).sum * f (wd * (Real.pi / 180)) := by
    intro f
    rw [hl] at hdir hnn
    clear hsum hp0 hlen hne hl
    induction l with
    | nil => simp
    | cons q l ih =>
      rw [List.map_cons, List.sum_cons, List.map_cons, List.sum_cons,
        ih (fun p hp => hnn p (by simp [hp])) fun p hp => hdir p (by simp [hp])]
      rcases (hnn q (by simp)).eq_or_lt with hq | hq
      · rw [← hq]; ring
      · rw [hdir q (by simp) hq]; ring
  rw [C96_direction rs hne ((l.map Prod.fst).sum / l.length) wd (by rw [hl] at hlen; positivity), hfm]
  rw [hl]
  simp only [meanVector, windToUv]
  rw [key Real.sin, key Real.cos]
  rw [Prod.mk.injEq]
  constructor <;> ring

/-- **C96.** The order of the records has no influence. -/
theorem C96_order (rs rs' : List Record) (h : rs.Perm rs') : aggregateDir rs = aggregateDir rs' := by
  have hc : (complete rs).Perm (complete rs') := by
    induction h with
    | nil => exact List.Perm.refl _
    | cons x _ ih =>
      obtain ⟨a, b⟩ := x
      cases a <;> cases b <;> simp only [complete] <;> first | exact ih | exact ih.cons _
    | swap x y l =>
      obtain ⟨a, b⟩ := x
      obtain ⟨c, d⟩ := y
      cases a <;> cases b <;> cases c <;> cases d <;> simp only [complete] <;>
        first | exact List.Perm.refl _ | exact List.Perm.swap _ _ _
    | trans _ _ ih1 ih2 => exact ih1.trans ih2
  rw [aggregateDir_eq, aggregateDir_eq]
  have hm : meanVector (complete rs) = meanVector (complete rs') := by
    simp only [meanVector]
    rw [(hc.map _).sum_eq, (hc.map _).sum_eq, hc.length_eq]
  rw [hm]
  have : complete rs = [] ↔ complete rs' = [] := by
    rw [← List.length_eq_zero_iff, hc.length_eq, List.length_eq_zero_iff]
  simp only [this]

/-- Specification: change of the records by a function of speed and one of direction. -/
def change (f g : ℝ → ℝ) (rs : List Record) : List Record := rs.map fun r => (r.1.map f, r.2.map g)

theorem complete_change (f g : ℝ → ℝ) (rs : List Record) :
    complete (change f g rs) = (complete rs).map fun p => (f p.1, g p.2) := by
  induction rs with
  | nil => rfl
  | cons r rs ih =>
    obtain ⟨a, b⟩ := r
    unfold change at ih ⊢
    rw [List.map_cons]
    cases a <;> cases b <;> simp [complete, ih]

/-- **C96.** The unit of the wind speed has no influence. -/
theorem C96_unit (rs : List Record) (k : ℝ) (hk : 0 < k) :
    aggregateDir (change (fun w => k * w) id rs) = aggregateDir rs := by
  by_cases hne : complete rs = []
  · rw [aggregateDir_eq, aggregateDir_eq, complete_change, hne]; simp
  have hm : meanVector (complete (change (fun w => k * w) id rs)) =
      (k * (meanVector (complete rs)).1, k * (meanVector (complete rs)).2) := by
    rw [complete_change]
    simp only [meanVector, List.map_map, List.length_map, Function.comp_def, id]
    have : ∀ f : ℝ → ℝ, ((complete rs).map fun p => -(k * p.1) * f (p.2 * (Real.pi / 180))).sum =
        k * ((complete rs).map fun p => -p.1 * f (p.2 * (Real.pi / 180))).sum := by
      intro f
      rw [← List.sum_map_mul_left]
      congr 1
      apply List.map_congr_left
      intro p _; ring
    rw [this, this, mul_div_assoc, mul_div_assoc]
  have hne' : complete (change (fun w => k * w) id rs) ≠ [] := by rw [complete_change]; simpa using hne
  obtain ⟨m, hmm⟩ : ∃ m, meanVector (complete rs) = m := ⟨_, rfl⟩
  by_cases h0 : m = (0, 0)
  · rw [aggregateDir_eq, aggregateDir_eq, if_neg hne, if_neg hne', hm, hmm, h0]; simp
  · have hd : aggregateDir rs = some (windFromUv m.1 m.2).2 := by rw [aggregateDir_eq, if_neg hne, hmm]
    have hv := uv_fromUv m.1 m.2
    have hpos := windFromUv_pos m.1 m.2 h0
    have hd2 : aggregateDir rs = some (fmod (windFromUv m.1 m.2).2 360) :=
      C96_direction rs hne _ _ hpos (by rw [hv, hmm])
    rw [hd2]
    apply C96_direction _ hne' (k * (windFromUv m.1 m.2).1) _ (mul_pos hk hpos)
    rw [hm, hmm]
    simp only [windToUv, Prod.mk.injEq] at hv ⊢
    constructor
    · linear_combination -k * hv.1
    · linear_combination -k * hv.2

/-- **C96.** Turning all directions by an angle turns the aggregated direction by this angle, if the mean vector is not
zero. -/
theorem C96_rotation (rs : List Record) (α d : ℝ) (h : aggregateDir rs = some d)
    (hm0 : meanVector (complete rs) ≠ (0, 0)) :
    aggregateDir (change id (fun w => w + α) rs) = some (fmod (d + α) 360) := by
  obtain ⟨-, -, s, -, hv, hs⟩ := C96_vector rs d h
  have hne : complete rs ≠ [] := by
    intro hc
    rw [aggregateDir_eq, hc] at h
    simp at h
  apply C96_direction _ (by rw [complete_change]; simpa using hne) s _ (hs hm0)
  rw [complete_change]
  obtain ⟨a, ha⟩ : ∃ a, α * (Real.pi / 180) = a := ⟨_, rfl⟩
  obtain ⟨l, hl⟩ : ∃ l, complete rs = l := ⟨_, rfl⟩
  rw [hl] at hv ⊢
  simp only [meanVector, windToUv, List.map_map, List.length_map, Function.comp_def, id, add_mul, ha,
    Real.sin_add, Real.cos_add, Prod.mk.injEq] at hv ⊢
  obtain ⟨h1, h2⟩ := hv
  have hS : (l.map fun p : ℝ × ℝ => -p.1 * (Real.sin (p.2 * (Real.pi / 180)) * Real.cos a +
        Real.cos (p.2 * (Real.pi / 180)) * Real.sin a)).sum =
      (l.map fun p => -p.1 * Real.sin (p.2 * (Real.pi / 180))).sum * Real.cos a +
        (l.map fun p => -p.1 * Real.cos (p.2 * (Real.pi / 180))).sum * Real.sin a := by
    clear hl h1 h2
    induction l with
    | nil => simp
    | cons q l ih => simp only [List.map_cons, List.sum_cons, ih]; ring
  have hC : (l.map fun p : ℝ × ℝ => -p.1 * (Real.cos (p.2 * (Real.pi / 180)) * Real.cos a -
        Real.sin (p.2 * (Real.pi / 180)) * Real.sin a)).sum =
      (l.map fun p => -p.1 * Real.cos (p.2 * (Real.pi / 180))).sum * Real.cos a -
        (l.map fun p => -p.1 * Real.sin (p.2 * (Real.pi / 180))).sum * Real.sin a := by
    clear hl h1 h2 hS
    induction l with
    | nil => simp
    | cons q l ih => simp only [List.map_cons, List.sum_cons, ih]; ring
  rw [hS, hC, add_div, sub_div]
  constructor
  · linear_combination (-Real.cos a) * h1 - Real.sin a * h2
  · linear_combination (-Real.cos a) * h2 + Real.sin a * h1

/-- **C96.** Without any wind the direction is reported as 270, whatever was measured. -/
theorem C96_calm_witness (rs : List Record) (hne : complete rs ≠ []) (h : ∀ p ∈ complete rs, p.1 = 0) :
    aggregateDir rs = some 270 := by
  have hm : meanVector (complete rs) = windToUv 0 0 := by
    simp only [meanVector, windToUv]
    have : ∀ f : ℝ → ℝ, ((complete rs).map fun p => -p.1 * f (p.2 * (Real.pi / 180))).sum = 0 := by
      intro f
      apply List.sum_eq_zero
      intro x hx
      obtain ⟨p, hp, rfl⟩ := List.mem_map.mp hx
      rw [h p hp]; ring
    rw [this, this]; simp
  rw [aggregateDir_eq, if_neg hne, hm, C62_calm_false]

-- C96_common: an incomplete record, a calm one and two with wind from the east.
example : (∀ p ∈ complete [(none, some 10), (some 0, some 200), (some 2, some 90), (some 1, some 90)],
      (0 : ℝ) ≤ p.1) ∧
    (∃ p ∈ complete [(none, some 10), (some 0, some 200), (some 2, some 90), (some 1, some 90)], (0 : ℝ) < p.1) := by
  simp [complete]

-- C96_rotation: one record with wind from the north has a nonzero vector.
example : meanVector (complete [(some 2, some 0)]) ≠ (0, 0) := by
  simp [complete, meanVector]

end Verif.WindDir
