import Verif.Model.Shadows
import Mathlib.Tactic.Linarith
import Mathlib.Tactic.LinearCombination
import Mathlib.Tactic.FieldSimp
import Mathlib.Tactic.Positivity

namespace Verif.Shadows

open Classical

theorem roundEven_int (k : ℤ) : roundEven (k : ℝ) = k := by
  unfold roundEven; rw [Int.floor_intCast]; norm_num

/-- Running maximum before step `t`. -/
noncomputable def mxAt (f : ℕ → Option ℝ) : ℕ → Option (Option ℝ)
  | 0 => none
  | t + 1 => if below (f t) (mxAt f t) then mxAt f t else some (f t)

/-- Step `t` is hidden by an earlier step with nothing missing in between. -/
def Hidden (f : ℕ → Option ℝ) (t : ℕ) : Prop :=
  ∃ u < t, ∃ a b, f u = some a ∧ f t = some b ∧ b < a ∧ ∀ v, u < v → v < t → f v ≠ none

theorem mxAt_inv (f : ℕ → Option ℝ) (t : ℕ) :
    (mxAt f t = none → t = 0) ∧
    (mxAt f t = some none → 0 < t ∧ f (t - 1) = none) ∧
    (∀ v, mxAt f t = some (some v) →
      (∃ u < t, f u = some v ∧ ∀ w, u < w → w < t → f w ≠ none) ∧
      ∀ u < t, ∀ a, f u = some a → (∀ w, u < w → w < t → f w ≠ none) → a ≤ v) := by
  induction t with
  | zero => simp [mxAt]
  | succ t ih =>
    obtain ⟨i1, i2, i3⟩ := ih
    by_cases hb : below (f t) (mxAt f t) = true
    · obtain ⟨z, hz⟩ : ∃ z, f t = some z := by
        cases hf : f t with
        | none => simp [below, hf] at hb
        | some z => exact ⟨z, rfl⟩
      obtain ⟨v, hv⟩ : ∃ v, mxAt f t = some (some v) := by
        rcases hm : mxAt f t with _ | _ | v
        · simp [below, hz, hm] at hb
        · simp [below, hz, hm] at hb
        · exact ⟨v, rfl⟩
      have hlt : z < v := by simpa [below, hz, hv] using hb
      have hm : mxAt f (t + 1) = some (some v) := by rw [mxAt, if_pos hb, hv]
      rw [hm]
      refine ⟨by simp, by simp, ?_⟩
      rintro w hw
      obtain rfl : v = w := by simpa using hw
      obtain ⟨⟨u, hu, hfu, hn⟩, hmax⟩ := i3 v hv
      refine ⟨⟨u, by omega, hfu, fun w h1 h2 => ?_⟩, fun u' hu' a ha hn' => ?_⟩
      · by_cases h : w = t
        · subst h; simp [hz]
        · exact hn w h1 (by omega)
      · by_cases h : u' = t
        · subst h; rw [hz] at ha; obtain rfl : z = a := by simpa using ha
          exact hlt.le
        · exact hmax u' (by omega) a ha fun w h1 h2 => hn' w h1 (by omega)
    · have hm : mxAt f (t + 1) = some (f t) := by rw [mxAt, if_neg hb]
      rw [hm]
      refine ⟨by simp, fun h => ⟨by omega, by simpa using h⟩, fun v hv => ?_⟩
      have hz : f t = some v := by simpa using hv
      refine ⟨⟨t, by omega, hz, fun w h1 h2 => by omega⟩, fun u hu a ha hn => ?_⟩
      by_cases h : u = t
      · subst h; rw [hz] at ha; exact le_of_eq (by simpa using ha.symm)
      · rcases hmt : mxAt f t with _ | _ | x
        · exact absurd (i1 hmt) (by omega)
        · obtain ⟨h0, hnone⟩ := i2 hmt
          by_cases h' : u = t - 1
          · subst h'; rw [hnone] at ha; cases ha
          · exact absurd hnone (hn (t - 1) (by omega) (by omega))
        · have := (i3 x hmt).2 u (by omega) a ha fun w h1 h2 => hn w h1 (by omega)
          have hxv : x ≤ v := by
            rw [hz, hmt] at hb; simpa [below] using hb
          linarith

theorem below_iff_hidden (f : ℕ → Option ℝ) (t : ℕ) : below (f t) (mxAt f t) = true ↔ Hidden f t := by
  obtain ⟨i1, i2, i3⟩ := mxAt_inv f t
  constructor
  · intro hb
    cases hf : f t with
    | none => simp [below, hf] at hb
    | some z =>
      rcases hm : mxAt f t with _ | _ | v
      · simp [below, hf, hm] at hb
      · simp [below, hf, hm] at hb
      · have hlt : z < v := by simpa [below, hf, hm] using hb
        obtain ⟨⟨u, hu, hfu, hn⟩, -⟩ := i3 v hm
        exact ⟨u, hu, v, z, hfu, hf, hlt, hn⟩
  · rintro ⟨u, hu, a, b, ha, hb, hlt, hn⟩
    rcases hm : mxAt f t with _ | _ | v
    · exact absurd (i1 hm) (by omega)
    · obtain ⟨h0, hnone⟩ := i2 hm
      by_cases h' : u = t - 1
      · subst h'; rw [hnone] at ha; cases ha
      · exact absurd hnone (hn (t - 1) (by omega) (by omega))
    · have := (i3 v hm).2 u hu a ha hn
      rw [hb]; simp only [below, decide_eq_true_eq]; linarith

theorem mem_sweep (d : Dem) (res : ℝ) (s : SunVec) (c p : Cell) (fuel t : ℕ) :
    p ∈ sweep d res s c fuel t (mxAt (zProj d res s c) t) ↔
    ∃ u, t ≤ u ∧ u < t + fuel ∧ (∀ v, t ≤ v → v ≤ u → d.Inside (pos s c v)) ∧ pos s c u = p ∧
      Hidden (zProj d res s c) u := by
  induction fuel generalizing t with
  | zero => simp only [sweep, List.not_mem_nil, false_iff]; rintro ⟨u, h1, h2, -⟩; omega
  | succ fuel ih =>
    rw [sweep]
    by_cases hin : d.Inside (pos s c t)
    · rw [if_neg (not_not.2 hin)]
      have hstep : ∀ Q : Prop, (Q ↔ Hidden (zProj d res s c) t ∧ pos s c t = p ∨
          p ∈ sweep d res s c fuel (t + 1) (mxAt (zProj d res s c) (t + 1))) →
          (Q ↔ ∃ u, t ≤ u ∧ u < t + (fuel + 1) ∧ (∀ v, t ≤ v → v ≤ u → d.Inside (pos s c v)) ∧
            pos s c u = p ∧ Hidden (zProj d res s c) u) := by
        intro Q hQ
        rw [hQ, ih]
        constructor
        · rintro (⟨h1, h2⟩ | ⟨u, h1, h2, h3, h4, h5⟩)
          · refine ⟨t, le_rfl, by omega, fun v hv hv' => ?_, h2, h1⟩
            obtain rfl : v = t := by omega
            exact hin
          · refine ⟨u, by omega, by omega, fun v hv hv' => ?_, h4, h5⟩
            by_cases h : v = t
            · subst h; exact hin
            · exact h3 v (by omega) hv'
        · rintro ⟨u, h1, h2, h3, h4, h5⟩
          by_cases h : u = t
          · subst h; exact Or.inl ⟨h5, h4⟩
          · exact Or.inr ⟨u, by omega, by omega, fun v hv hv' => h3 v (by omega) hv', h4, h5⟩
      apply hstep
      by_cases hb : below (zProj d res s c t) (mxAt (zProj d res s c) t) = true
      · have hh := (below_iff_hidden _ _).1 hb
        rw [if_pos hb, show mxAt (zProj d res s c) (t + 1) = mxAt (zProj d res s c) t by rw [mxAt, if_pos hb]]
        rw [List.mem_cons]
        simp only [hh, true_and]
        exact or_congr_left eq_comm
      · have hh : ¬ Hidden (zProj d res s c) t := fun h => hb ((below_iff_hidden _ _).2 h)
        rw [if_neg hb, show mxAt (zProj d res s c) (t + 1) = some (zProj d res s c t) by
          rw [mxAt, if_neg hb]]
        simp only [hh, false_and, false_or]
    · rw [if_pos hin]
      simp only [List.not_mem_nil, false_iff]
      rintro ⟨u, h1, -, h3, -⟩
      exact hin (h3 t le_rfl h1)

theorem mem_written (d : Dem) (res : ℝ) (s : SunVec) (c p : Cell) :
    p ∈ written d res s c ↔
    ∃ u < steps d, (∀ v ≤ u, d.Inside (pos s c v)) ∧ pos s c u = p ∧ Hidden (zProj d res s c) u := by
  have := mem_sweep d res s c p (steps d) 0
  rw [mxAt] at this
  rw [written, this]
  simp

theorem horiz_pos {s : SunVec} (h : ¬(s.x = 0 ∧ s.y = 0)) :
    0 < max |s.x| |s.y| ∧ 0 < Real.sqrt (s.x ^ 2 + s.y ^ 2) := by
  constructor
  · by_cases hx : s.x = 0
    · exact lt_max_of_lt_right (abs_pos.2 fun hy => h ⟨hx, hy⟩)
    · exact lt_max_of_lt_left (abs_pos.2 hx)
  · apply Real.sqrt_pos.2
    by_cases hx : s.x = 0
    · have : s.y ≠ 0 := fun hy => h ⟨hx, hy⟩
      positivity
    · positivity

/-- The first two terms of the projection. -/
theorem proj_eq (s : SunVec) (h : ¬(s.x = 0 ∧ s.y = 0)) (res z : ℝ) (t : ℕ) :
    (inv s).1 * t * res * (normalSun s).1 + (inv s).2 * t * res * (normalSun s).2.1 + z * (normalSun s).2.2 =
    Real.sqrt (s.x ^ 2 + s.y ^ 2) * (z + t * res * (s.z / max |s.x| |s.y|)) := by
  obtain ⟨hM, hH⟩ := horiz_pos h
  simp only [inv, normalSun]
  have hsq := Real.sq_sqrt (show 0 ≤ s.x ^ 2 + s.y ^ 2 by positivity)
  generalize max |s.x| |s.y| = M at *
  generalize Real.sqrt (s.x ^ 2 + s.y ^ 2) = H at *
  have e : -s.x / M * t * res * (-s.x * s.z / H) + -s.y / M * t * res * (-s.y * s.z / H) =
      (s.x ^ 2 + s.y ^ 2) * (t * res * s.z / M / H) := by ring
  rw [e, ← hsq]; field_simp; ring

end Verif.Shadows
