import Verif.Model.Terrain
import Mathlib.Tactic.Linarith
import Mathlib.Tactic.NormNum

/-!
# Openness under parallel execution (C70)
-/

namespace Verif.Terrain

/-- Every iteration of the loop has compared and stored. -/
def Complete (N : ℕ) (s : OpnSt) : Prop := ∀ k < N, s.done k = true

/-- Schedule in which the two actions of each iteration are adjacent. -/
def atomic (order : List ℕ) : List ℕ := order.flatMap fun k => [k, k]

theorem opn_pair (angle : ℕ → ℝ) (s : OpnSt) (k : ℕ) (hl : s.less k = none) (hd : s.done k = false) :
    let s' := opnStep angle (opnStep angle s k) k
    (s'.stored = some (match s.stored with
      | none => angle k
      | some x => min x (angle k))) ∧
    (∀ q, q ≠ k → s'.less q = s.less q ∧ s'.done q = s.done q) ∧ s'.done k = true := by
  obtain ⟨st, less, done⟩ := s
  simp only at hl hd
  cases st with
  | none =>
    simp only [opnStep, hl, hd, Function.update_self]
    refine ⟨by simp, fun q hq => ?_, by simp⟩
    simp [Function.update_of_ne hq]
  | some x =>
    simp only [opnStep, hl, hd, Function.update_self]
    refine ⟨?_, fun q hq => ?_, by simp⟩
    · by_cases h : angle k < x
      · simp [h, min_eq_right h.le]
      · simp [h, min_eq_left (not_lt.1 h)]
    · simp [Function.update_of_ne hq]

/-- **C70 (partial).** If no iteration is interrupted between comparing and storing, the result is the smallest
angle, in whatever order the iterations run. Without that, the claim is false: see `C70_race_false`. -/
theorem C70_atomic_partial (angle : ℕ → ℝ) (N : ℕ) (hN : 0 < N) (order : List ℕ)
    (hp : order.Perm (List.range N)) :
    ∃ a, (opnRun angle (atomic order)).stored = some a ∧ Complete N (opnRun angle (atomic order)) ∧
      (∃ k < N, a = angle k) ∧ ∀ k < N, a ≤ angle k := by
  have main : ∀ (l : List ℕ) (s : OpnSt), l.Nodup → (∀ k ∈ l, s.less k = none ∧ s.done k = false) →
      let s' := (atomic l).foldl (opnStep angle) s
      (∀ k ∈ l, s'.done k = true) ∧ (∀ k, s.done k = true → s'.done k = true) ∧
      (∀ k ∈ l, ∃ a, s'.stored = some a ∧ a ≤ angle k) ∧
      (∀ x, s.stored = some x → ∃ a, s'.stored = some a ∧ a ≤ x) ∧
      (∀ a, s'.stored = some a → s.stored = some a ∨ ∃ k ∈ l, a = angle k) := by
    intro l
    induction l with
    | nil =>
      intro s _ _
      exact ⟨by simp, fun _ h => h, by simp, fun x h => ⟨x, h, le_rfl⟩, fun a h => Or.inl h⟩
    | cons k l ih =>
      intro s hnd hs
      obtain ⟨hk, hnd'⟩ := List.nodup_cons.1 hnd
      obtain ⟨hst, hoth, hdone⟩ := opn_pair angle s k (hs k (by simp)).1 (hs k (by simp)).2
      obtain ⟨s1, hs1⟩ : ∃ s1, opnStep angle (opnStep angle s k) k = s1 := ⟨_, rfl⟩
      rw [hs1] at hst hoth hdone
      have hfold : (atomic (k :: l)).foldl (opnStep angle) s = (atomic l).foldl (opnStep angle) s1 := by
        simp [atomic, ← hs1]
      obtain ⟨i1, i2, i3, i4, i5⟩ := ih s1 hnd' fun q hq => by
        have hne : q ≠ k := fun h => hk (h ▸ hq)
        rw [(hoth q hne).1, (hoth q hne).2]; exact hs q (by simp [hq])
      simp only [hfold]
      refine ⟨?_, ?_, ?_, ?_, ?_⟩
      · intro q hq
        rcases List.mem_cons.1 hq with h | h
        · subst h; exact i2 _ hdone
        · exact i1 q h
      · intro q hq
        by_cases h : q = k
        · subst h; exact i2 _ hdone
        · exact i2 q (by rw [(hoth q h).2, hq])
      · intro q hq
        rcases List.mem_cons.1 hq with h | h
        · subst h
          obtain ⟨a, ha, hle⟩ := i4 _ hst
          refine ⟨a, ha, hle.trans ?_⟩
          cases s.stored <;> simp
        · exact i3 q h
      · intro x hx
        rw [hx] at hst
        obtain ⟨a, ha, hle⟩ := i4 _ hst
        exact ⟨a, ha, hle.trans (min_le_left _ _)⟩
      · intro a ha
        rcases i5 a ha with h | ⟨q, hq, rfl⟩
        · rw [hst] at h
          cases hso : s.stored with
          | none => rw [hso] at h; simp only [Option.some.injEq] at h; exact Or.inr ⟨k, by simp, h.symm⟩
          | some x =>
            rw [hso] at h; simp only [Option.some.injEq] at h
            rcases min_choice x (angle k) with hm | hm <;> rw [hm] at h
            · exact Or.inl (by rw [h])
            · exact Or.inr ⟨k, by simp, h.symm⟩
        · exact Or.inr ⟨q, by simp [hq], rfl⟩
  obtain ⟨h1, -, h3, -, h5⟩ := main order ⟨none, fun _ => none, fun _ => false⟩
    (hp.nodup_iff.2 List.nodup_range) (by simp)
  have hmem : ∀ k, k < N ↔ k ∈ order := fun k => by rw [hp.mem_iff, List.mem_range]
  obtain ⟨a, ha, -⟩ := h3 0 ((hmem 0).1 hN)
  refine ⟨a, ha, fun k hk => h1 k ((hmem k).1 hk), ?_, fun k hk => ?_⟩
  · rcases h5 a ha with h | ⟨k, hk, e⟩
    · simp at h
    · exact ⟨k, (hmem k).2 hk, e⟩
  · obtain ⟨b, hb, hle⟩ := h3 k ((hmem k).1 hk)
    have : a = b := by
      have hb' : (opnRun angle (atomic order)).stored = some b := hb
      rw [show (opnRun angle (atomic order)).stored = some a from ha] at hb'
      exact Option.some.inj hb'
    rw [this]; exact hle

example : [2, 0, 1].Perm (List.range 3) := by decide

/-- **C70.** Whatever the schedule, the stored value is one of the sight angles. -/
theorem C70_any_schedule (angle : ℕ → ℝ) (sched : List ℕ) (a : ℝ)
    (h : (opnRun angle sched).stored = some a) : ∃ k ∈ sched, a = angle k := by
  have main : ∀ (l : List ℕ) (s : OpnSt), (l.foldl (opnStep angle) s).stored = some a →
      s.stored = some a ∨ ∃ k ∈ l, a = angle k := by
    intro l
    induction l with
    | nil => intro s h; exact Or.inl h
    | cons k l ih =>
      intro s h
      rcases ih _ h with h' | ⟨q, hq, e⟩
      · unfold opnStep at h'
        split at h'
        · exact Or.inl h'
        · split_ifs at h' with h1 h2
          · exact Or.inl h'
          · exact Or.inr ⟨k, by simp, (Option.some.inj h').symm⟩
          · exact Or.inl h'
      · exact Or.inr ⟨q, by simp [hq], e⟩
  rcases main sched _ h with h' | h'
  · simp at h'
  · exact h'

/-- **C70 (negated).** Two iterations that both compare before either stores lose the smaller angle: a pixel
level with its neighbour 10 m away and 10 m below the cell 20 m away ends with the angle of the neighbour. -/
theorem C70_race_false :
    let angle : ℕ → ℝ := fun k => if k = 0 then sightAngle 0 10 else sightAngle 10 20
    Complete 2 (opnRun angle [0, 1, 1, 0]) ∧
    (opnRun angle [0, 1, 1, 0]).stored = some (angle 0) ∧ angle 1 < angle 0 ∧
    (opnRun angle [0, 0, 1, 1]).stored = some (angle 1) := by
  intro angle
  have hlt : angle 1 < angle 0 := by
    have h0 : Complex.arg (⟨10, 0⟩ : ℂ) = 0 := by
      rw [Complex.arg_eq_zero_iff]; norm_num
    have h1 : 0 < Complex.arg (⟨20, 10⟩ : ℂ) := by
      refine lt_of_le_of_ne (Complex.arg_nonneg_iff.2 (by norm_num)) fun h => ?_
      have := (Complex.arg_eq_zero_iff.1 h.symm).2
      norm_num at this
    simp only [angle, sightAngle, if_true, one_ne_zero, if_false]
    rw [h0]; linarith
  refine ⟨?_, ?_, hlt, ?_⟩
  · intro k hk
    obtain rfl | rfl : k = 0 ∨ k = 1 := by omega
    all_goals simp [opnRun, opnStep, Function.update]
  · simp [opnRun, opnStep, Function.update]
  · simp [opnRun, opnStep, Function.update, hlt]

/-- **C70.** The sight angle is a zenith angle between 0 and 180 degrees: 90 degrees for level terrain, smaller
for higher terrain. -/
theorem C70_sight {dist : ℝ} (h : 0 < dist) (dz : ℝ) :
    sightAngle dz dist = Real.pi / 2 - Real.arctan (dz / dist) ∧
    0 < sightAngle dz dist ∧ sightAngle dz dist < Real.pi ∧ sightAngle 0 dist = Real.pi / 2 ∧
    ∀ dz', dz < dz' → sightAngle dz' dist < sightAngle dz dist := by
  have key : ∀ z : ℝ, sightAngle z dist = Real.pi / 2 - Real.arctan (z / dist) := by
    intro z
    have hlt : |Complex.arg ⟨dist, z⟩| < Real.pi / 2 := Complex.abs_arg_lt_pi_div_two_iff.2 (Or.inl h)
    rw [abs_lt] at hlt
    rw [sightAngle, ← Real.arctan_tan hlt.1 hlt.2, Complex.tan_arg]
  refine ⟨key dz, ?_, ?_, by rw [key]; simp, fun dz' hz => ?_⟩
  · rw [key]; linarith [Real.arctan_lt_pi_div_two (dz / dist)]
  · rw [key]; linarith [Real.neg_pi_div_two_lt_arctan (dz / dist)]
  · rw [key, key]
    linarith [Real.arctan_strictMono ((div_lt_div_iff_of_pos_right h).2 hz)]

end Verif.Terrain
