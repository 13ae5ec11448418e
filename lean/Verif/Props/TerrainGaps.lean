import Verif.Model.TerrainGaps
import Verif.Props.Terrain

/-!
# Missing elevations (C134)
-/

namespace Verif.Terrain

/-! ## Specification -/

/-- `e` is the raster `d` with the gaps filled in some way. -/
def Completes (e : ℕ → ℕ → ℝ) (d : ℕ → ℕ → Option ℝ) : Prop := ∀ p q z, d p q = some z → e p q = z

/-- The cell itself and its neighbours in the raster. -/
def Near (n m i j p q : ℕ) : Prop := p < n ∧ q < m ∧ p ≤ i + 1 ∧ i ≤ p + 1 ∧ q ≤ j + 1 ∧ j ≤ q + 1

/-! ## C134 -/

theorem isSome_elim {α : Type*} {a : Option α} (h : a ≠ none) : ∃ x, a = some x :=
  Option.ne_none_iff_exists'.mp h

theorem grad_some (res : ℝ) (a b c w f g h se : Option ℝ) (F : ℝ → ℝ → ℝ) :
    ((do pure (F (← (do
        let c ← c
        let f ← f
        let se ← se
        let a ← a
        let w ← w
        let g ← g
        pure (((c + 2 * f + se) - (a + 2 * w + g)) / (8 * res)) : Option ℝ)) (← (do
        let g ← g
        let h ← h
        let se ← se
        let a ← a
        let b ← b
        let c ← c
        pure (((g + 2 * h + se) - (a + 2 * b + c)) / (8 * res)) : Option ℝ))) : Option ℝ) ≠ none) ↔
      a ≠ none ∧ b ≠ none ∧ c ≠ none ∧ w ≠ none ∧ f ≠ none ∧ g ≠ none ∧ h ≠ none ∧ se ≠ none := by
  constructor
  · intro hne
    refine ⟨?_, ?_, ?_, ?_, ?_, ?_, ?_, ?_⟩ <;> rintro rfl <;> apply hne <;> simp
  · rintro ⟨x1, x2, x3, x4, x5, x6, x7, x8⟩
    obtain ⟨a, rfl⟩ := isSome_elim x1
    obtain ⟨b, rfl⟩ := isSome_elim x2
    obtain ⟨c, rfl⟩ := isSome_elim x3
    obtain ⟨w, rfl⟩ := isSome_elim x4
    obtain ⟨f, rfl⟩ := isSome_elim x5
    obtain ⟨g, rfl⟩ := isSome_elim x6
    obtain ⟨h, rfl⟩ := isSome_elim x7
    obtain ⟨se, rfl⟩ := isSome_elim x8
    exact Option.some_ne_none _

/-- **C134** (slope and aspect, exact). In the interior a pixel has a slope and an aspect if and only if its eight
neighbours have an elevation; that of the pixel itself does not matter. -/
theorem C134_slope {n m i j : ℕ} (hij : Interior n m i j) (res : ℝ) (d : ℕ → ℕ → Option ℝ) :
    ((slopeAspectGaps n m res d i j).1 ≠ none ↔
      ∀ p q, Near n m i j p q → ¬(p = i ∧ q = j) → d p q ≠ none) ∧
    ((slopeAspectGaps n m res d i j).2 ≠ none ↔ (slopeAspectGaps n m res d i j).1 ≠ none) := by
  obtain ⟨h1, h2, h3, h4⟩ := hij
  have hn : 3 ≤ n := by omega
  have hm : 3 ≤ m := by omega
  have hi : i < n := by omega
  have hj : j < m := by omega
  have e1 : max i 1 - 1 = i - 1 := by omega
  have e2 : max j 1 - 1 = j - 1 := by omega
  have e3 : min i (n - 2) + 1 = i + 1 := by omega
  have e4 : min j (m - 2) + 1 = j + 1 := by omega
  have hs : ¬(n < 3 ∨ m < 3) := by omega
  simp only [slopeAspectGaps, if_neg hs, za_eq hn hm hi hj, zb_eq hn hm hi hj, zc_eq hn hm hi hj,
    zd_eq hn hm hi hj, zf_eq hn hm hi hj, zg_eq hn hm hi hj, zh_eq hn hm hi hj, zi_eq hn hm hi hj, e1, e2, e3, e4]
  refine ⟨(grad_some _ _ _ _ _ _ _ _ _ slopeOf).trans ?_,
    (grad_some _ _ _ _ _ _ _ _ _ aspectOf).trans (grad_some _ _ _ _ _ _ _ _ _ slopeOf).symm⟩
  constructor
  · rintro ⟨x1, x2, x3, x4, x5, x6, x7, x8⟩ p q ⟨_, _, a1, a2, a3, a4⟩ hne
    have hp : p = i - 1 ∨ p = i ∨ p = i + 1 := by omega
    have hq : q = j - 1 ∨ q = j ∨ q = j + 1 := by omega
    rcases hp with hp | hp | hp <;> rcases hq with hq | hq | hq <;> first
      | (rw [hp, hq]; assumption)
      | exact absurd (And.intro hp hq) hne
  · intro h
    refine ⟨h _ _ ?_ ?_, h _ _ ?_ ?_, h _ _ ?_ ?_, h _ _ ?_ ?_, h _ _ ?_ ?_, h _ _ ?_ ?_, h _ _ ?_ ?_,
      h _ _ ?_ ?_⟩
    all_goals first
      | omega
      | exact ⟨by omega, by omega, by omega, by omega, by omega, by omega⟩

/-- **C134** (proved part). A pixel whose surroundings have elevations has all terrain parameters, also at the border
of the raster, and they are those of the raster with the gaps filled in any way. -/
theorem C134_complete_partial {n m i j : ℕ} (hn : 3 ≤ n) (hm : 3 ≤ m) (hi : i < n) (hj : j < m) (res : ℝ)
    (d : ℕ → ℕ → Option ℝ) (e : ℕ → ℕ → ℝ) (he : Completes e d)
    (hd : ∀ p q, Near n m i j p q → d p q ≠ none) :
    slopeAspectGaps n m res d i j =
      (some (slopeAspect n m res e i j).1, (slopeAspect n m res e i j).2) ∧
    normalVectorGaps n m res d i j = some (normalVector n m res e i j) := by
  have key : ∀ p q, Near n m i j p q → d p q = some (e p q) := fun p q h => by
    obtain ⟨z, hz⟩ := isSome_elim (hd p q h)
    rw [hz, he p q z hz]
  have hs : ¬(n < 3 ∨ m < 3) := by omega
  constructor
  · simp only [slopeAspectGaps, slopeAspect, dzdx, dzdy, if_neg hs, za_eq hn hm hi hj, zb_eq hn hm hi hj,
      zc_eq hn hm hi hj, zd_eq hn hm hi hj, zf_eq hn hm hi hj, zg_eq hn hm hi hj, zh_eq hn hm hi hj, zi_eq hn hm hi hj]
    rw [key (max i 1 - 1) (max j 1 - 1) ⟨by omega, by omega, by omega, by omega, by omega, by omega⟩,
      key (max i 1 - 1) j ⟨by omega, by omega, by omega, by omega, by omega, by omega⟩,
      key (max i 1 - 1) (min j (m - 2) + 1) ⟨by omega, by omega, by omega, by omega, by omega, by omega⟩,
      key i (max j 1 - 1) ⟨by omega, by omega, by omega, by omega, by omega, by omega⟩,
      key i (min j (m - 2) + 1) ⟨by omega, by omega, by omega, by omega, by omega, by omega⟩,
      key (min i (n - 2) + 1) (max j 1 - 1) ⟨by omega, by omega, by omega, by omega, by omega, by omega⟩,
      key (min i (n - 2) + 1) j ⟨by omega, by omega, by omega, by omega, by omega, by omega⟩,
      key (min i (n - 2) + 1) (min j (m - 2) + 1) ⟨by omega, by omega, by omega, by omega, by omega, by omega⟩]
    rfl
  · rw [normalVector, if_neg hs, rawNormal_eq hn hm hi hj]
    rw [normalVectorGaps, if_neg hs]
    have hv : ∀ v : ℕ → ℕ → Option (ℝ × ℝ × ℝ),
        copyCol (m - 1) (m - 2) (copyRow 0 1 v) i j = v (max i 1) (min j (m - 2)) := by
      intro v
      have ha : (if i = 0 then 1 else i) = max i 1 := by split_ifs <;> omega
      have hb : (if j = m - 1 then m - 2 else j) = min j (m - 2) := by split_ifs <;> omega
      simp only [copyRow, copyCol]
      rw [← ha, ← hb]
      split_ifs <;> rfl
    simp only [hv, rollCols, rollRows]
    rw [idx_next (show min j (m - 2) + 1 < m by omega), idx_prev (show 1 ≤ max i 1 by omega) (show max i 1 < n by omega)]
    rw [key (max i 1) (min j (m - 2)) ⟨by omega, by omega, by omega, by omega, by omega, by omega⟩,
      key (max i 1) (min j (m - 2) + 1) ⟨by omega, by omega, by omega, by omega, by omega, by omega⟩,
      key (max i 1 - 1) (min j (m - 2)) ⟨by omega, by omega, by omega, by omega, by omega, by omega⟩,
      key (max i 1 - 1) (min j (m - 2) + 1) ⟨by omega, by omega, by omega, by omega, by omega, by omega⟩]
    rfl

/-- The normal vector of an interior cell is missing if one of the four cells it is computed from is. -/
theorem normal_none {n m i j : ℕ} (hij : Interior n m i j) (res : ℝ) (d : ℕ → ℕ → Option ℝ)
    (h : d i j = none ∨ d i (j + 1) = none ∨ d (i - 1) j = none ∨ d (i - 1) (j + 1) = none) :
    normalVectorGaps n m res d i j = none := by
  obtain ⟨h1, h2, h3, h4⟩ := hij
  have hs : ¬(n < 3 ∨ m < 3) := by omega
  rw [normalVectorGaps, if_neg hs]
  simp only [copyRow, copyCol, rollCols, rollRows]
  rw [if_neg (show ¬j = m - 1 by omega), if_neg (show ¬i = 0 by omega), idx_next (show j + 1 < m by omega),
    idx_prev (show 1 ≤ i by omega) (show i < n by omega)]
  rcases h with h | h | h | h <;> simp [h]

/-- **C134** (normal vectors, exact). In the interior a pixel has a normal vector if and only if the pixel and those to
the east, north and north-east have an elevation; without it there is no direct irradiance, whatever the position of
the sun, the shadows and the state of the atmosphere. -/
theorem C134_normal {n m i j : ℕ} (hij : Interior n m i j) (res : ℝ) (d : ℕ → ℕ → Option ℝ) (x : ClearSky.Input) :
    (normalVectorGaps n m res d i j ≠ none ↔
      d i j ≠ none ∧ d i (j + 1) ≠ none ∧ d (i - 1) j ≠ none ∧ d (i - 1) (j + 1) ≠ none) ∧
    (directGaps x (normalVectorGaps n m res d i j) ≠ none ↔ normalVectorGaps n m res d i j ≠ none) := by
  refine ⟨⟨fun h => ⟨fun c => h ?_, fun c => h ?_, fun c => h ?_, fun c => h ?_⟩, ?_⟩, ?_⟩
  · exact normal_none hij res d (.inl c)
  · exact normal_none hij res d (.inr (.inl c))
  · exact normal_none hij res d (.inr (.inr (.inl c)))
  · exact normal_none hij res d (.inr (.inr (.inr c)))
  · rintro ⟨x1, x2, x3, x4⟩
    obtain ⟨a, ha⟩ := isSome_elim x1
    obtain ⟨b, hb⟩ := isSome_elim x2
    obtain ⟨c, hc⟩ := isSome_elim x3
    obtain ⟨g, hg⟩ := isSome_elim x4
    obtain ⟨h1, h2, h3, h4⟩ := hij
    have hs : ¬(n < 3 ∨ m < 3) := by omega
    rw [normalVectorGaps, if_neg hs]
    simp only [copyRow, copyCol, rollCols, rollRows]
    rw [if_neg (show ¬j = m - 1 by omega), if_neg (show ¬i = 0 by omega), idx_next (show j + 1 < m by omega),
      idx_prev (show 1 ≤ i by omega) (show i < n by omega), ha, hb, hc, hg]
    exact Option.some_ne_none _
  · simp [directGaps]

/-- **C134** (curvature). The curvature of a pixel exists if and only if the pixel and the eight cells at distance `k`
(moved to the border where they would lie outside) have an elevation, and is then that of any completed raster. -/
theorem C134_curvature (n m k : ℕ) (L : ℝ) (d : ℕ → ℕ → Option ℝ) (e : ℕ → ℕ → ℝ) (he : Completes e d) (i j : ℕ) :
    (curvatureGaps n m k L d i j ≠ none ↔
      ∀ p ∈ [i - k, i, min (i + k) (n - 1)], ∀ q ∈ [j - k, j, min (j + k) (m - 1)], d p q ≠ none) ∧
    (curvatureGaps n m k L d i j ≠ none → curvatureGaps n m k L d i j = some (curvature n m k L e i j)) := by
  have key : curvatureGaps n m k L d i j ≠ none → d i j = some (e i j) ∧
      ∀ r < 8, shiftEdge n m k r d i j = some (shiftEdge n m k r e i j) := by
    intro h
    have lift : ∀ p q, d p q ≠ none → d p q = some (e p q) := fun p q h => by
      obtain ⟨z, hz⟩ := isSome_elim h
      rw [hz, he p q z hz]
    refine ⟨lift _ _ fun c => h (by simp [curvatureGaps, c]), fun r hr => ?_⟩
    refine lift _ _ fun c => h ?_
    have c' : shiftEdge n m k r d i j = none := c
    interval_cases r <;> simp [curvatureGaps, c']
  refine ⟨⟨fun h => ?_, fun h => ?_⟩, fun h => ?_⟩
  · obtain ⟨h1, h2⟩ := key h
    have g := fun r hr => (h2 r hr).trans_ne (Option.some_ne_none _)
    have g0 := g 0 (by omega)
    have g1 := g 1 (by omega)
    have g2 := g 2 (by omega)
    have g3 := g 3 (by omega)
    have g4 := g 4 (by omega)
    have g5 := g 5 (by omega)
    have g6 := g 6 (by omega)
    have g7 := g 7 (by omega)
    simp only [shiftEdge, shiftIdx] at g0 g1 g2 g3 g4 g5 g6 g7
    have g8 : d i j ≠ none := h1.trans_ne (Option.some_ne_none _)
    intro p hp q hq
    simp only [List.mem_cons, List.not_mem_nil, or_false] at hp hq
    rcases hp with hp | hp | hp <;> rcases hq with hq | hq | hq <;> rw [hp, hq] <;> assumption
  · have g : ∀ p ∈ [i - k, i, min (i + k) (n - 1)], ∀ q ∈ [j - k, j, min (j + k) (m - 1)], ∃ z, d p q = some z :=
      fun p hp q hq => isSome_elim (h p hp q hq)
    obtain ⟨a, ha⟩ := g i (by simp) j (by simp)
    obtain ⟨a0, h0⟩ := g (min (i + k) (n - 1)) (by simp) j (by simp)
    obtain ⟨a1, h1⟩ := g (min (i + k) (n - 1)) (by simp) (j - k) (by simp)
    obtain ⟨a2, h2⟩ := g i (by simp) (j - k) (by simp)
    obtain ⟨a3, h3⟩ := g (i - k) (by simp) (j - k) (by simp)
    obtain ⟨a4, h4⟩ := g (i - k) (by simp) j (by simp)
    obtain ⟨a5, h5⟩ := g (i - k) (by simp) (min (j + k) (m - 1)) (by simp)
    obtain ⟨a6, h6⟩ := g i (by simp) (min (j + k) (m - 1)) (by simp)
    obtain ⟨a7, h7⟩ := g (min (i + k) (n - 1)) (by simp) (min (j + k) (m - 1)) (by simp)
    simp only [curvatureGaps, shiftEdge, shiftIdx]
    rw [ha, h0, h1, h2, h3, h4, h5, h6, h7]
    exact Option.some_ne_none _
  · obtain ⟨h1, h2⟩ := key h
    rw [curvatureGaps, h1, h2 0 (by omega), h2 1 (by omega), h2 2 (by omega), h2 3 (by omega), h2 4 (by omega),
      h2 5 (by omega), h2 6 (by omega), h2 7 (by omega)]
    rfl

/-- **C134 is false.** Every missing elevation spreads: the pixels around it that do not lie at the border of the raster
have neither slope nor aspect, and those to the south, west and south-west have no normal vector and no direct
irradiance, although they have an elevation. -/
theorem C134_spread_false {n m p q : ℕ} (res : ℝ) (d : ℕ → ℕ → Option ℝ) (hd : d p q = none) :
    (∀ i j, Interior n m i j → Near n m i j p q → ¬(p = i ∧ q = j) →
      slopeAspectGaps n m res d i j = (none, none)) ∧
    (∀ i j, Interior n m i j → (p = i ∨ p + 1 = i) → (q = j ∨ q = j + 1) →
      normalVectorGaps n m res d i j = none ∧
        ∀ x : ClearSky.Input, directGaps x (normalVectorGaps n m res d i j) = none) := by
  refine ⟨fun i j hij hN hne => ?_, fun i j hij hp hq => ?_⟩
  · have h := C134_slope hij res d
    have h1 : (slopeAspectGaps n m res d i j).1 = none := by
      by_contra c
      exact h.1.mp c p q hN hne hd
    have h2 : (slopeAspectGaps n m res d i j).2 = none := by
      by_contra c
      exact h.2.mp c h1
    exact Prod.ext h1 h2
  · have h1 : normalVectorGaps n m res d i j = none := by
      apply normal_none hij
      rcases hp with hp | hp <;> rcases hq with hq | hq
      · left; rw [← hp, ← hq]; exact hd
      · right; left; rw [← hp, ← hq]; exact hd
      · right; right; left; rw [← hp, ← hq]; exact hd
      · right; right; right; rw [← hp, ← hq]; exact hd
    exact ⟨h1, fun x => by rw [h1]; rfl⟩

/-- Five by five pixels without data in the north-eastern corner of the inner square. -/
def exGaps : ℕ → ℕ → Option ℝ := fun i j => if i = 1 ∧ j = 3 then none else some (100 * i)

/-- The pixel in the middle has an elevation but no slope and no normal vector. -/
example : exGaps 2 2 = some (100 * (2 : ℕ)) ∧ slopeAspectGaps 5 5 50 exGaps 2 2 = (none, none) ∧
    normalVectorGaps 5 5 50 exGaps 2 2 = none := by
  have h := C134_spread_false (n := 5) (m := 5) (p := 1) (q := 3) 50 exGaps (by simp [exGaps])
  refine ⟨by norm_num [exGaps], h.1 2 2 (by simp [Interior]) (by simp [Near]) (by simp), ?_⟩
  exact (h.2 2 2 (by simp [Interior]) (by simp) (by simp)).1

/-- The pixel in the south-western corner has complete surroundings. -/
example : normalVectorGaps 5 5 50 exGaps 4 0 = some (normalVector 5 5 50 (fun i _ => 100 * i) 4 0) := by
  refine (C134_complete_partial (by norm_num) (by norm_num) (by norm_num) (by norm_num) 50 exGaps _ ?_ ?_).2
  · intro p q z h
    simp only [exGaps] at h
    split_ifs at h
    exact Option.some.inj h
  · rintro p q ⟨_, _, a1, a2, a3, a4⟩
    simp only [exGaps]
    rw [if_neg (by omega)]
    exact Option.some_ne_none _

end Verif.Terrain
