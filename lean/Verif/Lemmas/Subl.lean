import Verif.Lemmas.Snowpack

/-! Helper lemmas for the sublimation loop of the multilayer model. -/

set_option linter.unusedSectionVars false

namespace Verif.MultiLayer

variable {K : Type*} [Field K] [LinearOrder K] [IsStrictOrderedRing K]

/-- How a single layer may change during sublimation. -/
structure SublRel (L L' : Layer K) : Prop where
  ice_nonneg : 0 ≤ L'.ice
  ice_le : L'.ice ≤ L.ice
  lwc_eq : L'.lwc = L.lwc
  temp_eq : L'.temp = L.temp
  heatCap_eq : L'.heatCap = L.heatCap
  thick_le : 0 ≤ L.thick → L'.thick ≤ L.thick
  thick_nonneg : 0 ≤ L.thick → 0 ≤ L'.thick
  thick_prop : 0 < L.ice → L'.thick * L.ice = L.thick * L'.ice

theorem sublLayer_spec (c : K) (L : Layer K) (hc : 0 ≤ c) (hi : 0 ≤ L.ice) (c' : K) (L' : Layer K)
    (h : sublLayer c L = some (c', L')) :
    SublRel L L' ∧ 0 ≤ c' ∧ L.ice - L'.ice = min c L.ice ∧ c' = c - min c L.ice := by
  unfold sublLayer at h
  split_ifs at h with h1 h2
  · simp only [Option.some.injEq, Prod.mk.injEq] at h
    obtain ⟨rfl, rfl⟩ := h
    refine ⟨⟨le_refl _, hi, rfl, rfl, rfl, fun h => h, fun _ => le_refl _, by simp⟩,
      by linarith, by simp [h1.le], by simp [h1.le]⟩
  · simp only [Option.some.injEq, Prod.mk.injEq] at h
    obtain ⟨rfl, rfl⟩ := h
    have h1' := not_lt.mp h1
    have hpos : 0 < L.ice := lt_of_le_of_ne hi (Ne.symm h2)
    have hq : 0 ≤ c / L.ice := div_nonneg hc hi
    have hq1 : c / L.ice ≤ 1 := (div_le_one hpos).mpr h1'
    refine ⟨⟨sub_nonneg.mpr h1', ?_, rfl, rfl, rfl, fun h => ?_, fun h => ?_, fun _ => ?_⟩,
      le_refl _, by simp [h1'], by simp [h1']⟩
    · show L.ice - c ≤ L.ice
      linarith
    · exact mul_le_of_le_one_right h (by linarith)
    · exact mul_nonneg h (by linarith)
    · show L.thick * (1 - c / L.ice) * L.ice = L.thick * (L.ice - c)
      field_simp

theorem sublLoop_spec (Ls : List (Layer K)) : ∀ (c : K), 0 ≤ c → (∀ L ∈ Ls, 0 ≤ L.ice) →
    ∀ c' Ls', sublLoop c Ls = some (c', Ls') →
    List.Forall₂ SublRel Ls Ls' ∧ 0 ≤ c' ∧
      (∀ k ≤ Ls.length, ((Ls.take k).map Layer.ice).sum - ((Ls'.take k).map Layer.ice).sum
        = min c ((Ls.take k).map Layer.ice).sum) := by
  induction Ls with
  | nil =>
    intro c hc _ c' Ls' h
    simp only [sublLoop, Option.some.injEq, Prod.mk.injEq] at h
    obtain ⟨rfl, rfl⟩ := h
    refine ⟨.nil, hc, fun k _ => by simp [hc]⟩
  | cons L Ls ih =>
    intro c hc hice c' Ls' h
    simp only [sublLoop, Option.bind_eq_bind, Option.bind_eq_some_iff, Option.pure_def,
      Option.some.injEq, Prod.mk.injEq] at h
    obtain ⟨⟨c1, L1⟩, h1, ⟨c2, Ls2⟩, h2, rfl, rfl⟩ := h
    obtain ⟨a1, a2, a3, a4⟩ := sublLayer_spec c L hc (hice L (by simp)) c1 L1 h1
    obtain ⟨b1, b2, b3⟩ := ih c1 a2 (fun x hx => hice x (by simp [hx])) c2 Ls2 h2
    refine ⟨.cons a1 b1, b2, fun k hk => ?_⟩
    cases k with
    | zero => simp [hc]
    | succ k =>
      have := b3 k (by simpa using hk)
      simp only [List.take_succ_cons, List.map_cons, List.sum_cons]
      have hS : 0 ≤ ((Ls.take k).map Layer.ice).sum :=
        sum_map_nonneg _ _ fun x hx => hice x (by simp [List.mem_of_mem_take hx])
      have e : ∀ a b c d : K, a + b - (c + d) = (a - c) + (b - d) := by intros; ring
      rw [e, this, a3, a4]
      rcases le_total c L.ice with hl | hl
      · simp only [min_eq_left hl, sub_self, min_eq_left hS]
        rw [min_eq_left (by linarith)]; ring
      · simp only [min_eq_right hl]
        rw [← min_add_add_left]; congr 1; ring

/-- The loop is undefined exactly if an empty layer is met after the demand is used up. -/
theorem sublLoop_none_iff (Ls : List (Layer K)) : ∀ (c : K), 0 ≤ c → (∀ L ∈ Ls, 0 ≤ L.ice) →
    (sublLoop c Ls = none ↔
      ∃ k L, Ls[k]? = some L ∧ L.ice = 0 ∧ c ≤ ((Ls.take k).map Layer.ice).sum) := by
  induction Ls with
  | nil => intro c _ _; simp [sublLoop]
  | cons L Ls ih =>
    intro c hc hice
    have hi : 0 ≤ L.ice := hice L (by simp)
    have hice' : ∀ x ∈ Ls, 0 ≤ x.ice := fun x hx => hice x (by simp [hx])
    by_cases h1 : L.ice < c
    · have hs : sublLoop c (L :: Ls) = none ↔ sublLoop (c - L.ice) Ls = none := by
        simp only [sublLoop, sublLayer, h1, if_true, Option.bind_eq_bind, Option.bind_some,
          Option.bind_eq_none_iff, Option.pure_def]
        constructor
        · intro h
          by_contra hne
          obtain ⟨x, hx⟩ := Option.ne_none_iff_exists'.mp hne
          simpa using h x hx
        · intro h; simp [h]
      rw [hs, ih (c - L.ice) (by linarith) hice']
      constructor
      · rintro ⟨k, M, a, b, d⟩
        exact ⟨k + 1, M, by simpa using a, b, by
          simp only [List.take_succ_cons, List.map_cons, List.sum_cons]; linarith⟩
      · rintro ⟨k, M, a, b, d⟩
        cases k with
        | zero =>
          exfalso
          simp only [List.take_zero, List.map_nil, List.sum_nil] at d
          linarith
        | succ k =>
          refine ⟨k, M, by simpa using a, b, ?_⟩
          simp only [List.take_succ_cons, List.map_cons, List.sum_cons] at d
          linarith
    · by_cases h2 : L.ice = 0
      · have : c = 0 := le_antisymm (by rw [← h2]; exact not_lt.mp h1) hc
        have hn : sublLoop c (L :: Ls) = none := by
          simp only [sublLoop, sublLayer, h1, if_false]
          rw [if_pos h2]; rfl
        exact ⟨fun _ => ⟨0, L, by simp, h2, by simp [this]⟩, fun _ => hn⟩
      · have hs : sublLoop c (L :: Ls) = none ↔ sublLoop 0 Ls = none := by
          simp only [sublLoop, sublLayer, h1, h2, if_false, Option.bind_eq_bind, Option.bind_some,
            Option.bind_eq_none_iff, Option.pure_def]
          constructor
          · intro h
            by_contra hne
            obtain ⟨x, hx⟩ := Option.ne_none_iff_exists'.mp hne
            simpa using h x hx
          · intro h; simp [h]
        rw [hs, ih 0 le_rfl hice']
        have hsum : ∀ k, 0 ≤ ((Ls.take k).map Layer.ice).sum := fun k =>
          sum_map_nonneg _ _ fun x hx => hice' x (List.mem_of_mem_take hx)
        constructor
        · rintro ⟨k, M, a, b, d⟩
          exact ⟨k + 1, M, by simpa using a, b, by
            simp only [List.take_succ_cons, List.map_cons, List.sum_cons]
            linarith [not_lt.mp h1]⟩
        · rintro ⟨k, M, a, b, d⟩
          cases k with
          | zero =>
            simp only [List.length_cons, Nat.zero_lt_succ, List.getElem?_eq_getElem,
              List.getElem_cons_zero, Option.some.injEq] at a
            exact absurd (a ▸ b) h2
          | succ k => exact ⟨k, M, by simpa using a, b, hsum k⟩

end Verif.MultiLayer
