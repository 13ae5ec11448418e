import Verif.Model.MultiLayer
import Verif.Lemmas.ListSum

/-!
Helper lemmas for the melt loop of the multilayer model.
-/

set_option linter.unusedSectionVars false

namespace Verif.MultiLayer

variable {K : Type*} [Field K] [LinearOrder K] [IsStrictOrderedRing K]

/-- Melt equivalent of the heat above the melting point in a layer (kg m-2). -/
def warmMelt (L : Layer K) : K := max (L.heatCap * (L.temp - T0) / LF) 0

/-- How a single layer may change during melt. -/
structure MeltRel (L L' : Layer K) : Prop where
  ice_nonneg : 0 ≤ L'.ice
  ice_le : L'.ice ≤ L.ice
  lwc_eq : L'.lwc = L.lwc + (L.ice - L'.ice)
  thick_le : 0 ≤ L.thick → L'.thick ≤ L.thick
  thick_nonneg : 0 ≤ L.thick → 0 ≤ L'.thick
  thick_prop : 0 < L.ice → L'.thick * L.ice = L.thick * L'.ice
  temp_eq : 0 < L.heatCap → L'.temp = min L.temp T0
  heatCap_eq : L'.heatCap = L.heatCap

theorem warm_eq (L : Layer K) (s : K) :
    (if L.heatCap * (T0 - L.temp) < 0 then s - L.heatCap * (T0 - L.temp) / LF else s)
      = s + warmMelt L := by
  have hLF : (0 : K) < LF := LF_pos
  unfold warmMelt
  have e : L.heatCap * (L.temp - T0) / LF = -(L.heatCap * (T0 - L.temp) / LF) := by ring
  split_ifs with h
  · have : L.heatCap * (T0 - L.temp) / LF < 0 := div_neg_of_neg_of_pos h hLF
    rw [max_eq_left (by rw [e]; linarith), e]; ring
  · have : 0 ≤ L.heatCap * (T0 - L.temp) / LF := div_nonneg (not_lt.mp h) hLF.le
    rw [max_eq_right (by rw [e]; linarith)]; ring

theorem warmMelt_nonneg (L : Layer K) : 0 ≤ warmMelt L := le_max_right _ _

theorem temp_eq_min (L : Layer K) (h : 0 < L.heatCap) :
    (if L.heatCap * (T0 - L.temp) < 0 then T0 else L.temp) = min L.temp T0 := by
  split_ifs with hc
  · have : T0 - L.temp < 0 := by
      by_contra hh
      have := mul_nonneg h.le (not_lt.mp hh)
      linarith
    rw [min_eq_right (by linarith)]
  · have : 0 ≤ T0 - L.temp := by
      by_contra hh
      exact hc (mul_neg_of_pos_of_neg h (not_le.mp hh))
    rw [min_eq_left (by linarith)]

theorem meltLayer_spec (s : MeltAcc K) (L : Layer K) (hs : 0 ≤ s.change) (hi : 0 ≤ L.ice) :
    let r := meltLayer s L
    MeltRel L r.2 ∧ r.1.actual = s.actual + (L.ice - r.2.ice) ∧
      L.ice - r.2.ice = min (s.change + warmMelt L) L.ice ∧
      r.1.change = s.change + warmMelt L - (L.ice - r.2.ice) ∧ 0 ≤ r.1.change := by
  have hw := warmMelt_nonneg L
  have hwe := warm_eq L s.change
  simp only [meltLayer, hwe]
  by_cases h1 : 0 < s.change + warmMelt L
  · by_cases h2 : L.ice < s.change + warmMelt L
    · simp only [h1, h2, if_true]
      refine ⟨⟨le_refl _, hi, by simp, fun h => h, fun _ => le_refl _, by simp,
        temp_eq_min L, rfl⟩, by simp, by simp [h2.le], by simp, by
          show 0 ≤ s.change + warmMelt L - L.ice
          linarith⟩
    · simp only [h1, h2, if_true, if_false]
      have h2' := not_lt.mp h2
      have hpos : 0 < L.ice := lt_of_lt_of_le h1 h2'
      have hq : 0 ≤ (s.change + warmMelt L) / L.ice := div_nonneg h1.le hi
      have hq1 : (s.change + warmMelt L) / L.ice ≤ 1 := (div_le_one hpos).mpr h2'
      refine ⟨⟨sub_nonneg.mpr h2', ?_, by simp, fun h => ?_, fun h => ?_, fun _ => ?_,
        temp_eq_min L, rfl⟩, by simp, by simp [h2'], by simp, le_refl _⟩
      · show L.ice - _ ≤ L.ice
        linarith
      · exact mul_le_of_le_one_right h (by linarith)
      · exact mul_nonneg h (by linarith)
      · show L.thick * (1 - (s.change + warmMelt L) / L.ice) * L.ice = _
        field_simp
  · simp only [h1, if_false]
    have h0 : s.change + warmMelt L = 0 := le_antisymm (not_lt.mp h1) (by linarith)
    refine ⟨⟨hi, le_refl _, by simp, fun h => le_refl _, fun h => h, fun _ => rfl,
      temp_eq_min L, rfl⟩, by simp, by simp [h0, hi], by simp, ?_⟩
    show 0 ≤ s.change + warmMelt L
    linarith

theorem meltLoop_length (s : MeltAcc K) (Ls : List (Layer K)) :
    (meltLoop s Ls).2.length = Ls.length := by
  induction Ls generalizing s with
  | nil => rfl
  | cons L Ls ih => simp [meltLoop, ih]

/-- Everything about the loop, by induction over the layers. -/
theorem meltLoop_spec (Ls : List (Layer K)) :
    ∀ s : MeltAcc K, 0 ≤ s.change → (∀ L ∈ Ls, 0 ≤ L.ice) →
    let r := meltLoop s Ls
    List.Forall₂ MeltRel Ls r.2 ∧
      r.1.actual = s.actual + ((Ls.map Layer.ice).sum - (r.2.map Layer.ice).sum) ∧
      (r.2.map Layer.lwc).sum = (Ls.map Layer.lwc).sum
        + ((Ls.map Layer.ice).sum - (r.2.map Layer.ice).sum) ∧
      0 ≤ r.1.change ∧
      r.1.change = s.change + (Ls.map warmMelt).sum
        - ((Ls.map Layer.ice).sum - (r.2.map Layer.ice).sum) := by
  induction Ls with
  | nil => intro s hs _; simp [meltLoop, hs]
  | cons L Ls ih =>
    intro s hs hice
    obtain ⟨h1, h2, h3, h4, h5⟩ := meltLayer_spec s L hs (hice L (by simp))
    obtain ⟨g1, g2, g3, g4, g5⟩ := ih (meltLayer s L).1 h5 (fun x hx => hice x (by simp [hx]))
    refine ⟨List.Forall₂.cons h1 g1, ?_, ?_, g4, ?_⟩
    · simp only [meltLoop, List.map_cons, List.sum_cons]; rw [g2, h2]; ring
    · simp only [meltLoop, List.map_cons, List.sum_cons]; rw [g3, h1.lwc_eq]; ring
    · simp only [meltLoop, List.map_cons, List.sum_cons]; rw [g5, h4]; ring

/-- Cumulative melt from the top. -/
theorem meltLoop_prefix (Ls : List (Layer K)) :
    ∀ (s : MeltAcc K) (k : ℕ) (hk : k < Ls.length), 0 ≤ s.change → (∀ L ∈ Ls, 0 ≤ L.ice) →
    let r := (meltLoop s Ls).2
    ((Ls.take (k + 1)).map Layer.ice).sum - ((r.take (k + 1)).map Layer.ice).sum =
      min (s.change + ((Ls.take (k + 1)).map warmMelt).sum)
        (((Ls.take k).map Layer.ice).sum - ((r.take k).map Layer.ice).sum + Ls[k].ice) := by
  induction Ls with
  | nil => intro s k hk; simp at hk
  | cons L Ls ih =>
    intro s k hk hs hice
    obtain ⟨h1, h2, h3, h4, h5⟩ := meltLayer_spec s L hs (hice L (by simp))
    cases k with
    | zero => simpa [meltLoop] using h3
    | succ k =>
      have := ih (meltLayer s L).1 k (by simpa using hk) h5 (fun x hx => hice x (by simp [hx]))
      simp only [meltLoop, List.take_succ_cons, List.map_cons, List.sum_cons,
        List.getElem_cons_succ] at this ⊢
      rw [h4] at this
      have e : ∀ a b c d : K, a + b - (c + d) = (a - c) + (b - d) := by intros; ring
      rw [e, this, ← min_add_add_left]
      congr 1 <;> ring

end Verif.MultiLayer
