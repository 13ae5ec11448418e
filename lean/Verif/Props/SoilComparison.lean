import Verif.Props.Evapo

/-!
# C156: a pixel with more rain is never drier
-/

set_option linter.unusedSectionVars false

namespace Verif.SoilComparison

open Verif.Evapo

variable {K : Type*} [Field K] [LinearOrder K] [IsStrictOrderedRing K]

/-! ## Specification -/

/-- Specification: the weather of the first sealed pixel is at least as wet. -/
def WetterSealed (i j : SealedIn K) : Prop :=
  i.snow = j.snow ∧ j.rain.getD 0 ≤ i.rain.getD 0 ∧ i.pot.getD 0 ≤ j.pot.getD 0

/-- Specification: potential evapotranspiration of a time step (kg m-2). -/
def demand (i : EtIn K) : K := i.kcb * i.etRef.getD 0

/-- Specification: the weather of the first vegetated pixel is at least as wet. -/
def Wetter (i j : EtIn K) : Prop :=
  i.snow = j.snow ∧ j.rain.getD 0 ≤ i.rain.getD 0 ∧ demand i ≤ demand j

/-- Specification: no time step that has rain and a demand that takes an unstressed soil beyond the
wilting point. -/
def Mild (s : Soil K) (i : EtIn K) : Prop :=
  0 ≤ demand i ∧ (demand i ≤ s.taw - s.raw ∨ i.rain.getD 0 ≤ 0)

/-! ## Helper lemmas -/

theorem sealed_eq (m w : K) (i : SealedIn K) :
    (sealedStep m w i).1 = if i.snow then w else if 0 < i.rain.getD 0 then min (w + i.rain.getD 0) m
      else w - min (max (i.pot.getD 0) 0) w := by
  unfold sealedStep nn
  cases i.snow with
  | true => rfl
  | false =>
    cases i.rain with
    | none => simp
    | some r =>
      simp only [Bool.false_eq_true, if_false, Option.getD_some]
      split_ifs
      · simp only
        rcases le_total (w + r) m with h | h
        · rw [max_eq_right (by linarith), min_eq_left h, sub_zero]
        · rw [max_eq_left (by linarith), min_eq_right h]; ring
      · rfl

theorem dry_eq (w p : K) (hw : 0 ≤ w) : w - min (max p 0) w = max (w - max p 0) 0 := by
  rcases le_total (max p 0) w with h | h
  · rw [min_eq_left h, max_eq_left (a := w - max p 0) (by linarith)]
  · rw [min_eq_right h, max_eq_right (a := w - max p 0) (by linarith), sub_self]

theorem sealed_range (m w : K) (i : SealedIn K) (h0 : 0 ≤ w) (h1 : w ≤ m) :
    0 ≤ (sealedStep m w i).1 ∧ (sealedStep m w i).1 ≤ m := by
  rw [sealed_eq]
  split_ifs with h2 h3
  · exact ⟨h0, h1⟩
  · exact ⟨le_min (by linarith) (h0.trans h1), min_le_right _ _⟩
  · have := min_le_right (max (i.pot.getD 0) 0) w
    have := le_min (le_max_right (i.pot.getD 0) 0) h0
    constructor <;> linarith

theorem sealed_mono (m w v : K) (i j : SealedIn K) (hv : 0 ≤ v) (hvw : v ≤ w) (hm : w ≤ m)
    (h : WetterSealed i j) : (sealedStep m v j).1 ≤ (sealedStep m w i).1 := by
  obtain ⟨a, b, c⟩ := h
  have hw := hv.trans hvw
  rw [sealed_eq, sealed_eq, a]
  by_cases hs : j.snow = true
  · simpa [hs] using hvw
  simp only [hs, Bool.false_eq_true, if_false]
  by_cases hj : 0 < j.rain.getD 0
  · rw [if_pos hj, if_pos (hj.trans_le b)]
    exact min_le_min (by linarith) le_rfl
  · rw [if_neg hj]
    have := le_min (le_max_right (j.pot.getD 0) 0) hv
    by_cases hi : 0 < i.rain.getD 0
    · rw [if_pos hi]
      exact le_min (by linarith) (by linarith)
    · rw [if_neg hi, dry_eq v _ hv, dry_eq w _ hw]
      exact max_le_max (sub_le_sub hvw (max_le_max c le_rfl)) le_rfl

theorem sealed_near (m w v : K) (i : SealedIn K) (hvw : v ≤ w) :
    (sealedStep m w i).1 - (sealedStep m v i).1 ≤ w - v := by
  rw [sealed_eq, sealed_eq]
  split_ifs
  · exact le_rfl
  · rcases le_total (v + i.rain.getD 0) m with h | h
    · rw [min_eq_left h]
      have := min_le_left (w + i.rain.getD 0) m
      linarith
    · rw [min_eq_right h]
      have := min_le_right (w + i.rain.getD 0) m
      linarith
  · have : min (max (i.pot.getD 0) 0) v ≤ min (max (i.pot.getD 0) 0) w := min_le_min le_rfl hvw
    linarith

theorem sealedRun_cons (m w : K) (i : SealedIn K) (is : List (SealedIn K)) :
    (sealedRun m w (i :: is)).1 = (sealedRun m (sealedStep m w i).1 is).1 := rfl

theorem root_eq (s : Soil K) (dr rain et : K) :
    (rootBalance s dr rain et).2 = min (max (dr + et - rain) 0) s.taw := by
  simp only [rootBalance]
  congr 1
  rcases le_total (rain - et - dr) 0 with h | h
  · rw [max_eq_right h, add_zero]; congr 1; ring
  · rw [max_eq_left h, max_eq_right (show dr + et - rain ≤ 0 by linarith)]
    rw [show dr - rain + et + (rain - et - dr) = 0 by ring, max_self]

/-- Stress coefficients of two depletions. -/
theorem stress_pair (s : Soil K) (h : s.raw < s.taw) (d d' : K) (hd : d ≤ d') :
    ∃ k k', stress s d = some k ∧ stress s d' = some k' ∧ 0 ≤ k' ∧ k' ≤ k ∧
      (k - k') * (s.taw - s.raw) ≤ d' - d := by
  obtain ⟨k, k', a, b, -, -, c, -⟩ := C38_stress s h d d' hd
  obtain ⟨k₂, b', e, -⟩ := stress_some s h d'
  obtain rfl : k' = k₂ := Option.some.inj (b.symm.trans b')
  refine ⟨k, k', a, b, e, c, ?_⟩
  have hp : 0 < s.taw - s.raw := by linarith
  simp only [stress, if_neg h.ne', Option.some.injEq] at a b
  have key : k - k' ≤ (d' - d) / (s.taw - s.raw) := by
    have e1 : (s.taw - d) / (s.taw - s.raw) =
        (s.taw - d') / (s.taw - s.raw) + (d' - d) / (s.taw - s.raw) := by rw [← add_div]; congr 1; ring
    have e2 : 0 ≤ (d' - d) / (s.taw - s.raw) := div_nonneg (by linarith) hp.le
    rw [← a, ← b, e1]
    generalize (s.taw - d') / (s.taw - s.raw) = x
    generalize (d' - d) / (s.taw - s.raw) = y at e2
    have f1 : max (x + y) 0 ≤ max x 0 + y := max_le (by linarith [le_max_left x 0])
      (by linarith [le_max_right x 0])
    rcases le_total (max x 0) 1 with g | g
    · rw [min_eq_left g]
      linarith [min_le_left (max (x + y) 0) 1]
    · rw [min_eq_right g]
      linarith [min_le_right (max (x + y) 0) 1]
  calc (k - k') * (s.taw - s.raw) ≤ (d' - d) / (s.taw - s.raw) * (s.taw - s.raw) :=
        mul_le_mul_of_nonneg_right key hp.le
    _ = d' - d := div_mul_cancel₀ _ hp.ne'

/-- A strong demand without rain takes every stressed soil to the wilting point. -/
theorem wilt (s : Soil K) (h : s.raw < s.taw) (d k c r : K) (hd : d ≤ s.taw) (hr : r ≤ 0)
    (hc : s.taw - s.raw ≤ c) (hk : stress s d = some k) :
    k = 1 ∨ s.taw ≤ min (max (d + c * k - r) 0) s.taw := by
  have hp : 0 < s.taw - s.raw := by linarith
  simp only [stress, if_neg h.ne', Option.some.injEq] at hk
  have h0 : 0 ≤ (s.taw - d) / (s.taw - s.raw) := div_nonneg (by linarith) hp.le
  rw [max_eq_left h0] at hk
  rcases le_total 1 ((s.taw - d) / (s.taw - s.raw)) with g | g
  · rw [min_eq_right g] at hk; exact Or.inl hk.symm
  · rw [min_eq_left g] at hk
    refine Or.inr (le_min (le_max_of_le_left ?_) le_rfl)
    have : (s.taw - s.raw) * k ≤ c * k := mul_le_mul_of_nonneg_right hc (hk ▸ h0)
    rw [← hk, mul_div_cancel₀ _ hp.ne', hk] at this
    linarith

theorem clip_near (x y t : K) (h : x ≤ y) : min (max y 0) t - min (max x 0) t ≤ y - x := by
  have f : max y 0 ≤ max x 0 + (y - x) := max_le (by linarith [le_max_left x 0])
    (by linarith [le_max_right x 0])
  rcases le_total (max x 0) t with g | g
  · rw [min_eq_left g]; linarith [min_le_left (max y 0) t]
  · rw [min_eq_right g]; linarith [min_le_right (max y 0) t]

theorem single_mono (s : Soil K) (h : s.raw < s.taw) (st st' : St K) (i j : EtIn K)
    (hd : st.dr ≤ st'.dr) (ht : st'.dr ≤ s.taw) (hw : Wetter i j) (hm : Mild s j) :
    ∃ u u' o o', singleStep s st i = some (u, o) ∧ singleStep s st' j = some (u', o') ∧
      u.dr ≤ u'.dr ∧ u'.dr ≤ s.taw := by
  obtain ⟨a, b, c⟩ := hw
  obtain ⟨k, k', e, e', k0, k1, k2⟩ := stress_pair s h _ _ hd
  unfold singleStep
  rw [a]
  by_cases hs : j.snow = true
  · simp only [hs, if_true]
    refine ⟨_, _, _, _, rfl, rfl, ?_, by simp only [root_eq]; exact min_le_right _ _⟩
    simp only [root_eq, nn]
    exact min_le_min (max_le_max (by linarith) le_rfl) le_rfl
  · simp only [hs, if_false, e, e', Option.map_some, Bool.false_eq_true]
    refine ⟨_, _, _, _, rfl, rfl, ?_, by simp only [root_eq]; exact min_le_right _ _⟩
    simp only [root_eq, nn]
    have p1 : demand i * k ≤ demand j * k := mul_le_mul_of_nonneg_right c (k0.trans k1)
    rcases le_total (demand j) (s.taw - s.raw) with hc | hc
    · refine min_le_min (max_le_max ?_ le_rfl) le_rfl
      have p2 : demand j * (k - k') ≤ (s.taw - s.raw) * (k - k') :=
        mul_le_mul_of_nonneg_right hc (sub_nonneg.2 k1)
      unfold demand at p1 p2
      nlinarith
    · rcases hm.2 with hl | hr
      · refine min_le_min (max_le_max ?_ le_rfl) le_rfl
        have p2 : demand j * (k - k') ≤ (s.taw - s.raw) * (k - k') :=
          mul_le_mul_of_nonneg_right hl (sub_nonneg.2 k1)
        unfold demand at p1 p2
        nlinarith
      · rcases wilt s h st'.dr k' (demand j) _ ht hr hc e' with g | g
        · have hk : k = k' := by
            obtain ⟨k₂, f, -, f1⟩ := stress_some s h st.dr
            obtain rfl : k = k₂ := Option.some.inj (e.symm.trans f)
            exact le_antisymm (f1.trans g.ge) k1
          subst hk
          refine min_le_min (max_le_max ?_ le_rfl) le_rfl
          unfold demand at p1
          linarith
        · exact (min_le_right _ _).trans g

theorem single_near (s : Soil K) (h : s.raw < s.taw) (st st' : St K) (i : EtIn K)
    (hd : st.dr ≤ st'.dr) (ht : st'.dr ≤ s.taw) (hm : Mild s i) :
    ∃ u u' o o', singleStep s st i = some (u, o) ∧ singleStep s st' i = some (u', o') ∧
      u.dr ≤ u'.dr ∧ u'.dr ≤ s.taw ∧ u'.dr - u.dr ≤ st'.dr - st.dr := by
  obtain ⟨u, u', o, o', e, e', p, t⟩ := single_mono s h st st' i i hd ht ⟨rfl, le_rfl, le_rfl⟩ hm
  refine ⟨u, u', o, o', e, e', p, t, ?_⟩
  obtain ⟨k, k', f, f', k0, k1, k2⟩ := stress_pair s h _ _ hd
  have p3 : 0 ≤ demand i * (k - k') := mul_nonneg hm.1 (sub_nonneg.2 k1)
  unfold demand at p3
  unfold singleStep at e e'
  by_cases hs : i.snow = true
  · simp only [hs, if_true, Option.some.injEq, Prod.mk.injEq] at e e'
    rw [← e.1, ← e'.1]
    simp only [root_eq, nn]
    refine (clip_near _ _ _ (by linarith)).trans (by linarith)
  · simp only [hs, if_false, f, f', Option.map_some, Option.some.injEq, Prod.mk.injEq,
      Bool.false_eq_true] at e e'
    rw [← e.1, ← e'.1] at p ⊢
    simp only [root_eq, nn] at p ⊢
    rcases le_total (st.dr + i.kcb * i.etRef.getD 0 * k - i.rain.getD 0)
      (st'.dr + i.kcb * i.etRef.getD 0 * k' - i.rain.getD 0) with g | g
    · refine (clip_near _ _ _ g).trans (by nlinarith)
    · have := min_le_min (max_le_max g (le_refl (0 : K))) (le_refl s.taw)
      linarith

/-! ## Theorems -/

/-- **C156.** Sealed surfaces: with at least as much rain and at most as much potential evaporation
in every time step the intercepted water is at least as much at the end of a run. -/
theorem C156_sealed (m : K) (is js : List (SealedIn K)) (h : List.Forall₂ WetterSealed is js)
    (w v : K) (hv : 0 ≤ v) (hvw : v ≤ w) (hm : w ≤ m) :
    (sealedRun m v js).1 ≤ (sealedRun m w is).1 := by
  induction h generalizing w v with
  | nil => exact hvw
  | cons a _ ih =>
    rw [sealedRun_cons, sealedRun_cons]
    exact ih _ _ (sealed_range m v _ hv (hvw.trans hm)).1 (sealed_mono m w v _ _ hv hvw hm a)
      (sealed_range m w _ (hv.trans hvw) hm).2

/-- **C156.** Sealed surfaces: with the same weather the order of two runs remains and their
difference never increases. -/
theorem C156_sealed_approach (m : K) (is : List (SealedIn K)) (w v : K) (hv : 0 ≤ v) (hvw : v ≤ w)
    (hm : w ≤ m) :
    (sealedRun m v is).1 ≤ (sealedRun m w is).1 ∧
      (sealedRun m w is).1 - (sealedRun m v is).1 ≤ w - v := by
  induction is generalizing w v with
  | nil => exact ⟨hvw, le_rfl⟩
  | cons i is ih =>
    rw [sealedRun_cons, sealedRun_cons]
    obtain ⟨a, b⟩ := ih _ _ (sealed_range m v i hv (hvw.trans hm)).1
      (sealed_mono m w v i i hv hvw hm ⟨rfl, le_rfl, le_rfl⟩) (sealed_range m w i (hv.trans hvw) hm).2
    exact ⟨a, b.trans (sealed_near m w v i hvw)⟩

/-- **C156.** Root zone with single crop coefficients: with at least as much rain and at most as
much demand in every time step the depletion is at most as large at the end of a run. Both runs
exist. Missing for the full claim: time steps with rain and a demand above `TAW - RAW`
(`C156_strong_demand_false`) and dual crop coefficients (`C156_dual_false`). -/
theorem C156_root_zone_partial (s : Soil K) (h : s.raw < s.taw) (is js : List (EtIn K))
    (hw : List.Forall₂ Wetter is js) (hm : ∀ j ∈ js, Mild s j) (st st' : St K)
    (hd : st.dr ≤ st'.dr) (ht : st'.dr ≤ s.taw) :
    ∃ u u' os os', runSteps (singleStep s) st is = some (u, os) ∧
      runSteps (singleStep s) st' js = some (u', os') ∧ u.dr ≤ u'.dr := by
  induction hw generalizing st st' with
  | nil => exact ⟨_, _, _, _, rfl, rfl, hd⟩
  | cons a _ ih =>
    obtain ⟨u, u', o, o', e, e', p, v⟩ := single_mono s h st st' _ _ hd ht a (hm _ (by simp))
    obtain ⟨x, x', os, os', f, f', q⟩ := ih (fun j hj => hm j (List.mem_cons_of_mem _ hj)) u u' p
      v
    exact ⟨x, x', o :: os, o' :: os', by simp [runSteps, e, f], by simp [runSteps, e', f'], q⟩

/-- **C156.** Root zone with single crop coefficients: with the same weather the order of two runs
remains and their difference never increases. -/
theorem C156_root_zone_approach_partial (s : Soil K) (h : s.raw < s.taw) (is : List (EtIn K))
    (hm : ∀ i ∈ is, Mild s i) (st st' : St K) (hd : st.dr ≤ st'.dr) (ht : st'.dr ≤ s.taw) :
    ∃ u u' os os', runSteps (singleStep s) st is = some (u, os) ∧
      runSteps (singleStep s) st' is = some (u', os') ∧ u.dr ≤ u'.dr ∧
      u'.dr - u.dr ≤ st'.dr - st.dr := by
  induction is generalizing st st' with
  | nil => exact ⟨_, _, _, _, rfl, rfl, hd, le_rfl⟩
  | cons i is ih =>
    obtain ⟨u, u', o, o', e, e', p, v, r⟩ := single_near s h st st' i hd ht (hm _ (by simp))
    obtain ⟨x, x', os, os', f, f', q, t⟩ := ih (fun j hj => hm j (List.mem_cons_of_mem _ hj)) u u' p
      v
    exact ⟨x, x', o :: os, o' :: os', by simp [runSteps, e, f], by simp [runSteps, e', f'], q,
      t.trans r⟩

/-! ## Examples and witnesses -/

/-- A soil for the examples. -/
def exSoil : Soil ℚ := ⟨20, 8, 100, 50⟩

/-- A dry time step with a demand of 6 kg m-2. -/
def exDry : EtIn ℚ := ⟨false, some 6, some 0, 1, 12 / 10, 1 / 2⟩

/-- The same with rain. -/
def exRain : EtIn ℚ := { exDry with rain := some 15 }

example : List.Forall₂ Wetter [exDry, exRain, exDry] [exDry, exDry, exDry] ∧
    Mild exSoil exDry ∧ Mild exSoil { exDry with etRef := some 60 } ∧ exSoil.raw < exSoil.taw := by
  refine ⟨.cons ?_ (.cons ?_ (.cons ?_ .nil)), ?_, ?_, ?_⟩ <;>
    simp only [Wetter, Mild, demand, exDry, exRain, exSoil, Option.getD_some, true_and] <;> norm_num

example : (runSteps (singleStep exSoil) ⟨0, 0, 40⟩ [exDry, exRain, exDry]).map (fun p => p.1.dr) =
      some (43 : ℚ) ∧
    (runSteps (singleStep exSoil) ⟨0, 0, 40⟩ [exDry, exDry]).map (fun p => p.1.dr) = some 52 := by
  constructor <;> decide +kernel

example : List.Forall₂ WetterSealed [⟨false, some 1, some 2⟩, ⟨false, none, some (1 / 2)⟩]
      [⟨false, none, some (2 : ℚ)⟩, ⟨false, none, some 1⟩] ∧
    (sealedRun 2 1 [⟨false, none, some (2 : ℚ)⟩, ⟨false, none, some 1⟩]).1 = 0 ∧
    (sealedRun 2 1 [⟨false, some 1, some 2⟩, ⟨false, none, some ((1 : ℚ) / 2)⟩]).1 = 3 / 2 := by
  refine ⟨.cons ⟨rfl, ?_, ?_⟩ (.cons ⟨rfl, ?_, ?_⟩ .nil), ?_, ?_⟩ <;> decide +kernel

/-- Specification: the order claimed by C156 for two runs of a vegetated pixel that start at field
capacity. -/
def Ordered (step : Soil ℚ → St ℚ → EtIn ℚ → Option (St ℚ × EtOut ℚ)) : Prop :=
  ∀ (s : Soil ℚ) (is js : List (EtIn ℚ)) (u u' : St ℚ) (os os' : List (EtOut ℚ)),
    0 < s.raw → s.raw < s.taw → 0 < s.rew → s.rew < s.tew → List.Forall₂ Wetter is js →
    (∀ i ∈ is, 0 ≤ demand i ∧ 0 < i.few) →
    runSteps (step s) init is = some (u, os) → runSteps (step s) init js = some (u', os') →
    u.dr ≤ u'.dr

theorem ordered_dr {step : Soil ℚ → St ℚ → EtIn ℚ → Option (St ℚ × EtOut ℚ)} (h : Ordered step)
    (s : Soil ℚ) (hs : 0 < s.raw ∧ s.raw < s.taw ∧ 0 < s.rew ∧ s.rew < s.tew) (is js : List (EtIn ℚ))
    (hw : List.Forall₂ Wetter is js) (hp : ∀ i ∈ is, 0 ≤ demand i ∧ 0 < i.few) (a b : ℚ)
    (ha : (runSteps (step s) init is).map (fun p => p.1.dr) = some a)
    (hb : (runSteps (step s) init js).map (fun p => p.1.dr) = some b) : a ≤ b := by
  obtain ⟨⟨u, os⟩, e, rfl⟩ := Option.map_eq_some_iff.1 ha
  obtain ⟨⟨u', os'⟩, e', rfl⟩ := Option.map_eq_some_iff.1 hb
  exact h s is js u u' os os' hs.1 hs.2.1 hs.2.2.1 hs.2.2.2 hw hp e e'

/-- **C156.** A demand above `TAW - RAW` together with rain reverses the order: the drier soil is
stressed and keeps the rain, the wetter one evaporates it. -/
theorem C156_strong_demand_false : ¬ Ordered singleStep := by
  intro h
  have := ordered_dr h ⟨20, 8, 100, 95⟩ (by decide +kernel)
    [⟨false, some 95, some 0, 1, 1, 1⟩, ⟨false, some (15 / 2), some 5, 1, 1, 1⟩]
    [⟨false, some 100, some 0, 1, 1, 1⟩, ⟨false, some (15 / 2), some 5, 1, 1, 1⟩]
    (.cons ⟨rfl, by decide +kernel, by decide +kernel⟩
      (.cons ⟨rfl, by decide +kernel, by decide +kernel⟩ .nil))
    (by decide +kernel) (195 / 2) 95 (by decide +kernel) (by decide +kernel)
  norm_num at this

/-- A dry time step of a sparsely vegetated class. -/
def dry : EtIn ℚ := ⟨false, some 6, some 0, 2 / 10, 12 / 10, 1 / 2⟩

/-- The same with rain. -/
def wet : EtIn ℚ := { dry with rain := some 60 }

/-- **C156.** With dual crop coefficients the order is false for moderate demand as well: rain in
two consecutive time steps refills the evaporation layer, rain in one of them does not, so that the
pixel with more rain evaporates more afterwards and depletes the root zone further. -/
theorem C156_dual_false : ¬ Ordered dualStep := by
  intro h
  have same : ∀ i : EtIn ℚ, Wetter i i := fun i => ⟨rfl, le_rfl, le_rfl⟩
  have := ordered_dr h exSoil (by decide +kernel) [dry, dry, dry, dry, wet, wet, dry, dry]
    [dry, dry, dry, dry, wet, dry, dry, dry]
    (.cons (same _) (.cons (same _) (.cons (same _) (.cons (same _) (.cons (same _)
      (.cons ⟨rfl, by decide +kernel, by decide +kernel⟩ (.cons (same _) (.cons (same _) .nil))))))))
    (by decide +kernel) (48 / 5) (18 / 5) (by decide +kernel) (by decide +kernel)
  norm_num at this

end Verif.SoilComparison
