import Verif.Model.GapsCanopy
import Verif.Props.Canopy
import Verif.Props.Gaps

/-!
# C143: missing weather data and snow in the canopy

The claim that the state consists of numbers after a gap is false for the snow load of the canopy. Shown here: exactly
when it stays a number, and what follows for the ground below.
-/

namespace Verif.GapsCanopy

open Verif.Canopy (SnowCfg SnowIn SnowOut fillFactor snowStep snowRun)

/-- Complete data. -/
def ofIn (i : SnowIn) : In := ⟨i.cap, some i.snowfall, some i.rainfall, i.rate, some i.temp⟩

def ofOut (o : SnowOut) : Out :=
  ⟨some o.load, some o.intercepted, some o.subl, some o.melt, some o.snowfall, some o.precip⟩

/-- Specification: precipitation and temperature of the time step are known. -/
def Known (i : In) : Prop := i.snowfall ≠ none ∧ i.temp ≠ none

section aux

theorem newLoad_none (i : In) : newLoad none i = none := rfl

theorem step_none (c : SnowCfg) (i : In) : step c none i = ⟨none, none, none, none, none, none⟩ := by
  cases hs : i.snowfall <;> cases ht : i.temp <;> simp [step, newLoad_none, hs, ht]

theorem step_complete (c : SnowCfg) (l : ℝ) (i : SnowIn) (o : SnowOut) (h : snowStep c l i = some o) :
    step c (some l) (ofIn i) = ofOut o := by
  simp only [snowStep, Option.map_eq_some_iff] at h
  obtain ⟨f, hf, rfl⟩ := h
  simp [step, newLoad, ofIn, hf, exposure, ofOut]

theorem fill_some (s : ℝ) {cap : ℝ} (h : 0 < cap) : ∃ f, fillFactor s cap = some f :=
  ⟨_, by unfold fillFactor; rw [if_neg h.ne']⟩

theorem load_iff (c : SnowCfg) (l : ℝ) (i : In) (h : 0 < i.cap) : (step c (some l) i).load ≠ none ↔ Known i := by
  unfold Known
  cases hs : i.snowfall with
  | none => cases ht : i.temp <;> simp [step, newLoad, hs, ht]
  | some x =>
    obtain ⟨f, hf⟩ := fill_some x h
    cases ht : i.temp <;> simp [step, newLoad, hs, ht, hf]

theorem run_none (c : SnowCfg) (is : List In) : run c none is = (none, is.map fun _ => ⟨none, none, none, none, none, none⟩) := by
  induction is with
  | nil => rfl
  | cons i is ih => simp [run, step_none, ih]

theorem run_length (c : SnowCfg) (is : List In) (l : Option ℝ) : (run c l is).2.length = is.length := by
  induction is generalizing l with
  | nil => rfl
  | cons i is ih => simp [run, ih]

theorem run_append (c : SnowCfg) (is js : List In) (l : Option ℝ) :
    run c l (is ++ js) = ((run c (run c l is).1 js).1, (run c l is).2 ++ (run c (run c l is).1 js).2) := by
  induction is generalizing l with
  | nil => rfl
  | cons i is ih => simp [run, ih]

end aux

/-- **C143.** With complete data the canopy with gaps is the canopy without. -/
theorem C143_canopy_complete (c : SnowCfg) (is : List SnowIn) (l l' : ℝ) (os : List SnowOut)
    (h : snowRun c l is = some (l', os)) : run c (some l) (is.map ofIn) = (some l', os.map ofOut) := by
  induction is generalizing l l' os with
  | nil =>
    simp only [snowRun, Option.some.injEq, Prod.mk.injEq] at h
    obtain ⟨rfl, rfl⟩ := h
    rfl
  | cons i is ih =>
    simp only [snowRun] at h
    split at h
    · simp at h
    · rename_i o ho
      split at h
      · simp at h
      · rename_i l1 os1 h1
        simp only [Option.some.injEq, Prod.mk.injEq] at h
        obtain ⟨rfl, rfl⟩ := h
        simp only [List.map_cons, run, step_complete c l i o ho]
        have := ih o.load l1 os1 h1
        simp [ofOut, this]

/-- **C143.** Exactly when the snow load of the canopy is a number after a run: if snowfall and temperature are known in
every single time step. Missing rain, humidity, wind or radiation do not matter. -/
theorem C143_canopy_iff (c : SnowCfg) (is : List In) (hcap : ∀ i ∈ is, 0 < i.cap) (l : ℝ) :
    (run c (some l) is).1 ≠ none ↔ ∀ i ∈ is, i.snowfall ≠ none ∧ i.temp ≠ none := by
  induction is generalizing l with
  | nil => simp [run]
  | cons i is ih =>
    have hi := load_iff c l i (hcap i (by simp))
    simp only [run, List.forall_mem_cons]
    cases ho : (step c (some l) i).load with
    | none =>
      rw [ho] at hi
      rw [run_none]
      simp only [ne_eq, not_true_eq_false, false_iff, not_and] at hi ⊢
      intro h
      exact absurd h hi
    | some l1 =>
      rw [ho] at hi
      rw [ih (fun j hj => hcap j (by simp [hj])) l1]
      have : Known i := hi.mp (by simp)
      exact ⟨fun h => ⟨this, h⟩, fun h => h.2⟩

/-- **C143, false for the canopy:** after a single time step without snowfall or temperature, the load, the snow reaching
the ground and the precipitation below the canopy are NaN in every later time step, however complete the data. -/
theorem C143_canopy_false (c : SnowCfg) (before after : List In) (i : In) (hi : i.snowfall = none ∨ i.temp = none)
    (l : Option ℝ) : (run c l (before ++ i :: after)).1 = none ∧
      ∀ o ∈ (run c l (before ++ i :: after)).2.drop (before.length + 1),
        o.load = none ∧ o.melt = none ∧ o.snowfall = none ∧ o.precip = none := by
  have hload : ∀ l, (step c l i).load = none := by
    intro l
    cases l with
    | none => rw [step_none]
    | some l => rcases hi with h | h <;> cases hs : i.snowfall <;> simp_all [step, newLoad]
  rw [run_append]
  simp only [run, hload, run_none]
  refine ⟨trivial, ?_⟩
  rw [← run_length c before l, List.drop_append, List.drop_of_length_le (by omega), List.nil_append,
    Nat.add_sub_cancel_left, List.drop_succ_cons, List.drop_zero]
  intro o ho
  obtain ⟨_, _, rfl⟩ := List.mem_map.mp ho
  exact ⟨rfl, rfl, rfl, rfl⟩

section aux

/-- Without snowfall data the surface keeps its temperature. -/
theorem step_ts {site : Coupled.Site} {w : Gaps.Weather} (hw : w.snow = none) {s s' : Coupled.State}
    {x : MultiLayer.Fluxes ℝ} (h : Gaps.step site w s = some (x, s')) : s'.ts = s.ts := by
  simp only [Gaps.step] at h
  split at h
  · simp at h
  · rename_i p hp
    split_ifs at h
    split at h
    · simp at h
    · split at h
      · simp at h
      · split at h
        · simp at h
        · simp only [Option.some.injEq, Prod.mk.injEq] at h
          obtain ⟨-, rfl⟩ := h
          exact (Gaps.energy_gap (b := Gaps.surf site w s p)
            (Or.inr (Or.inr (Or.inr (Or.inr (Or.inr (Or.inr (Or.inr (Or.inl hw))))))))).2.1

theorem run_ts {site : Coupled.Site} (ws : List Gaps.Weather) (hw : ∀ w ∈ ws, w.snow = none) (s s' : Coupled.State)
    (xs : List (MultiLayer.Fluxes ℝ)) (h : Gaps.run site ws s = some (xs, s')) : s'.ts = s.ts := by
  induction ws generalizing s s' xs with
  | nil =>
    simp only [Gaps.run, Option.some.injEq, Prod.mk.injEq] at h
    rw [h.2]
  | cons w ws ih =>
    simp only [Gaps.run] at h
    split at h
    · simp at h
    · rename_i x s1 h1
      split at h
      · simp at h
      · rename_i ys s2 h2
        simp only [Option.some.injEq, Prod.mk.injEq] at h
        obtain ⟨-, rfl⟩ := h
        rw [ih (fun w hw' => hw w (by simp [hw'])) s1 s2 ys h2, step_ts (hw w (by simp)) h1]

theorem gaps_append {site : Coupled.Site} (us vs : List Gaps.Weather) (s s' : Coupled.State)
    (xs : List (MultiLayer.Fluxes ℝ)) (h : Gaps.run site (us ++ vs) s = some (xs, s')) :
    ∃ ys zs s1, Gaps.run site us s = some (ys, s1) ∧ Gaps.run site vs s1 = some (zs, s') := by
  induction us generalizing s s' xs with
  | nil => exact ⟨[], xs, s, rfl, h⟩
  | cons w us ih =>
    simp only [List.cons_append, Gaps.run] at h ⊢
    split at h
    · simp at h
    · rename_i x s1 h1
      split at h
      · simp at h
      · rename_i ys s2 h2
        simp only [Option.some.injEq, Prod.mk.injEq] at h
        obtain ⟨-, rfl⟩ := h
        obtain ⟨a, b, s3, h3, h4⟩ := ih s1 s2 ys h2
        exact ⟨x :: a, b, s3, by rw [h3], h4⟩

theorem forall₂_drop {α β : Type*} {R : α → β → Prop} : ∀ {xs : List α} {ys : List β}, List.Forall₂ R xs ys → ∀ n,
    List.Forall₂ R (xs.drop n) (ys.drop n)
  | _, _, .nil, n => by simp
  | _, _, .cons h t, 0 => .cons h t
  | _, _, .cons _ t, n + 1 => by simpa using forall₂_drop t n

end aux

/-- **C143.** The multilayer snowpack below a canopy after a time step without snowfall or temperature: in every later
time step no snowfall reaches the ground (it is NaN), and at the end of the run the surface temperature is still that at
the end of the time step of the gap. -/
theorem C143_forest (site : Coupled.Site) (c : SnowCfg) (before after : List In) (i : In)
    (hi : i.snowfall = none ∨ i.temp = none) (l : Option ℝ) (us vs : List Gaps.Weather)
    (hlen : us.length = before.length + 1)
    (hlink : List.Forall₂ (fun (o : Out) (w : Gaps.Weather) => w.snow = o.snowfall) (run c l (before ++ i :: after)).2
      (us ++ vs))
    (s s' : Coupled.State) (xs : List (MultiLayer.Fluxes ℝ)) (hr : Gaps.run site (us ++ vs) s = some (xs, s')) :
    (∀ w ∈ vs, w.snow = none) ∧ ∃ ys s1, Gaps.run site us s = some (ys, s1) ∧ s'.ts = s1.ts := by
  have hd := forall₂_drop hlink (before.length + 1)
  rw [← hlen, List.drop_left, hlen] at hd
  have hnone : ∀ w ∈ vs, w.snow = none := by
    intro w hw
    obtain ⟨k, hk⟩ := List.mem_iff_getElem?.mp hw
    obtain ⟨hk1, hk2⟩ := List.getElem?_eq_some_iff.mp hk
    have h2 := hd.get (by rw [hd.length_eq]; exact hk1) hk1
    have h3 := (C143_canopy_false c before after i hi l).2 _ (List.get_mem _ ⟨k, by rw [hd.length_eq]; exact hk1⟩)
    simp only [List.get_eq_getElem] at h2 h3
    rw [hk2, h3.2.2.1] at h2
    exact h2
  obtain ⟨ys, zs, s1, h1, h2⟩ := gaps_append us vs s s' xs hr
  exact ⟨hnone, ys, s1, h1, run_ts vs hnone s1 s' zs h2⟩

/-! ## Witnesses -/

/-- A canopy that stores up to 5 mm; a step with snowfall, a step without temperature. -/
noncomputable def exCfg : SnowCfg := ⟨1 / 100, 5, 3600⟩

noncomputable def exIn : In := ⟨5, some 1, some 0, 0, some 270⟩

example : (∀ i ∈ [exIn, { exIn with rainfall := none }], 0 < i.cap) ∧
    (run exCfg (some 0) [exIn, { exIn with rainfall := none }]).1 ≠ none ∧
    (run exCfg (some 0) [exIn, { exIn with temp := none }, exIn]).1 = none := by
  refine ⟨by simp [exIn], ?_, ?_⟩
  · rw [C143_canopy_iff _ _ (by simp [exIn])]
    simp [exIn]
  · exact (C143_canopy_false exCfg [exIn] [exIn] _ (Or.inr rfl) (some 0)).1

/-- The hypotheses of `C143_forest` are met by a gap in the first time step, at a snow-free site. -/
example : ∃ (us vs : List Gaps.Weather) (xs : List (MultiLayer.Fluxes ℝ)) (s' : Coupled.State),
    us.length = ([] : List In).length + 1 ∧ vs.length = 1 ∧
    List.Forall₂ (fun (o : Out) (w : Gaps.Weather) => w.snow = o.snowfall)
      (run exCfg (some 0) ([] ++ { exIn with temp := none } :: [exIn])).2 (us ++ vs) ∧
    Gaps.run Gaps.warmSite (us ++ vs) (Coupled.initial Gaps.warmSite) = some (xs, s') := by
  obtain ⟨xs, s, h1, -⟩ := Gaps.C143_gap Gaps.warmSite Gaps.warmSite_ok
    [{ Gaps.gapHour with temp := none, snow := none }, { Gaps.gapHour with temp := none, snow := none }] (by
      intro w hw
      have : w = { Gaps.gapHour with temp := none, snow := none } := by simpa using hw
      subst this
      refine ⟨⟨?_, ?_, ?_⟩, ⟨?_, ?_⟩, Or.inl rfl, Or.inl rfl⟩ <;> simp [Gaps.gapHour])
    (Coupled.initial Gaps.warmSite) (Coupled.initial_inv Gaps.warmSite_ok) rfl
  refine ⟨[{ Gaps.gapHour with temp := none, snow := none }], [{ Gaps.gapHour with temp := none, snow := none }], xs, s,
    rfl, rfl, ?_, h1⟩
  obtain ⟨f, hf⟩ := fill_some 1 (by norm_num : (0 : ℝ) < 5)
  simp [run, step, newLoad, exIn, hf]

end Verif.GapsCanopy
