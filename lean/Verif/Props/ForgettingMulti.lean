import Verif.Model.MultiLayerStep
import Mathlib.Tactic.Linarith
import Mathlib.Tactic.NormNum
import Mathlib.Algebra.Order.Field.Basic
import Mathlib.Algebra.Order.Field.Rat
import Mathlib.Algebra.Module.Prod

/-!
# C154 for the multilayer model: once the snow is gone, what was before is forgotten

The heat capacities of emptied slots are not reset by the code; the theorems show that they are never used.
-/

set_option linter.unusedSectionVars false

namespace Verif.ForgettingMulti

open Verif.MultiLayer

variable {K : Type*} [Field K] [LinearOrder K] [IsStrictOrderedRing K]

/-! ## Specification -/

/-- Specification: a pixel without snow: no layers, nothing in any slot, temperature at the melting point, no albedo.
Nothing is said about the heat capacities. -/
structure Bare (slots : ℕ) (p : Pixel K) : Prop where
  n : p.n = 0
  count : p.layers.length = slots
  slot : ∀ L ∈ p.layers, L.thick = 0 ∧ L.ice = 0 ∧ L.lwc = 0 ∧ L.temp = T0
  albedo : p.albedo = none

/-! ## Helper lemmas -/

/-- Everything but the heat capacity. -/
def strip (L : Layer K) : K × K × K × K := (L.thick, L.ice, L.lwc, L.temp)

/-- Pixels equal but for the heat capacities. -/
structure Alike (p p' : Pixel K) : Prop where
  n : p.n = p'.n
  layers : p.layers.map strip = p'.layers.map strip
  albedo : p.albedo = p'.albedo

theorem Alike.heatCap {p p' : Pixel K} (h : Alike p p') : updateHeatCap p = updateHeatCap p' := by
  have key : ∀ q : Pixel K, (updateHeatCap q).layers = (q.layers.map strip).map fun s =>
      (⟨s.1, s.2.1, s.2.2.1, s.2.2.2, s.2.1 * cIce + s.2.2.1 * cWater⟩ : Layer K) := by
    intro q; simp [updateHeatCap, strip, Function.comp_def]
  have e : (updateHeatCap p).layers = (updateHeatCap p').layers := by rw [key, key, h.layers]
  have hn := h.n
  have ha := h.albedo
  cases p; cases p'
  simp only [updateHeatCap] at e hn ha ⊢
  simp only [e, hn, ha]

theorem addSnow_alike {albMax airTemp density lwc : K} {m : Option K} {p p' : Pixel K} (h : Alike p p') :
    Alike (addSnow albMax airTemp density m lwc p) (addSnow albMax airTemp density m lwc p') := by
  obtain ⟨hn, hl, ha⟩ := h
  rcases p with ⟨n, Ls, a⟩
  rcases p' with ⟨n', Ls', a'⟩
  simp only at hn hl ha
  subst hn ha
  cases Ls with
  | nil =>
    cases Ls' with
    | nil => exact ⟨rfl, rfl, rfl⟩
    | cons L' Ls' => simp at hl
  | cons L Ls =>
    cases Ls' with
    | nil => simp at hl
    | cons L' Ls' =>
      simp only [List.map_cons, List.cons.injEq, strip, Prod.mk.injEq] at hl
      obtain ⟨⟨h1, h2, h3, h4⟩, ht⟩ := hl
      refine ⟨rfl, ?_, rfl⟩
      simp only [addSnow, List.map_cons, strip, h1, h2, h3, h4]
      exact congrArg _ ht

theorem bare_alike {k : ℕ} {p p' : Pixel K} (h : Bare k p) (h' : Bare k p') : Alike p p' := by
  refine ⟨h.n.trans h'.n.symm, ?_, h.albedo.trans h'.albedo.symm⟩
  have key : ∀ q : Pixel K, Bare k q → q.layers.map strip = List.replicate k (0, 0, 0, T0) := by
    intro q hq
    rw [List.eq_replicate_iff]
    refine ⟨by simp [hq.count], ?_⟩
    intro b hb
    obtain ⟨L, hL, rfl⟩ := List.mem_map.1 hb
    obtain ⟨a, b, c, d⟩ := hq.slot L hL
    simp [strip, a, b, c, d]
  rw [key p h, key p' h']

/-- The redistribution into no layers leaves all contents where they are. -/
theorem relayer_none {maxL : ℕ} {ths : ℕ → K} (os : List (OldLayer K (K × K × K))) :
    ∀ (a b : RelayerAcc K (K × K × K)), a.newTh = 0 → a.cont = (fun _ => 0) → relayerLoop maxL 0 ths os a = some b →
      b.cont = fun _ => 0 := by
  induction os with
  | nil => intro a b _ hc h; simp only [relayerLoop, Option.some.injEq] at h; rw [← h]; exact hc
  | cons o os ih =>
    intro a b h0 hc h
    simp only [relayerLoop, Option.bind_eq_bind, Option.bind_eq_some_iff] at h
    obtain ⟨a', h1, h2⟩ := h
    rw [relayerOld] at h1
    by_cases hm : maxL ≤ a.kNew
    · simp [hm] at h1
    · rw [if_neg hm] at h1
      by_cases ho : o.thick = 0
      · simp [weight, h0, ho] at h1
      · have hw : weight a.newTh o.thick = some 0 := by simp [weight, ho, h0]
        rw [hw] at h1
        simp only [zero_ne_one, if_false, zero_le, if_true, Option.some.injEq, zero_smul, add_zero,
          Function.update_eq_self] at h1
        subst h1
        exact ih ⟨a.kNew + 1, a.newTh, a.cont⟩ b h0 hc h2

/-! ## Theorems -/

/-- **C154, multilayer model.** A pixel without layers after the layer update has nothing in any slot and no albedo. -/
theorem C154_multilayer_reset (c : Cfg K) (e : StepIn K) (p q : Pixel K) (f : Fluxes K)
    (h : step c e p = some (f, q)) (hn : q.n = 0) : Bare c.minThickness.length q := by
  simp only [step] at h
  split at h
  · exact absurd h (by simp)
  · rename_i p4 _
    split at h
    · exact absurd h (by simp)
    · rename_i q' hu
      obtain ⟨-, rfl⟩ := Prod.mk.inj (Option.some.inj h)
      generalize updateHeatCap (runoff c.lwcMethod c.maxFrac e.rainfall p4).2.2 = x at hu
      simp only [updateLayers] at hu
      by_cases hd : 0 < depth x
      · rw [if_pos hd] at hu
        split at hu
        · exact absurd hu (by simp)
        · rename_i a ha
          by_cases hne : ∀ k < (dropThin (newThickness (depth x) c.minThickness)).countP fun t => decide (0 < t),
              (a.cont k).1 * cIce + (a.cont k).2.1 * cWater ≠ 0
          · rw [if_pos hne] at hu
            obtain rfl := Option.some.inj hu
            simp only at hn
            rw [hn] at ha
            have hz : ∀ k, (dropThin (newThickness (depth x) c.minThickness)).getD k 0 = 0 := by
              intro k
              rw [List.countP_eq_zero] at hn
              rw [List.getD_eq_getElem?_getD]
              cases hk : (dropThin (newThickness (depth x) c.minThickness))[k]? with
              | none => rfl
              | some t =>
                have hmem := List.mem_of_getElem? hk
                have h1 : ¬0 < t := by simpa using hn t hmem
                simp only [dropThin, List.mem_map] at hmem
                obtain ⟨t0, -, rfl⟩ := hmem
                simp only [Option.getD_some]
                split_ifs at h1 ⊢ with g
                · rfl
                · exact absurd (lt_of_lt_of_le (by norm_num) (not_lt.1 g)) h1
            have hc := relayer_none _ _ _ (hz 0) rfl ha
            refine ⟨by simpa using hn, by simp, ?_, by simp [hn]⟩
            intro L hL
            simp only [List.mem_map] at hL
            obtain ⟨k, -, rfl⟩ := hL
            simp only [newLayer, hn, not_lt_zero, if_false, hc, hz]
            simp
          · rw [if_neg hne] at hu; exact absurd hu (by simp)
      · rw [if_neg hd] at hu
        obtain rfl := Option.some.inj hu
        refine ⟨rfl, by simp, ?_, rfl⟩
        intro L hL
        simp only [List.mem_map] at hL
        obtain ⟨k, -, rfl⟩ := hL
        simp [newLayer]

/-- **C154, multilayer model.** A step from bare ground gives the same for every content of the heat capacity array. -/
theorem C154_multilayer_step (c : Cfg K) (e : StepIn K) (k : ℕ) (p p' : Pixel K) (h : Bare k p) (h' : Bare k p') :
    step c e p = step c e p' := by
  have hc : ∀ q : Pixel K, q.n = 0 → compact e.compacted q = q := by
    intro q hq
    cases q
    simp only at hq
    subst hq
    simp [compact, Pixel.setActive]
  have ha := bare_alike h h'
  have h1 : Alike (accumulation c.albMax e.airTemp e.freshDensity e.snowfall (compact e.compacted p))
      (accumulation c.albMax e.airTemp e.freshDensity e.snowfall (compact e.compacted p')) := by
    rw [hc p h.n, hc p' h'.n]
    cases e.snowfall with
    | none => exact ha
    | some f =>
      simp only [accumulation]
      split_ifs
      · exact addSnow_alike ha
      · exact ha
  have h2 : updateHeatCap { (accumulation c.albMax e.airTemp e.freshDensity e.snowfall (compact e.compacted p)) with
        albedo := e.aged (accumulation c.albMax e.airTemp e.freshDensity e.snowfall (compact e.compacted p)).albedo } =
      updateHeatCap { (accumulation c.albMax e.airTemp e.freshDensity e.snowfall (compact e.compacted p')) with
        albedo := e.aged (accumulation c.albMax e.airTemp e.freshDensity e.snowfall (compact e.compacted p')).albedo } :=
    Alike.heatCap ⟨h1.n, h1.layers, by simp only [h1.albedo]⟩
  simp only [step, h2]

/-- **C154, multilayer model.** Two runs with the same inputs from any two states, both without snow after `es`, give the
same fluxes and states in every further step. -/
theorem C154_multilayer_runs (c : Cfg K) (es es2 : List (StepIn K)) (hne : es ≠ []) (h2 : es2 ≠ []) (p p' q q' : Pixel K)
    (fs fs' : List (Fluxes K)) (hr : run c es p = some (fs, q)) (hr' : run c es p' = some (fs', q'))
    (hq : q.n = 0) (hq' : q'.n = 0) : run c es2 q = run c es2 q' := by
  have last : ∀ (es : List (StepIn K)) (p q : Pixel K) (fs : List (Fluxes K)), es ≠ [] → run c es p = some (fs, q) →
      q.n = 0 → Bare c.minThickness.length q := by
    intro es
    induction es with
    | nil => intro p q fs h; exact absurd rfl h
    | cons e es ih =>
      intro p q fs _ h hn
      simp only [run] at h
      cases h1 : step c e p with
      | none => simp [h1] at h
      | some r =>
        obtain ⟨f, p1⟩ := r
        simp only [h1] at h
        cases h3 : run c es p1 with
        | none => simp [h3] at h
        | some r2 =>
          obtain ⟨gs, q1⟩ := r2
          simp only [h3, Option.some.injEq, Prod.mk.injEq] at h
          obtain ⟨-, rfl⟩ := h
          by_cases he : es = []
          · subst he
            simp only [run, Option.some.injEq, Prod.mk.injEq] at h3
            obtain ⟨-, rfl⟩ := h3
            exact C154_multilayer_reset c e p _ f h1 hn
          · exact ih p1 q1 gs he h3 hn
  have b := last es p q fs hne hr hq
  have b' := last es p' q' fs' hne hr' hq'
  cases es2 with
  | nil => exact absurd rfl h2
  | cons e es2 => simp only [run, C154_multilayer_step c e _ q q' b b']

/-! ## Concrete case -/

/-- Three slots, the first with the heat capacity of vanished snow. -/
example : Bare 3 (⟨0, [⟨0, 0, 0, T0, 5000⟩, ⟨0, 0, 0, T0, 0⟩, ⟨0, 0, 0, T0, 0⟩], none⟩ : Pixel ℚ) :=
  ⟨rfl, rfl, by simp, rfl⟩

/-- A warm step removes a thin snow pack; the state before is not bare. -/
example : (step (⟨3600, 85 / 100, .massFraction, 3 / 100, [1 / 10, 2 / 10, 4 / 10]⟩ : Cfg ℚ)
    ⟨none, none, 280, 280, 100, fun _ _ => 1 / 100, id, fun _ => 27315 / 100, 10, none⟩
    ⟨1, [⟨1 / 100, 1, 0, 27215 / 100, 2100⟩, ⟨0, 0, 0, 27315 / 100, 0⟩, ⟨0, 0, 0, 27315 / 100, 0⟩], some (8 / 10)⟩).map
      (fun r => (r.1.melt, r.1.runoff, r.2.n)) = some (1, 1, 0) := by decide +kernel

end Verif.ForgettingMulti
