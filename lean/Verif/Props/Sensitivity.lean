import Verif.Props.Comparison

/-!
# C155: errors of the input do not grow
-/

set_option linter.unusedSectionVars false

namespace Verif.Sensitivity

open Verif.Cryo
open Verif.TimeSplit.aux (rate)
open Verif.Comparison (left C153_step)

variable {K : Type*} [Field K] [LinearOrder K] [IsStrictOrderedRing K]

/-! ## Specification -/

/-- Specification: what may melt in a time step with temperature-index melt (kg m-2). -/
def potentialMelt (c : Cfg K) (e : StepIn K) : K :=
  match e.melt with
  | .index m T a sw => rate m c.ddf c.albFactor c.threshold T a sw * c.dt
  | .energy _ _ => 0

/-- Specification: difference of the inputs of a time step (kg m-2). -/
def gap (c : Cfg K) (e e' : StepIn K) : K :=
  |e.snowfall.getD 0 - e'.snowfall.getD 0| + |potentialMelt c e - potentialMelt c e'| +
    |e.moistureFlux.getD 0 - e'.moistureFlux.getD 0| * c.dt

/-- Specification: temperature-index melt and no deposition. -/
def Dry (e : StepIn K) : Prop := (∃ m T a sw, e.melt = .index m T a sw) ∧ e.moistureFlux.getD 0 ≤ 0

/-! ## Helper lemmas -/

theorem left_eq {a d s : K} (hs : 0 ≤ s) : left a d s = max (a - d - s) 0 := by
  unfold left
  split_ifs with h
  · rfl
  · rw [max_eq_right (by linarith [not_lt.1 h])]

theorem step_ice (lo : K) (c : Cfg K) (e : StepIn K) (p : CPixel K) (hc : CfgOK lo c) (hdt : 0 < c.dt)
    (he : InOK (c.lwcMethod = .poreVolume) lo c.albMax e) (hp : EndPixel (c.lwcMethod = .poreVolume) lo c.albMax p)
    (hd : Dry e) :
    ∃ f q, step c e p = some (f, q) ∧ EndPixel (c.lwcMethod = .poreVolume) lo c.albMax q ∧
      q.iceSum = max (p.iceSum + e.snowfall.getD 0 - potentialMelt c e - -e.moistureFlux.getD 0 * c.dt) 0 := by
  obtain ⟨⟨m, T, a, sw, hm⟩, hf⟩ := hd
  obtain ⟨f, q, h1, h2, h3⟩ := C153_step lo c e p hc hdt he hp m T a sw hm
  refine ⟨f, q, h1, h2, ?_⟩
  rw [h3, left_eq (mul_nonneg (by linarith) hdt.le), potentialMelt, hm]

/-! ## Theorems -/

/-- **C155, partial.** Without deposition, the difference of the ice of two runs is at most the difference at the
beginning plus the differences of the inputs. Missing: deposition (false, `C155_deposition_false`). -/
theorem C155_run_partial (lo : K) (c : Cfg K) (hc : CfgOK lo c) (hdt : 0 < c.dt) (es es' : List (StepIn K))
    (hl : es.length = es'.length) (p p' : CPixel K)
    (he : ∀ e ∈ es, InOK (c.lwcMethod = .poreVolume) lo c.albMax e ∧ Dry e)
    (he' : ∀ e ∈ es', InOK (c.lwcMethod = .poreVolume) lo c.albMax e ∧ Dry e)
    (hp : EndPixel (c.lwcMethod = .poreVolume) lo c.albMax p)
    (hp' : EndPixel (c.lwcMethod = .poreVolume) lo c.albMax p') :
    ∃ fs q fs' q', run c es p = some (fs, q) ∧ run c es' p' = some (fs', q') ∧
      |q.iceSum - q'.iceSum| ≤ |p.iceSum - p'.iceSum| + (List.zipWith (gap c) es es').sum := by
  induction es generalizing es' p p' with
  | nil =>
    cases es' with
    | nil => exact ⟨[], p, [], p', rfl, rfl, by simp⟩
    | cons e' es' => simp at hl
  | cons e es ih =>
    cases es' with
    | nil => simp at hl
    | cons e' es' =>
      obtain ⟨x1, x2⟩ := he e (by simp)
      obtain ⟨y1, y2⟩ := he' e' (by simp)
      obtain ⟨f, q, s1, k1, i1⟩ := step_ice lo c e p hc hdt x1 hp x2
      obtain ⟨f', q', s2, k2, i2⟩ := step_ice lo c e' p' hc hdt y1 hp' y2
      obtain ⟨fs, r, fs', r', t1, t2, t3⟩ := ih es' (by simpa using hl) q q' (fun x hx => he x (by simp [hx]))
        (fun x hx => he' x (by simp [hx])) k1 k2
      refine ⟨f :: fs, r, f' :: fs', r', by simp [run, s1, t1], by simp [run, s2, t2], ?_⟩
      have hq : |q.iceSum - q'.iceSum| ≤ |p.iceSum - p'.iceSum| + gap c e e' := by
        rw [i1, i2]
        refine (abs_max_sub_max_le_abs _ _ _).trans ?_
        have e1 : p.iceSum + e.snowfall.getD 0 - potentialMelt c e - -e.moistureFlux.getD 0 * c.dt -
            (p'.iceSum + e'.snowfall.getD 0 - potentialMelt c e' - -e'.moistureFlux.getD 0 * c.dt) =
            (p.iceSum - p'.iceSum) + ((e.snowfall.getD 0 - e'.snowfall.getD 0) +
              -(potentialMelt c e - potentialMelt c e') +
              (e.moistureFlux.getD 0 - e'.moistureFlux.getD 0) * c.dt) := by ring
        rw [e1]
        refine (abs_add_le _ _).trans (add_le_add_right ?_ _)
        refine (abs_add_le _ _).trans ?_
        rw [gap, abs_mul, abs_of_pos hdt]
        refine add_le_add_left ((abs_add_le _ _).trans ?_) _
        rw [abs_neg]
      simp only [List.zipWith_cons_cons, List.sum_cons]
      linarith

/-- **C155, partial.** In the same weather, two runs never get farther apart. -/
theorem C155_same_weather_partial (lo : K) (c : Cfg K) (hc : CfgOK lo c) (hdt : 0 < c.dt) (es : List (StepIn K))
    (p p' : CPixel K) (he : ∀ e ∈ es, InOK (c.lwcMethod = .poreVolume) lo c.albMax e ∧ Dry e)
    (hp : EndPixel (c.lwcMethod = .poreVolume) lo c.albMax p)
    (hp' : EndPixel (c.lwcMethod = .poreVolume) lo c.albMax p') :
    ∃ fs q fs' q', run c es p = some (fs, q) ∧ run c es p' = some (fs', q') ∧
      |q.iceSum - q'.iceSum| ≤ |p.iceSum - p'.iceSum| := by
  obtain ⟨fs, q, fs', q', a, b, h⟩ := C155_run_partial lo c hc hdt es es rfl p p' he he hp hp'
  refine ⟨fs, q, fs', q', a, b, ?_⟩
  have hz : (List.zipWith (gap c) es es).sum = 0 := by
    have : ∀ l : List (StepIn K), (List.zipWith (gap c) l l).sum = 0 := by
      intro l
      induction l with
      | nil => rfl
      | cons x l ih => rw [List.zipWith_cons_cons, List.sum_cons, ih]; simp [gap]
    exact this es
  rwa [hz, add_zero] at h

/-- **C155.** The potential melt of the classical method changes by at most the degree-day factor per kelvin and day. -/
theorem C155_temperature (c : Cfg K) (hddf : 0 ≤ c.ddf) (hdt : 0 < c.dt) (e e' : StepIn K) (T T' a a' sw sw' : K)
    (h : e.melt = .index .temperatureIndex T a sw) (h' : e'.melt = .index .temperatureIndex T' a' sw') :
    |potentialMelt c e - potentialMelt c e'| ≤ c.ddf * |T - T'| * (c.dt / 86400) := by
  have key : ∀ x : K, rate .temperatureIndex c.ddf c.albFactor c.threshold x a sw =
      c.ddf * max (x - c.threshold) 0 / 86400 := by
    intro x
    simp only [rate]
    rw [max_eq_left (mul_nonneg hddf (le_max_right _ _))]
    norm_num
  have e1 : potentialMelt c e = c.ddf * max (T - c.threshold) 0 / 86400 * c.dt := by
    rw [potentialMelt, h]; simp only [key]
  have e2 : potentialMelt c e' = c.ddf * max (T' - c.threshold) 0 / 86400 * c.dt := by
    rw [potentialMelt, h', ← key]; rfl
  rw [e1, e2]
  have e3 : c.ddf * max (T - c.threshold) 0 / 86400 * c.dt - c.ddf * max (T' - c.threshold) 0 / 86400 * c.dt =
      c.ddf * (c.dt / 86400) * (max (T - c.threshold) 0 - max (T' - c.threshold) 0) := by ring
  have hk : 0 ≤ c.ddf * (c.dt / 86400) := mul_nonneg hddf (by positivity)
  rw [e3, abs_mul, abs_of_nonneg hk]
  have := abs_max_sub_max_le_abs (T - c.threshold) (T' - c.threshold) 0
  rw [show T - c.threshold - (T' - c.threshold) = T - T' by ring] at this
  calc c.ddf * (c.dt / 86400) * |max (T - c.threshold) 0 - max (T' - c.threshold) 0|
      ≤ c.ddf * (c.dt / 86400) * |T - T'| := mul_le_mul_of_nonneg_left this hk
    _ = c.ddf * |T - T'| * (c.dt / 86400) := by ring

/-! ## Deposition -/

/-- A cold hour with deposition of 0.36 kg m-2. -/
def exFrost : StepIn ℚ :=
  { Comparison.exEnh (1 / 2) with snowfall := none, melt := .index .temperatureIndex 270 (1 / 2) 0,
                                  moistureFlux := some (1 / 10000) }

/-- **C155 fails with deposition**: in the same weather a remnant of snow collects hoar frost, bare ground does not, so
that the difference of the two grows. -/
theorem C155_deposition_false : ∃ (lo : ℚ) (c : Cfg ℚ) (e : StepIn ℚ) (p p' q q' : CPixel ℚ) (f f' : Fluxes ℚ),
    CfgOK lo c ∧ InOK (c.lwcMethod = .poreVolume) lo c.albMax e ∧
    EndPixel (c.lwcMethod = .poreVolume) lo c.albMax p ∧ EndPixel (c.lwcMethod = .poreVolume) lo c.albMax p' ∧
    (∃ T a sw, e.melt = .index .temperatureIndex T a sw) ∧
    step c e p = some (f, q) ∧ step c e p' = some (f', q') ∧ |p.iceSum - p'.iceSum| < |q.iceSum - q'.iceSum| := by
  have hc : CfgOK (55 / 100) Comparison.exEnhCfg := by
    constructor <;> norm_num [Comparison.exEnhCfg, exCfg, waterDensity, iceDensity]
  have hin : InOK (Comparison.exEnhCfg.lwcMethod = .poreVolume) (55 / 100) Comparison.exEnhCfg.albMax exFrost := by
    refine ⟨by norm_num [exFrost], by norm_num [exFrost, Comparison.exEnh], by norm_num [exFrost, Comparison.exEnh],
      fun _ => by norm_num [exFrost, Comparison.exEnh, iceDensity], fun L => by norm_num [exFrost, Comparison.exEnh],
      fun _ L => by norm_num [exFrost, Comparison.exEnh, iceDensity], fun _ => by norm_num [exFrost, Comparison.exEnh],
      fun _ _ => by norm_num [exFrost, Comparison.exEnh, iceDensity], fun x h1 h2 => ⟨_, rfl, ?_, ?_⟩⟩
    · linarith
    · norm_num [Comparison.exEnhCfg, exCfg] at *; linarith
  have hp : EndPixel (Comparison.exEnhCfg.lwcMethod = .poreVolume) (55 / 100) Comparison.exEnhCfg.albMax
      Comparison.exDirty := by
    refine ⟨⟨⟨Or.inr ?_, ?_⟩, ?_, ?_⟩, ⟨⟨Or.inl ?_, ?_⟩, ?_, ?_⟩, ⟨Or.inl ?_, ?_⟩, ⟨Or.inl ?_, ?_⟩⟩ <;>
      norm_num [Comparison.exDirty, iceDensity, emptyLayer, Comparison.exEnhCfg, exCfg]
  have hp' : EndPixel (Comparison.exEnhCfg.lwcMethod = .poreVolume) (55 / 100) Comparison.exEnhCfg.albMax
      Comparison.exBare := by
    refine ⟨⟨⟨Or.inl ?_, ?_⟩, ?_, ?_⟩, ⟨⟨Or.inl ?_, ?_⟩, ?_, ?_⟩, ⟨Or.inl ?_, ?_⟩, ⟨Or.inl ?_, ?_⟩⟩ <;>
      norm_num [Comparison.exBare, iceDensity, emptyLayer, Comparison.exEnhCfg, exCfg]
  have hdt : 0 < Comparison.exEnhCfg.dt := by norm_num [Comparison.exEnhCfg, exCfg]
  obtain ⟨f, q, s1, -, i1⟩ := C153_step _ _ _ _ hc hdt hin hp .temperatureIndex _ _ _ rfl
  obtain ⟨f', q', s2, -, i2⟩ := C153_step _ _ _ _ hc hdt hin hp' .temperatureIndex _ _ _ rfl
  refine ⟨55 / 100, Comparison.exEnhCfg, exFrost, Comparison.exDirty, Comparison.exBare, q, q', f, f', hc, hin, hp, hp',
    ⟨_, _, _, rfl⟩, s1, s2, ?_⟩
  rw [i1, i2]
  norm_num [left, rate, CPixel.iceSum, Comparison.exDirty, Comparison.exBare, emptyLayer, Comparison.exEnhCfg, exCfg,
    exFrost]

/-! ## Concrete case -/

/-- The melting hour of C153 and the same with a temperature that is off by two kelvin: admissible, and different. -/
example : Dry (Comparison.exTi 2 276 (-1 / 100000)) ∧
    gap { exCfg with dt := 86400 } (Comparison.exTi 2 276 0) (Comparison.exTi 2 278 0) = 12 := by
  refine ⟨⟨⟨_, _, _, _, rfl⟩, by norm_num [Comparison.exTi]⟩, ?_⟩
  norm_num [gap, potentialMelt, Comparison.exTi, rate, exCfg]

end Verif.Sensitivity
