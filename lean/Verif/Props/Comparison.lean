import Verif.Props.CryoStep
import Verif.Props.TimeSplit

/-!
# C153: two runs with temperature-index melt side by side
-/

set_option linter.unusedSectionVars false

namespace Verif.Comparison

open Verif.Cryo
open Verif.TimeSplit.aux (rate)

variable {K : Type*} [Field K] [LinearOrder K] [IsStrictOrderedRing K]

/-! ## Specification -/

/-- Specification: ice left of `a` when `d` may melt and afterwards `s` may sublimate (`s < 0`: is deposited, on
remaining ice only). -/
def left (a d s : K) : K := if d < a then max (a - d - s) 0 else 0

/-- Specification: the first simulation's parameters make it melt no more than the second's. -/
structure Slower (c c' : Cfg K) : Prop where
  dt : c.dt = c'.dt
  ddf0 : 0 ≤ c.ddf
  ddf : c.ddf ≤ c'.ddf
  af0 : 0 ≤ c.albFactor
  af : c.albFactor ≤ c'.albFactor
  thr : c'.threshold ≤ c.threshold

/-- Specification: weather `e` with temperature-index melt is snowier and colder than `e'`. Nothing is said about rain,
densities, compaction, albedo ageing and the firn date. -/
structure Harsher (e e' : StepIn K) : Prop where
  snow : e'.snowfall.getD 0 ≤ e.snowfall.getD 0
  flux : e'.moistureFlux.getD 0 ≤ e.moistureFlux.getD 0
  melt : ∃ m T T' a a' sw sw', e.melt = .index m T a sw ∧ e'.melt = .index m T' a' sw' ∧ T ≤ T' ∧
    (m = .enhanced → a' ≤ a ∧ a ≤ 1 ∧ 0 ≤ sw ∧ sw ≤ sw')

/-! ## Helper lemmas -/

theorem left_mono {a a' d d' s s' : K} (ha : a' ≤ a) (hd : d ≤ d') (hs : s ≤ s') : left a' d' s' ≤ left a d s := by
  unfold left
  by_cases h' : d' < a'
  · have h : d < a := by linarith
    rw [if_pos h', if_pos h]
    exact max_le_max_right _ (by linarith)
  · rw [if_neg h']
    split_ifs
    · exact le_max_right _ _
    · exact le_rfl

theorem rate_mono {c c' : Cfg K} (h : Slower c c') {m : TiMethod} {T T' a a' sw sw' : K} (hT : T ≤ T')
    (hm : m = .enhanced → a' ≤ a ∧ a ≤ 1 ∧ 0 ≤ sw ∧ sw ≤ sw') :
    rate m c.ddf c.albFactor c.threshold T a sw ≤ rate m c'.ddf c'.albFactor c'.threshold T' a' sw' := by
  have h0 := h.ddf0; have h1 := h.ddf; have h2 := h.thr
  cases m with
  | temperatureIndex =>
    simp only [rate]
    refine div_le_div_of_nonneg_right (max_le_max_right _ ?_) (by norm_num)
    exact mul_le_mul h1 (max_le_max_right _ (by linarith)) (le_max_right _ _) (h0.trans h1)
  | enhanced =>
    obtain ⟨x1, x2, x3, x4⟩ := hm rfl
    by_cases hc : T - c.threshold ≤ 0
    · have : rate .enhanced c.ddf c.albFactor c.threshold T a sw = 0 := by simp only [rate, if_pos hc]
      rw [this]; exact TimeSplit.aux.rate_nonneg _ _ _ _ _ _ _
    · have hc' : ¬T' - c'.threshold ≤ 0 := fun h => hc (by linarith)
      simp only [rate, if_neg hc, if_neg hc']
      refine div_le_div_of_nonneg_right (max_le_max_right _ ?_) (by norm_num)
      have y1 : c.ddf * (T - c.threshold) ≤ c'.ddf * (T' - c'.threshold) :=
        mul_le_mul h1 (by linarith) (not_le.1 hc).le (h0.trans h1)
      have y2 : c.albFactor * (1 - a) ≤ c'.albFactor * (1 - a') :=
        mul_le_mul h.af (by linarith) (by linarith) (h.af0.trans h.af)
      have y3 : c.albFactor * (1 - a) * sw ≤ c'.albFactor * (1 - a') * sw' :=
        mul_le_mul y2 x4 x3 (mul_nonneg (h.af0.trans h.af) (by linarith))
      linarith

/-! ## Theorems -/

/-- **C153, one step.** With temperature-index melt the ice after a step depends only on the ice before it, the
snowfall, the potential melt and the potential sublimation. -/
theorem C153_step (lo : K) (c : Cfg K) (e : StepIn K) (p : CPixel K) (hc : CfgOK lo c) (hdt : 0 < c.dt)
    (he : InOK (c.lwcMethod = .poreVolume) lo c.albMax e)
    (hp : EndPixel (c.lwcMethod = .poreVolume) lo c.albMax p)
    (m : TiMethod) (T a sw : K) (hm : e.melt = .index m T a sw) :
    ∃ f q, step c e p = some (f, q) ∧ EndPixel (c.lwcMethod = .poreVolume) lo c.albMax q ∧
      q.iceSum = left (p.iceSum + e.snowfall.getD 0) (rate m c.ddf c.albFactor c.threshold T a sw * c.dt)
        (-e.moistureFlux.getD 0 * c.dt) := by
  obtain ⟨f, q, es, hq, hi, -⟩ := C33_step lo c e p hc he hp
  refine ⟨f, q, es, hq, ?_⟩
  obtain ⟨p0, e0, hprep⟩ := prepared_end hc he hp
  simp only at hprep
  obtain ⟨p2, e2⟩ : ∃ x, updateProperties (albedoAging c.single c.firnAlb c.iceAlb e.aged
    (accumulation c.single c.albMax e.freshDensity e.snowfall p0)) = x := ⟨_, rfl⟩
  rw [e2] at hprep
  obtain ⟨k3, i3, -⟩ := hprep
  have hM : MidPixel (c.lwcMethod = .poreVolume) lo c.albMax p2 :=
    ⟨k3.new.mid, k3.old.mid, k3.firn.mid, k3.ice.mid⟩
  have hth : TimeSplit.aux.Thick p2 := by
    intro L hL hpos
    have key : ∀ M : CLayer K, Mid M → 0 < M.ice → 0 < M.thick := fun M h hp =>
      lt_of_le_of_ne h.nn.thick fun h0 => hp.ne' (h.iff.1 h0.symm)
    simp only [List.mem_cons, List.not_mem_nil, or_false] at hL
    rcases hL with rfl | rfl | rfl | rfl
    exacts [key _ hM.new.toMid hpos, key _ hM.old.toMid hpos, key _ hM.firn hpos, key _ hM.ice hpos]
  have hmelt := TimeSplit.aux.tiMelt_eq m c.ddf c.albFactor c.threshold T a sw c.dt hdt p2 hM.nonneg hth
  set D := rate m c.ddf c.albFactor c.threshold T a sw * c.dt with hD
  have hD0 : 0 ≤ D := mul_nonneg (TimeSplit.aux.rate_nonneg _ _ _ _ _ _ _) hdt.le
  have hA0 : 0 ≤ p2.iceSum := by
    have := hM.new.nn.ice; have := hM.old.nn.ice; have := hM.firn.nn.ice; have := hM.ice.nn.ice
    simp only [CPixel.iceSum]; linarith
  -- the fluxes of the step
  have hf : f.melt = min D p2.iceSum ∧ f.refreezing = 0 ∧
      f.sublimation = (sublimation c.dt e.freshDensity c.albMax c.single e.moistureFlux (melt (min D p2.iceSum) p2)).1 := by
    simp only [step, e0, Option.bind_eq_bind, Option.bind_some, e2, hm, meltAmount, hmelt,
      Option.bind_eq_some_iff] at es
    obtain ⟨q', -, hq'⟩ := es
    have := (Prod.mk.inj (Option.some.inj hq')).1
    rw [← this]
    exact ⟨rfl, rfl, rfl⟩
  obtain ⟨f1, f2, f3⟩ := hf
  have hx := C28_melt (min D p2.iceSum) p2 (le_min hD0 hA0) hM.nonneg
  obtain ⟨-, -, -, -, -, -, -, -, hI, -⟩ := hx
  rw [min_eq_left (min_le_right _ _)] at hI
  have f4 : f.sublimation = if 0 < p2.iceSum - min D p2.iceSum then
      min (nanToZero (e.moistureFlux.map fun f => -1 * f * c.dt)) (p2.iceSum - min D p2.iceSum) else 0 := by
    rw [f3, ← hI]; rfl
  have f5 : nanToZero (e.moistureFlux.map fun f => -1 * f * c.dt) = -e.moistureFlux.getD 0 * c.dt := by
    cases e.moistureFlux <;> simp [nanToZero]
  rw [f5] at f4
  rw [hi, f1, f2, f4, ← i3, left]
  by_cases h : D < p2.iceSum
  · rw [if_pos h, min_eq_left h.le, if_pos (by linarith)]
    rcases le_total (-e.moistureFlux.getD 0 * c.dt) (p2.iceSum - D) with g | g
    · rw [min_eq_left g, max_eq_left (by linarith)]; ring
    · rw [min_eq_right g, max_eq_right (by linarith)]; ring
  · rw [if_neg h, min_eq_right (not_lt.1 h), if_neg (by simp)]; ring

/-- **C153.** Of two runs with temperature-index melt, the one with at least as much ice at the start and snowier and
colder weather in every step is defined, as is the other, and has at least as much ice at the end; thus at every time,
since the beginning of a run is a run. It is free of ice only if the other one is. -/
theorem C153_run (lo lo' : K) (c c' : Cfg K) (hc : CfgOK lo c) (hc' : CfgOK lo' c') (hdt : 0 < c.dt)
    (hs : Slower c c') (es es' : List (StepIn K)) (hes : List.Forall₂ Harsher es es') (p p' : CPixel K)
    (he : ∀ e ∈ es, InOK (c.lwcMethod = .poreVolume) lo c.albMax e)
    (he' : ∀ e ∈ es', InOK (c'.lwcMethod = .poreVolume) lo' c'.albMax e)
    (hp : EndPixel (c.lwcMethod = .poreVolume) lo c.albMax p)
    (hp' : EndPixel (c'.lwcMethod = .poreVolume) lo' c'.albMax p') (hpp : p'.iceSum ≤ p.iceSum) :
    ∃ fs q fs' q', run c es p = some (fs, q) ∧ run c' es' p' = some (fs', q') ∧ q'.iceSum ≤ q.iceSum ∧
      0 ≤ q'.iceSum ∧ (q.iceSum = 0 → q'.iceSum = 0) := by
  induction hes generalizing p p' with
  | nil =>
    have h0 : 0 ≤ p'.iceSum := by
      have := hp'.new.mid.nn.ice; have := hp'.old.mid.nn.ice; have := hp'.firn.mid.nn.ice
      have := hp'.ice.mid.nn.ice
      simp only [CPixel.iceSum]; linarith
    exact ⟨[], p, [], p', rfl, rfl, hpp, h0, fun h => le_antisymm (h ▸ hpp) h0⟩
  | @cons e e' es es' h hes ih =>
    obtain ⟨m, T, T', a, a', sw, sw', m1, m2, hT, hm⟩ := h.melt
    obtain ⟨f, q, s1, q1, i1⟩ := C153_step lo c e p hc hdt (he e (by simp)) hp m T a sw m1
    obtain ⟨f', q', s2, q2, i2⟩ := C153_step lo' c' e' p' hc' (hs.dt ▸ hdt) (he' e' (by simp)) hp' m T' a' sw' m2
    have hle : q'.iceSum ≤ q.iceSum := by
      rw [i1, i2, ← hs.dt]
      refine left_mono (add_le_add hpp h.snow) (mul_le_mul_of_nonneg_right (rate_mono hs hT hm) hdt.le)
        (mul_le_mul_of_nonneg_right (neg_le_neg h.flux) hdt.le)
    obtain ⟨fs, r, fs', r', t1, t2, t3⟩ := ih q q' (fun x hx => he x (by simp [hx])) (fun x hx => he' x (by simp [hx]))
      q1 q2 hle
    exact ⟨f :: fs, r, f' :: fs', r', by simp [run, s1, t1], by simp [run, s2, t2], t3⟩

/-! ## The albedo the model computes -/

/-- Specification: the surface albedo when melt is computed, after compaction, snowfall and ageing
(`model.py:351-363`). -/
def albedoAtMelt (c : Cfg K) (e : StepIn K) (p : CPixel K) : Option K :=
  (compaction c e p).bind fun p0 => (updateProperties (albedoAging c.single c.firnAlb c.iceAlb e.aged
    (accumulation c.single c.albMax e.freshDensity e.snowfall p0))).albedo

/-- Enhanced method, light snowfall that does not refresh the albedo, ageing towards 0.55. -/
def exEnh (a : ℚ) : StepIn ℚ :=
  { snowfall := some (4 / 10), rainfall := some 0, freshDensity := 100, compNew := fun _ => 100, compOld := fun _ => 300,
    aged := fun x => x.map fun x => 55 / 100 + (x - 55 / 100) * (99 / 100),
    melt := .index .enhanced (27435 / 100) a 200, moistureFlux := none, firnDate := false }

/-- Configuration with the enhanced method. -/
def exEnhCfg : Cfg ℚ := { exCfg with albFactor := 2256 / 10000 }

/-- A thin layer of old-looking new snow. -/
def exDirty : CPixel ℚ :=
  { new := { thick := 1 / 1000, ice := 1 / 10, lwc := 0, cc := 0, dens := some 100, alb := some (55 / 100) },
    old := emptyLayer, firn := emptyLayer, ice := emptyLayer, albedo := some (55 / 100) }

/-- Bare ground. -/
def exBare : CPixel ℚ :=
  { new := emptyLayer, old := emptyLayer, firn := emptyLayer, ice := emptyLayer, albedo := none }

/-- **C153, enhanced method.** The condition on the albedo cannot be dropped: with the albedo the model computes itself,
of two pixels in the same weather the one with a remnant of aged snow loses all its ice while the bare one, on which
snowfall starts a bright layer, keeps some. -/
theorem C153_enhanced_false : ∃ (lo : ℚ) (c : Cfg ℚ) (e e' : StepIn ℚ) (p p' q q' : CPixel ℚ) (f f' : Fluxes ℚ)
    (m : TiMethod) (T a a' sw : ℚ),
    CfgOK lo c ∧ InOK (c.lwcMethod = .poreVolume) lo c.albMax e ∧ InOK (c.lwcMethod = .poreVolume) lo c.albMax e' ∧
    EndPixel (c.lwcMethod = .poreVolume) lo c.albMax p ∧ EndPixel (c.lwcMethod = .poreVolume) lo c.albMax p' ∧
    e.melt = .index m T a sw ∧ e' = { e with melt := .index m T a' sw } ∧
    albedoAtMelt c e p = some a ∧ albedoAtMelt c e' p' = some a' ∧
    p'.iceSum < p.iceSum ∧ step c e p = some (f, q) ∧ step c e' p' = some (f', q') ∧
    q.iceSum = 0 ∧ 0 < q'.iceSum := by
  have hc : CfgOK (55 / 100) exEnhCfg := by constructor <;> norm_num [exEnhCfg, exCfg, waterDensity, iceDensity]
  have hin : ∀ a, InOK (exEnhCfg.lwcMethod = .poreVolume) (55 / 100) exEnhCfg.albMax (exEnh a) := by
    intro a
    refine ⟨by norm_num [exEnh], by norm_num [exEnh], by norm_num [exEnh], fun _ => by norm_num [exEnh, iceDensity],
      fun L => by norm_num [exEnh], fun _ L => by norm_num [exEnh, iceDensity], fun _ => by norm_num [exEnh],
      fun _ _ => by norm_num [exEnh, iceDensity], fun x h1 h2 => ⟨_, rfl, ?_, ?_⟩⟩
    · linarith
    · norm_num [exEnhCfg, exCfg] at *; linarith
  have hp : EndPixel (exEnhCfg.lwcMethod = .poreVolume) (55 / 100) exEnhCfg.albMax exDirty := by
    refine ⟨⟨⟨Or.inr ?_, ?_⟩, ?_, ?_⟩, ⟨⟨Or.inl ?_, ?_⟩, ?_, ?_⟩, ⟨Or.inl ?_, ?_⟩, ⟨Or.inl ?_, ?_⟩⟩ <;>
      norm_num [exDirty, iceDensity, emptyLayer, exEnhCfg, exCfg]
  have hp' : EndPixel (exEnhCfg.lwcMethod = .poreVolume) (55 / 100) exEnhCfg.albMax exBare := by
    refine ⟨⟨⟨Or.inl ?_, ?_⟩, ?_, ?_⟩, ⟨⟨Or.inl ?_, ?_⟩, ?_, ?_⟩, ⟨Or.inl ?_, ?_⟩, ⟨Or.inl ?_, ?_⟩⟩ <;>
      norm_num [exBare, iceDensity, emptyLayer, exEnhCfg, exCfg]
  have hdt : 0 < exEnhCfg.dt := by norm_num [exEnhCfg, exCfg]
  obtain ⟨f, q, s1, -, i1⟩ := C153_step _ _ _ _ hc hdt (hin (55 / 100)) hp .enhanced _ _ _ rfl
  obtain ⟨f', q', s2, -, i2⟩ := C153_step _ _ _ _ hc hdt (hin (847 / 1000)) hp' .enhanced _ _ _ rfl
  refine ⟨55 / 100, exEnhCfg, exEnh (55 / 100), exEnh (847 / 1000), exDirty, exBare, q, q', f, f', .enhanced,
    27435 / 100, 55 / 100, 847 / 1000, 200, hc, hin _, hin _, hp, hp', rfl, rfl, by decide +kernel, by decide +kernel,
    by norm_num [CPixel.iceSum, exDirty, exBare, emptyLayer], s1, s2, ?_, ?_⟩
  · rw [i1]
    norm_num [left, rate, CPixel.iceSum, exDirty, emptyLayer, exEnhCfg, exCfg, exEnh]
  · rw [i2]
    norm_num [left, rate, CPixel.iceSum, exBare, emptyLayer, exEnhCfg, exCfg, exEnh]

/-! ## Liquid water -/

/-- Rain on cold snow. -/
def exRain : StepIn ℚ :=
  { exIn with snowfall := none, rainfall := some 2, melt := .index .temperatureIndex 270 (1 / 2) 0, moistureFlux := none }

/-- New snow of the given ice content and density. -/
def exSnow (ice dens : ℚ) : CPixel ℚ :=
  { exDirty with new := { thick := ice / dens, ice := ice, lwc := 0, cc := 0, dens := some dens, alb := some (7 / 10) } }

/-- **C153 is about ice.** The snow water equivalent with its liquid part is not ordered: in the same weather dense snow
retains less rain than a little less of loose snow. -/
theorem C153_swe_false : ∃ (lo : ℚ) (c : Cfg ℚ) (e : StepIn ℚ) (p p' q q' : CPixel ℚ) (f f' : Fluxes ℚ),
    CfgOK lo c ∧ InOK (c.lwcMethod = .poreVolume) lo c.albMax e ∧
    EndPixel (c.lwcMethod = .poreVolume) lo c.albMax p ∧ EndPixel (c.lwcMethod = .poreVolume) lo c.albMax p' ∧
    Harsher e e ∧ p'.iceSum < p.iceSum ∧ p'.swe < p.swe ∧ step c e p = some (f, q) ∧ step c e p' = some (f', q') ∧
    q.swe < q'.swe := by
  have hc : CfgOK (55 / 100) exCfg := by constructor <;> norm_num [exCfg, waterDensity, iceDensity]
  have hin : InOK (exCfg.lwcMethod = .poreVolume) (55 / 100) exCfg.albMax exRain := by
    refine ⟨by norm_num [exRain], by norm_num [exRain], by norm_num [exRain, exIn],
      fun _ => by norm_num [exRain, exIn, iceDensity], fun L => ?_, fun _ L => ?_, fun _ => by norm_num [exRain, exIn],
      fun _ _ => by norm_num [exRain, exIn, iceDensity], fun a h1 h2 => ⟨a, rfl, h1, h2⟩⟩
    · exact lt_min (lt_of_lt_of_le (by norm_num) (le_max_right _ _)) (by norm_num)
    · exact le_trans (min_le_right _ _) (by norm_num [iceDensity])
  have hp : ∀ ice dens : ℚ, 0 < ice → 0 < dens → dens ≤ 917 →
      EndPixel (exCfg.lwcMethod = .poreVolume) (55 / 100) exCfg.albMax (exSnow ice dens) := by
    intro ice dens h1 h2 h3
    have ht : 0 < ice / dens := by positivity
    refine ⟨⟨⟨Or.inr ⟨ht, h1.le, le_rfl, by simpa [exSnow] using h1, le_rfl, dens, rfl, ?_⟩, fun _ => h1⟩, fun _ => ?_,
      fun _ => ⟨7 / 10, rfl, by norm_num, by norm_num [exCfg]⟩⟩, ⟨⟨Or.inl ?_, ?_⟩, ?_, ?_⟩, ⟨Or.inl ?_, ?_⟩,
      ⟨Or.inl ?_, ?_⟩⟩
    · simp only [exSnow]; field_simp; ring
    · simp only [exSnow, iceDensity, add_zero]
      rw [mul_div_assoc', le_div_iff₀ h2]
      nlinarith
    all_goals norm_num [exSnow, exDirty, iceDensity, emptyLayer, exCfg]
  obtain ⟨f, q, s1, -⟩ := C33_step _ _ _ _ hc hin (hp 10 500 (by norm_num) (by norm_num) (by norm_num))
  obtain ⟨f', q', s2, -⟩ := C33_step _ _ _ _ hc hin (hp (99 / 10) 100 (by norm_num) (by norm_num) (by norm_num))
  refine ⟨55 / 100, exCfg, exRain, exSnow 10 500, exSnow (99 / 10) 100, q, q', f, f', hc, hin,
    hp _ _ (by norm_num) (by norm_num) (by norm_num), hp _ _ (by norm_num) (by norm_num) (by norm_num),
    ⟨le_rfl, le_rfl, .temperatureIndex, _, _, _, _, _, _, rfl, rfl, le_rfl, fun h => by cases h⟩,
    by decide +kernel, by decide +kernel, s1, s2, ?_⟩
  have h : ((step exCfg exRain (exSnow 10 500)).map fun r => decide (r.2.swe < 11)) = some true ∧
      ((step exCfg exRain (exSnow (99 / 10) 100)).map fun r => decide (11 < r.2.swe)) = some true := by decide +kernel
  rw [s1, s2] at h
  simp only [Option.map_some, Option.some.injEq, decide_eq_true_eq] at h
  linarith [h.1, h.2]

/-! ## Concrete case -/

/-- The step of C33 with temperature-index melt. -/
def exTi (snow T flux : ℚ) : StepIn ℚ :=
  { exIn with snowfall := some snow, melt := .index .temperatureIndex T (1 / 2) 100, moistureFlux := some flux }

example : Slower exCfg { exCfg with ddf := 8, threshold := 273 } := by constructor <;> norm_num [exCfg]

example : Harsher (exTi 2 276 0) (exTi 1 280 (-1 / 100000)) :=
  ⟨by norm_num [exTi], by norm_num [exTi], .temperatureIndex, 276, 280, 1 / 2, 1 / 2, 100, 100, rfl, rfl, by norm_num,
    fun h => by cases h⟩

example : InOK True (55 / 100) (85 / 100) (exTi 2 276 0) := by
  refine ⟨by norm_num [exTi, exIn], by norm_num [exTi, exIn], by norm_num [exTi, exIn],
    fun _ => by norm_num [exTi, exIn, iceDensity], fun L => ?_, fun _ L => ?_, fun _ => by norm_num [exTi, exIn],
    fun _ _ => by norm_num [exTi, exIn, iceDensity], fun a h1 h2 => ⟨a, rfl, h1, h2⟩⟩
  · exact lt_min (lt_of_lt_of_le (by norm_num) (le_max_right _ _)) (by norm_num)
  · exact le_trans (min_le_right _ _) (by norm_num [iceDensity])

/-- The two steps leave different amounts of ice: the comparison is not one of equal numbers. -/
example : left (10 + 2 : ℚ) (rate .temperatureIndex 6 (1 / 10) (27415 / 100) 276 (1 / 2) 100 * 86400) 0
    = 12 - 111 / 10 ∧
    left (10 + 1 : ℚ) (rate .temperatureIndex 6 (1 / 10) (27415 / 100) 280 (1 / 2) 100 * 86400) 1 = 0 := by
  norm_num [left, rate]

end Verif.Comparison
