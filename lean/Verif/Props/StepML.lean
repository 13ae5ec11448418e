import Verif.Lemmas.Step

/-!
# C18: water balance of the multilayer model over a time step and over a run

The step is `Model/MultiLayerStep.lean`; compaction, heat conduction and the energy balance enter
through arbitrary values.
-/

set_option linter.unusedSectionVars false

namespace Verif.MultiLayer

variable {K : Type*} [Field K] [LinearOrder K] [IsStrictOrderedRing K]

/-- Admissible configuration. -/
structure CfgOK (c : Cfg K) : Prop where
  some_layer : c.minThickness ≠ []
  min_thickness : ∀ t ∈ c.minThickness, 1 / 1000000 ≤ t
  frac_nonneg : 0 ≤ c.maxFrac
  frac_le : c.lwcMethod = .poreVolume → waterDensity * c.maxFrac ≤ iceDensity

/-- Admissible step inputs: non-negative precipitation and melt demand, fresh snow lighter than
ice, compaction that keeps layers plausible. Temperatures and moisture flux are arbitrary. -/
structure InOK (m : LwcMethod) (e : StepIn K) : Prop where
  snowfall : ∀ x, e.snowfall = some x → 0 ≤ x
  rainfall : ∀ x, e.rainfall = some x → 0 ≤ x
  density_pos : 0 < e.freshDensity
  density_le : m = .poreVolume → e.freshDensity ≤ iceDensity
  demand : 0 ≤ e.meltDemand
  compaction : ∀ (Ls : List (Layer K)) (k : ℕ) (L : Layer K), Ls[k]? = some L → 0 ≤ L.thick →
    0 ≤ L.ice → LayerOK m L →
      0 ≤ e.compacted Ls k ∧ LayerOK m { L with thick := e.compacted Ls k }

/-- **C18.** Water balance of one step: SWE changes by snowfall and rainfall minus sublimation
(negative for deposition) minus runoff, minus the SWE `deleted` of a remaining snowpack thinner
than 1e-6 m (with the pore volume method less than 1e-6 m of ice). Melt is at most the ice present; refreezing and runoff are non-negative; the snowpack
stays plausible. -/
theorem C18_step_water_balance (c : Cfg K) (hc : CfgOK c) (e : StepIn K) (he : InOK c.lwcMethod e)
    (p q : Pixel K) (f : Fluxes K) (hp : PackOK c.lwcMethod c.minThickness.length p)
    (h : step c e p = some (f, q)) :
    PackOK c.lwcMethod c.minThickness.length q ∧
    0 ≤ f.runoff ∧ 0 ≤ f.refreezing ∧ 0 ≤ f.melt ∧
    ∃ deleted : K,
      swe q = swe p + e.snowfall.getD 0 + e.rainfall.getD 0 - f.sublimation - f.runoff - deleted ∧
      0 ≤ deleted ∧ (c.lwcMethod = .poreVolume → deleted < iceDensity / 1000000) ∧
      (deleted ≠ 0 → swe q = 0 ∧ q.n = 0) := by
  have hslots : 1 ≤ c.minThickness.length := List.length_pos_iff.mpr hc.some_layer
  -- compaction
  have hp0 := hp.compact e.compacted he.compaction
  have sum_mapIdx : ∀ (g : Layer K → K) (Ls : List (Layer K)) (u : ℕ → Layer K → Layer K),
      (∀ k L, g (u k L) = g L) → ((Ls.mapIdx u).map g).sum = (Ls.map g).sum := by
    intro g Ls u hu
    congr 1
    apply List.ext_getElem?
    intro i
    simp only [List.getElem?_map, List.getElem?_mapIdx]
    cases Ls[i]? <;> simp [hu]
  have i0 : totalIce (compact e.compacted p) = totalIce p := by
    simp only [totalIce, compact, setActive_sum]
    rw [sum_mapIdx Layer.ice]
    · ring
    · intros; rfl
  have l0 : totalLwc (compact e.compacted p) = totalLwc p := by
    simp only [totalLwc, compact, setActive_sum]
    rw [sum_mapIdx Layer.lwc]
    · ring
    · intros; rfl
  obtain ⟨p0, hp0def⟩ : ∃ x, compact e.compacted p = x := ⟨_, rfl⟩
  -- accumulation
  obtain ⟨p1, hp1def⟩ : ∃ x, accumulation c.albMax e.airTemp e.freshDensity e.snowfall p0 = x :=
    ⟨_, rfl⟩
  simp only [step, hp0def, hp1def] at h
  rw [hp0def] at hp0 i0 l0
  have hne0 : p0.layers ≠ [] := by
    intro hnil; have := hp0.slots_eq; rw [hnil] at this; simp at this; omega
  have h1 : PackOK c.lwcMethod c.minThickness.length p1 ∧
      totalIce p1 = totalIce p0 + e.snowfall.getD 0 ∧ totalLwc p1 = totalLwc p0 := by
    rw [← hp1def]
    unfold accumulation
    cases hs : e.snowfall with
    | none => simp [hp0]
    | some x =>
      simp only
      split_ifs with hx
      · obtain ⟨a, b, -⟩ := C19_add_snow c.albMax e.airTemp e.freshDensity (some x) 0 p0 hp0.wf
          hne0 he.density_pos (fun y hy => by simp at hy; rw [← hy]; exact hx.le) rfl
        exact ⟨hp0.addSnow hslots _ _ _ _ he.density_pos he.density_le hx, a, by rw [b, add_zero]⟩
      · have : x = 0 := le_antisymm (not_lt.mp hx) (he.snowfall x hs)
        simp [hp0, this]
  obtain ⟨h1ok', i1, l1⟩ := h1
  -- albedo ageing
  have h1ok : PackOK c.lwcMethod c.minThickness.length { p1 with albedo := e.aged p1.albedo } := by
    exact ⟨⟨h1ok'.wf.n_le, h1ok'.wf.active, h1ok'.wf.inactive⟩, h1ok'.slots_eq, h1ok'.layers⟩
  have i1 : totalIce { p1 with albedo := e.aged p1.albedo } = totalIce p0 + e.snowfall.getD 0 := i1
  have l1 : totalLwc { p1 with albedo := e.aged p1.albedo } = totalLwc p0 := l1
  obtain ⟨p1a, hp1a⟩ : ∃ x, ({ p1 with albedo := e.aged p1.albedo } : Pixel K) = x := ⟨_, rfl⟩
  rw [hp1a] at h h1ok i1 l1
  -- heat capacity and heat conduction
  have h2ok := h1ok.updateHeatCap.conduct e.conducted
  have iu : ∀ r : Pixel K, totalIce (updateHeatCap r) = totalIce r := by
    intro r; simp [totalIce, updateHeatCap, Function.comp_def]
  have lu : ∀ r : Pixel K, totalLwc (updateHeatCap r) = totalLwc r := by
    intro r; simp [totalLwc, updateHeatCap, Function.comp_def]
  have i2 : totalIce (conduct e.conducted (updateHeatCap p1a)) = totalIce p1a := by
    rw [← iu p1a]
    simp only [totalIce, conduct, setActive_sum]
    rw [sum_mapIdx Layer.ice]
    · ring
    · intros; rfl
  have l2 : totalLwc (conduct e.conducted (updateHeatCap p1a)) = totalLwc p1a := by
    rw [← lu p1a]
    simp only [totalLwc, conduct, setActive_sum]
    rw [sum_mapIdx Layer.lwc]
    · ring
    · intros; rfl
  obtain ⟨p2, hp2def⟩ : ∃ x, conduct e.conducted (updateHeatCap p1a) = x := ⟨_, rfl⟩
  rw [hp2def] at h h2ok i2 l2
  -- melt
  obtain ⟨m1, m2, m3, -⟩ := C13_melt_conserves_mass e.meltDemand p2 he.demand h2ok.wf
  have h3ok := h2ok.melt e.meltDemand he.demand
  obtain ⟨p3, hp3def⟩ : ∃ x, (melt e.meltDemand p2).2 = x := ⟨_, rfl⟩
  rw [hp3def] at h h3ok m1 m2
  -- sublimation
  have hne3 : p3.layers ≠ [] := by
    intro hnil; have := h3ok.slots_eq; rw [hnil] at this; simp at this; omega
  split at h
  · simp at h
  rename_i p4 hp4
  obtain ⟨s1, s2, -⟩ := C14_sublimation_step c.dt e.surfTemp c.albMax e.airTemp e.freshDensity
    e.moistureFlux p3 p4 h3ok.wf hne3 he.density_pos hp4
  have h4ok : PackOK c.lwcMethod c.minThickness.length p4 := by
    simp only [sublimation] at hp4
    split_ifs at hp4 with hfrost
    · exact PackOK.sublKernel (h3ok.addSnow hslots _ _ _ _ he.density_pos he.density_le hfrost) _ hp4
    · exact h3ok.sublKernel _ hp4
  -- runoff
  have hr : 0 ≤ e.rainfall.getD 0 := by
    cases hrr : e.rainfall with
    | none => simp
    | some x => simpa using he.rainfall x hrr
  obtain ⟨r1, -⟩ := C15_runoff_water_balance c.lwcMethod c.maxFrac e.rainfall p4
  obtain ⟨rb1, rb2, -, -⟩ := C15_runoff_bounds c.lwcMethod c.maxFrac e.rainfall p4 h4ok.wf hr
    (fun L hL => (maxLwc_facts (h4ok.layers L hL) hc.frac_nonneg (h4ok.wf.active L hL).1
      (h4ok.wf.active L hL).2.1 hc.frac_le).1)
  have h5ok := h4ok.runoff c.maxFrac e.rainfall hr hc.frac_nonneg hc.frac_le
  -- relayering
  split at h
  · simp at h
  rename_i q0 hq0
  simp only [Option.some.injEq, Prod.mk.injEq] at h
  obtain ⟨rfl, rfl⟩ := h
  have h6ok := h5ok.updateHeatCap
  have h7ok := h6ok.updateLayers hc.some_layer hc.min_thickness hq0
  obtain ⟨p6, hp6def⟩ : ∃ x, updateHeatCap (runoff c.lwcMethod c.maxFrac e.rainfall p4).2.2 = x :=
    ⟨_, rfl⟩
  have i6 := iu (runoff c.lwcMethod c.maxFrac e.rainfall p4).2.2
  have l6 := lu (runoff c.lwcMethod c.maxFrac e.rainfall p4).2.2
  rw [hp6def] at hq0 h6ok i6 l6
  have hbal : swe p6 = swe p + e.snowfall.getD 0 + e.rainfall.getD 0
      - (sublimation c.dt e.surfTemp c.albMax e.airTemp e.freshDensity e.moistureFlux p3).1
      - (runoff c.lwcMethod c.maxFrac e.rainfall p4).1 := by
    rw [swe_eq, swe_eq, i6, l6]
    linarith
  refine ⟨h7ok, rb1, rb2, m3, ?_⟩
  by_cases hd : 1 / 1000000 ≤ depth p6
  · obtain ⟨-, -, -, hswe, -⟩ := C16_relayering_conserves c.minThickness p6 q0 hc.some_layer
      hc.min_thickness h6ok.wf hd hq0
    exact ⟨0, by rw [hswe, hbal]; ring, le_rfl,
      fun _ => div_pos iceDensity_pos (by norm_num), fun h => absurd rfl h⟩
  · obtain ⟨d1, -, d2, d3, -⟩ := C16_thin_snow_deleted c.minThickness p6 q0 hc.some_layer
      hc.min_thickness (not_le.mp hd) hq0
    have hq : swe q0 = 0 := by rw [swe_eq, d2, d3, add_zero]
    refine ⟨swe p6, by rw [hq, hbal]; ring, ?_, fun hm => ?_, fun _ => ⟨hq, d1⟩⟩
    · exact sum_map_nonneg _ _ fun L hL => by
        have := h6ok.wf.all L hL; linarith [this.2.1, this.2.2]
    · have e1 : swe p6 = swe (runoff c.lwcMethod c.maxFrac e.rainfall p4).2.2 := by
        rw [swe_eq, swe_eq, i6, l6]
      have e2 : depth p6 = depth (runoff c.lwcMethod c.maxFrac e.rainfall p4).2.2 := by
        rw [← hp6def]; simp [depth, updateHeatCap, Function.comp_def]
      rw [hm] at h4ok e1 e2
      have := h4ok.runoff_mass_le c.maxFrac e.rainfall hr hc.frac_nonneg (hc.frac_le hm)
      rw [e1]
      refine lt_of_le_of_lt this ?_
      rw [← e2]
      calc iceDensity * depth p6 < iceDensity * (1 / 1000000) :=
            mul_lt_mul_of_pos_left (not_le.mp hd) iceDensity_pos
        _ = iceDensity / 1000000 := by ring

/-- **C18.** Water balance over a run of any length: final SWE is initial SWE plus all
precipitation minus all sublimation and runoff minus the deleted thin remainders; the snowpack is
plausible at the end. -/
theorem C18_run_water_balance (c : Cfg K) (hc : CfgOK c) :
    ∀ (es : List (StepIn K)) (p q : Pixel K) (fs : List (Fluxes K)),
      (∀ e ∈ es, InOK c.lwcMethod e) → PackOK c.lwcMethod c.minThickness.length p →
      run c es p = some (fs, q) →
      PackOK c.lwcMethod c.minThickness.length q ∧ fs.length = es.length ∧
      ∃ deleted : List K, deleted.length = es.length ∧ (∀ d ∈ deleted, 0 ≤ d ∧
          (c.lwcMethod = .poreVolume → d < iceDensity / 1000000)) ∧
        swe q = swe p + (es.map fun e => e.snowfall.getD 0 + e.rainfall.getD 0).sum
          - (fs.map fun f => f.sublimation + f.runoff).sum - deleted.sum := by
  intro es
  induction es with
  | nil =>
    intro p q fs _ hp h
    simp only [run, Option.some.injEq, Prod.mk.injEq] at h
    obtain ⟨rfl, rfl⟩ := h
    exact ⟨hp, rfl, [], rfl, by simp, by simp⟩
  | cons e es ih =>
    intro p q fs hes hp h
    simp only [run] at h
    split at h
    · simp at h
    rename_i f p' hstep
    split at h
    · simp at h
    rename_i fs' q' hrun
    simp only [Option.some.injEq, Prod.mk.injEq] at h
    obtain ⟨rfl, rfl⟩ := h
    obtain ⟨hp', -, -, -, d, hbal, hd, hd2, -⟩ :=
      C18_step_water_balance c hc e (hes e (by simp)) p p' f hp hstep
    obtain ⟨hq, hlen, ds, hds, hds0, hbal'⟩ := ih p' q' fs' (fun x hx => hes x (by simp [hx])) hp'
      hrun
    refine ⟨hq, by simp [hlen], d :: ds, by simp [hds], ?_, ?_⟩
    · intro x hx
      rcases List.mem_cons.mp hx with rfl | hx
      · exact ⟨hd, hd2⟩
      · exact hds0 x hx
    · simp only [List.map_cons, List.sum_cons]
      rw [hbal', hbal]; ring

/-! ## A concrete step -/

/-- Two layer slots, pore volume method with 3 %. -/
def exCfg : Cfg ℚ :=
  { dt := 3600, albMax := 85 / 100, lwcMethod := .poreVolume, maxFrac := 3 / 100,
    minThickness := [1 / 10, 1 / 5] }

/-- 10 kg m-2 of snow, 1 kg m-2 of rain, 2 kg m-2 of melt and some sublimation. -/
def exIn : StepIn ℚ :=
  { snowfall := some 10, rainfall := some 1, airTemp := 270, surfTemp := 270, freshDensity := 100,
    compacted := fun Ls k => ((Ls[k]?).map Layer.thick).getD 0, aged := id, conducted := fun _ => 272,
    meltDemand := 2, moistureFlux := some (-1 / 3600) }

/-- One layer of 0.1 m. -/
def exPix : Pixel ℚ :=
  { n := 1, albedo := some (8 / 10),
    layers := [{ thick := 1 / 10, ice := 20, lwc := 0, temp := 271, heatCap := 42000 },
               { thick := 0, ice := 0, lwc := 0, temp := 273, heatCap := 0 }] }

/-- The hypotheses of C18 are met by a step with precipitation, melt, sublimation and runoff. -/
example : CfgOK exCfg ∧ InOK exCfg.lwcMethod exIn ∧
    PackOK exCfg.lwcMethod exCfg.minThickness.length exPix ∧
    ∃ f q, step exCfg exIn exPix = some (f, q) ∧ f.melt = 2 ∧ f.sublimation = 1 := by
  refine ⟨⟨by simp [exCfg], ?_, by norm_num [exCfg], ?_⟩, ⟨?_, ?_, ?_, ?_, ?_, ?_⟩,
    ⟨⟨?_, ?_, ?_⟩, ?_, ?_⟩, ?_⟩
  · intro t ht; simp [exCfg] at ht; rcases ht with rfl | rfl <;> norm_num
  · intro _; norm_num [exCfg, waterDensity, iceDensity]
  · norm_num [exIn]
  · norm_num [exIn]
  · norm_num [exIn]
  · intro _; norm_num [exIn, iceDensity]
  · norm_num [exIn]
  · intro Ls k L hL h0 h1 hok
    simp [exIn, hL, h0, hok]
  · decide
  · norm_num [exPix]
  · norm_num [exPix]
  · rfl
  · intro L hL
    simp [exPix] at hL
    subst hL
    refine ⟨by norm_num, fun _ => by norm_num [iceDensity]⟩
  · norm_num [step, exCfg, exIn, exPix, compact, accumulation, addSnow, conduct, updateHeatCap,
      Pixel.setActive, melt, meltLoop, meltLayer, sublimation, sublAmount, sublKernel, sublLoop,
      sublLayer, iceSum, nanToZero, runoff, runoffLoop, runoffLayer, maxLwc, T0, cIce, cWater, LF,
      waterDensity, iceDensity]
    obtain ⟨q, hq⟩ := C16_relayering_defined (K := ℚ) [1 / 10, 1 / 5]
      { n := 1, albedo := some (4 / 5),
        layers := [{ thick := 9 / 50, ice := 181809 / 6680, lwc := 18591 / 6680, temp := 5463 / 20,
                     heatCap := 11487732 / 167 },
                   { thick := 0, ice := 0, lwc := 0, temp := 273, heatCap := 0 }] }
      (by simp) (by intro t ht; simp at ht; rcases ht with rfl | rfl <;> norm_num)
      ⟨by decide, by norm_num, by norm_num⟩ (by norm_num [depth]) [] _ rfl (by simp) (by norm_num)
    rw [hq]
    exact ⟨_, ⟨q, rfl⟩, rfl, rfl⟩

end Verif.MultiLayer
