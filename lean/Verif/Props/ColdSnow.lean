import Verif.Lemmas.ColdSnow
import Verif.Props.Coupled

/-!
# C123: snow is never above the melting point at the end of a time step
-/

set_option linter.unusedSectionVars false

namespace Verif.MultiLayer

variable {K : Type*} [Field K] [LinearOrder K] [IsStrictOrderedRing K]

/-- **C123.** After a time step no layer is above the melting point, whatever the temperatures were before, and
whatever temperatures heat conduction, surface and air have. -/
theorem C123_step (c : Cfg K) (hc : CfgOK c) (e : StepIn K) (he : InOK c.lwcMethod e) (p q : Pixel K) (f : Fluxes K)
    (hp : Solid c p) (h : step c e p = some (f, q)) : ∀ L ∈ q.layers, L.temp ≤ T0 := by
  have hci := cIce_pos (K := K)
  have hcw := cWater_pos (K := K)
  have hp1 := beforeMelt_solid hc he hp
  have hslots : 1 ≤ c.minThickness.length := List.length_pos_iff.mpr hc.some_layer
  -- heat capacities before melt
  obtain ⟨p2, hp2⟩ : ∃ x, beforeMelt c e p = x := ⟨_, rfl⟩
  have hcap : ∀ L ∈ p2.layers, L.heatCap = L.ice * cIce + L.lwc * cWater := by
    intro L hL
    rw [← hp2] at hL
    simp only [beforeMelt, conduct, Pixel.setActive, List.mem_append] at hL
    rcases hL with hL | hL
    · obtain ⟨k, hk, rfl⟩ := List.mem_mapIdx.mp hL
      have hmem := List.mem_of_mem_take (List.getElem_mem hk)
      simp only [updateHeatCap] at hmem
      obtain ⟨M, -, hM⟩ := List.mem_map.mp hmem
      simp only [updateHeatCap] at hM ⊢
      rw [← hM]
    · have hmem := List.mem_of_mem_drop hL
      simp only [updateHeatCap] at hmem
      obtain ⟨M, -, rfl⟩ := List.mem_map.mp hmem
      rfl
  simp only [step] at h
  split at h
  · simp at h
  rename_i p4 hp4
  split at h
  · simp at h
  rename_i q0 hq0
  simp only [Option.some.injEq, Prod.mk.injEq] at h
  obtain ⟨-, rfl⟩ := h
  have hp4' : (sublimation c.dt e.surfTemp c.albMax e.airTemp e.freshDensity e.moistureFlux
      (melt e.meltDemand p2).2).2 = some p4 := by rw [← hp2]; exact hp4
  rw [hp2] at hp1
  have h3ok := hp1.ok.melt e.meltDemand he.demand
  -- melt
  have h3 : ∀ L ∈ (melt e.meltDemand p2).2.layers.take p2.n, 0 ≤ L.heatCap ∧ L.temp ≤ T0 := by
    have hlen : (meltLoop ⟨e.meltDemand, 0⟩ (p2.layers.take p2.n)).2.length = (p2.layers.take p2.n).length :=
      meltLoop_length _ _
    intro L hL
    simp only [melt] at hL
    rw [setActive_take p2 _ hp1.ok.wf.n_le (by rw [hlen]) p2.n le_rfl] at hL
    refine meltLoop_cold _ _ ?_ L (List.mem_of_mem_take hL)
    intro M hM
    rw [hcap M (List.mem_of_mem_take hM)]
    have h1 := hp1.ok.ice_pos hM (hp1.thick M hM)
    have h2 := (hp1.ok.wf.active M hM).2.2
    positivity
  have h3d : ∀ L ∈ (melt e.meltDemand p2).2.layers, 0 ≤ L.heatCap := by
    intro L hL
    have hn3 : p2.n ≤ (melt e.meltDemand p2).2.layers.length := h3ok.wf.n_le
    rw [← List.take_append_drop p2.n (melt e.meltDemand p2).2.layers, List.mem_append] at hL
    rcases hL with hL | hL
    · exact (h3 L hL).1
    · have hlen : (meltLoop ⟨e.meltDemand, 0⟩ (p2.layers.take p2.n)).2.length = p2.n := by
        rw [meltLoop_length, List.length_take, min_eq_left hp1.ok.wf.n_le]
      simp only [melt, Pixel.setActive] at hL
      rw [List.drop_append_of_le_length (by rw [hlen]), List.drop_of_length_le (by rw [hlen]), List.nil_append] at hL
      have hL' := List.mem_of_mem_drop hL
      rw [hcap L hL']
      have h1 := hp1.ok.wf.all L hL'
      have h2 := h1.2.1
      have h3 := h1.2.2
      positivity
  obtain ⟨p3, hp3⟩ : ∃ x, (melt e.meltDemand p2).2 = x := ⟨_, rfl⟩
  have hn3 : p3.n = p2.n := by rw [← hp3]; rfl
  rw [hp3] at hp4' h3ok h3 h3d
  rw [← hn3] at h3
  -- hoar, sublimation
  have hker : ∀ (x : K) (r r' : Pixel K), r.n ≤ r.layers.length → sublKernel x r = some r' →
      (∀ L ∈ r.layers.take r.n, 0 ≤ L.heatCap ∧ L.temp ≤ T0) →
      ∀ L ∈ r'.layers.take r'.n, 0 ≤ L.heatCap ∧ L.temp ≤ T0 := by
    intro x r r' hn hr hcold
    simp only [sublKernel] at hr
    split_ifs at hr
    · cases hl : sublLoop (max x 0) (List.take r.n r.layers) with
      | none => rw [hl] at hr; simp at hr
      | some y =>
        rw [hl] at hr
        simp only [Option.bind_eq_bind, Option.bind_some, Option.pure_def, Option.some.injEq] at hr
        subst hr
        have hlen : y.2.length = (r.layers.take r.n).length := sublLoop_len _ _ _ hl
        intro L hL
        have hL' : L ∈ (r.setActive y.2).layers.take r.n := hL
        rw [setActive_take r _ hn (by rw [hlen]) r.n le_rfl] at hL'
        exact sublLoop_cold _ _ _ hl hcold L (List.mem_of_mem_take hL')
    · simp only [Option.pure_def, Option.some.injEq] at hr; subst hr; exact hcold
  have h4 : PackOK c.lwcMethod c.minThickness.length p4 ∧
      ∀ L ∈ p4.layers.take p4.n, 0 ≤ L.heatCap ∧ L.temp ≤ T0 := by
    simp only [sublimation] at hp4'
    split_ifs at hp4' with hfrost
    · have hok := h3ok.addSnow hslots c.albMax e.airTemp e.freshDensity _ he.density_pos he.density_le hfrost
      refine ⟨hok.sublKernel _ hp4', hker _ _ _ hok.wf.n_le hp4' ?_⟩
      obtain ⟨n, layers, alb⟩ := p3
      cases layers with
      | nil => simp [addSnow]
      | cons L Ls =>
        intro M hM
        by_cases hn : n = 0
        · subst hn
          simp [addSnow, nanToZero, hfrost] at hM
          subst hM
          exact ⟨h3d L (by simp), min_le_right _ _⟩
        · obtain ⟨k, rfl⟩ : ∃ k, n = k + 1 := ⟨n - 1, by omega⟩
          simp [addSnow, nanToZero] at hM
          rcases hM with rfl | hM
          · exact h3 L (by simp)
          · exact h3 M (by simp [hM])
    · exact ⟨h3ok.sublKernel _ hp4', hker _ _ _ h3ok.wf.n_le hp4' h3⟩
  -- runoff
  have hr' : 0 ≤ e.rainfall.getD 0 := by
    cases hrr : e.rainfall with
    | none => simp
    | some x => simpa using he.rainfall x hrr
  have h5 := h4.1.runoff c.maxFrac e.rainfall hr' hc.frac_nonneg hc.frac_le
  have h5c : ∀ L ∈ (runoff c.lwcMethod c.maxFrac e.rainfall p4).2.2.layers.take p4.n, L.temp ≤ T0 := by
    intro L hL
    simp only [runoff] at hL
    rw [setActive_take p4 _ h4.1.wf.n_le (runoff_hlen c.lwcMethod c.maxFrac _ p4) p4.n le_rfl] at hL
    refine runoffLoop_cold _ _ ?_ L (List.mem_of_mem_take hL)
    intro x hx
    obtain ⟨M, hM, rfl⟩ := List.mem_map.mp hx
    exact h4.2 M hM
  obtain ⟨p5, hp5⟩ : ∃ x, (runoff c.lwcMethod c.maxFrac e.rainfall p4).2.2 = x := ⟨_, rfl⟩
  have hn5 : p5.n = p4.n := by rw [← hp5]; rfl
  rw [hp5] at h5 h5c hq0
  refine updateLayers_cold ?_ hq0
  intro L hL
  have hL' : L ∈ (p5.layers.take p5.n).map fun L => { L with heatCap := L.ice * cIce + L.lwc * cWater } := by
    rw [List.map_take]; exact hL
  obtain ⟨M, hM, rfl⟩ := List.mem_map.mp hL'
  obtain ⟨a1, a2, a3⟩ := h5.wf.active M hM
  refine ⟨a1, a2, a3, ?_⟩
  have ht := h5c M (by rw [← hn5]; exact hM)
  have hpos : 0 ≤ M.ice * cIce + M.lwc * cWater := by positivity
  exact mul_nonpos_of_nonneg_of_nonpos hpos (by simp only; linarith)

/-- **C123.** The first layer of a new snowpack (snowfall or hoar on bare ground) starts at the air temperature, at
most at the melting point; further snow leaves layer temperatures alone. -/
theorem C123_new_snow (albMax airTemp density m : K) (hm : 0 < m) (p : Pixel K) (hp : p.layers ≠ []) :
    (p.n = 0 → ∃ L Ls, (addSnow albMax airTemp density (some m) 0 p).layers = L :: Ls ∧
      (addSnow albMax airTemp density (some m) 0 p).n = 1 ∧ L.temp ≤ T0 ∧ L.temp ≤ airTemp ∧
      (L.temp = airTemp ∨ L.temp = T0)) ∧
    (0 < p.n → (addSnow albMax airTemp density (some m) 0 p).layers.map Layer.temp = p.layers.map Layer.temp) := by
  obtain ⟨n, layers, alb⟩ := p
  obtain ⟨L, Ls, rfl⟩ := List.exists_cons_of_ne_nil hp
  constructor
  · intro h0
    simp only at h0
    subst h0
    simp only [addSnow, nanToZero, Option.getD_some, hm, and_self, if_true]
    exact ⟨_, _, rfl, trivial, min_le_right _ _, min_le_left _ _, min_choice _ _⟩
  · intro h0
    simp only at h0
    simp [addSnow, h0.ne']

/-- **C123.** In a run from any solid pack, the snow is at or below the melting point after every step. -/
theorem C123_run (c : Cfg K) (hc : CfgOK c) : ∀ (es : List (StepIn K)) (p q : Pixel K) (fs : List (Fluxes K)),
    (∀ e ∈ es, InOK c.lwcMethod e) → Solid c p → run c es p = some (fs, q) → es ≠ [] →
    ∀ L ∈ q.layers, L.temp ≤ T0 := by
  intro es
  induction es with
  | nil => intro p q fs _ _ _ h; exact absurd rfl h
  | cons e es ih =>
    intro p q fs he hp hr _
    simp only [run] at hr
    split at hr
    · simp at hr
    rename_i f p' hst
    split at hr
    · simp at hr
    rename_i gs q' hrun
    simp only [Option.some.injEq, Prod.mk.injEq] at hr
    obtain ⟨-, rfl⟩ := hr
    cases es with
    | nil =>
      simp only [run, Option.some.injEq, Prod.mk.injEq] at hrun
      obtain ⟨-, rfl⟩ := hrun
      exact C123_step c hc e (he e (by simp)) p p' f hp hst
    | cons e' es' =>
      exact ih p' q' gs (fun x hx => he x (List.mem_cons_of_mem _ hx))
        (C121_solid c hc e (he e (by simp)) p p' f hp hst) hrun (by simp)

/-- The hypotheses of `C123_step` are met by a melting pack of two layers. -/
example : ∃ f q, step exCfg (meltDay 30) snowPix = some (f, q) ∧ ∀ L ∈ q.layers, L.temp ≤ T0 := by
  obtain ⟨f, q, h⟩ := C121_full_melt exCfg exCfg_ok _ (meltDay_ok 30 (by norm_num))
    snowPix snowPix_solid (meltDay_moderate 30) (by norm_num [meltDay]) (by
      rw [snowPix_beforeMelt]; norm_num [totalIce, meltDay])
  exact ⟨f, q, h, C123_step exCfg exCfg_ok _ (meltDay_ok 30 (by norm_num)) _ _ f snowPix_solid h⟩

end Verif.MultiLayer

namespace Verif.Coupled

open Verif.MultiLayer (Pixel Layer)

/-- **C123.** In a run of the coupled model from its initial state snow is never above the melting point between two
time steps. -/
theorem C123_coupled (c : Site) (h : SiteOK c) (fs : List Forcing) (hf : ∀ f ∈ fs, ForcingOK c f)
    (hl : LightRun c fs (initial c)) (xs : List (MultiLayer.Fluxes ℝ)) (s : State)
    (hr : run c fs (initial c) = some (xs, s)) : ∀ L ∈ s.snow.layers, L.temp ≤ T0 := by
  have key : ∀ (fs : List Forcing) (s0 : State) (xs : List (MultiLayer.Fluxes ℝ)) (s : State),
      (∀ f ∈ fs, ForcingOK c f) → LightRun c fs s0 → Inv c s0.snow → (∀ L ∈ s0.snow.layers, L.temp ≤ T0) →
      run c fs s0 = some (xs, s) → ∀ L ∈ s.snow.layers, L.temp ≤ T0 := by
    intro fs
    induction fs with
    | nil =>
      intro s0 xs s _ _ _ h0 hr
      simp only [run, Option.some.injEq, Prod.mk.injEq] at hr
      obtain ⟨rfl, rfl⟩ := hr
      exact h0
    | cons f fs ih =>
      intro s0 xs s hf hl hi _ hr
      simp only [run] at hr
      split at hr
      · simp at hr
      rename_i x s1 hst
      split at hr
      · simp at hr
      rename_i ys s2 hrun
      simp only [Option.some.injEq, Prod.mk.injEq] at hr
      obtain ⟨rfl, rfl⟩ := hr
      refine ih s1 ys s2 (fun f' hf' => hf f' (by simp [hf'])) (hl.2 x s1 hst)
        (step_inv h (hf f (by simp)) hi hl.1 hst).1 ?_ hrun
      obtain ⟨p, hprep, -, g, -, href⟩ := step_refines h (hf f (by simp)) hi hl.1
      obtain ⟨e, he, -⟩ := energy_of_step hprep hst
      obtain ⟨u, hin, -, -, heq⟩ := href e he
      rw [heq] at hst
      cases hms : MultiLayer.step (mlCfg c) (inputs c f s0.ts g u e.melt e.ts (some e.moist)) s0.snow with
      | none => rw [hms] at hst; simp at hst
      | some r =>
        obtain ⟨fl, q⟩ := r
        rw [hms] at hst
        simp only [Option.map_some, Option.some.injEq, Prod.mk.injEq] at hst
        obtain ⟨-, rfl⟩ := hst
        exact MultiLayer.C123_step (mlCfg c) (mlCfg_ok h) _ hin _ q fl hi.solid hms
  refine key fs _ xs s hf hl (initial_inv h) ?_ hr
  intro L hL
  obtain ⟨t, -, rfl⟩ := List.mem_map.mp hL
  exact le_rfl

end Verif.Coupled
