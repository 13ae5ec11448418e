import Verif.Lemmas.StepDef
import Verif.Props.StepML

/-!
# C121: when a time step of the multilayer model yields NaN

`step` is `none` where the code computes `0/0` (a NaN thickness, content or temperature).
-/

set_option linter.unusedSectionVars false

namespace Verif.MultiLayer

variable {K : Type*} [Field K] [LinearOrder K] [IsStrictOrderedRing K]

/-- A snowpack between two time steps: plausible, and every active layer has a thickness. -/
structure Solid (c : Cfg K) (p : Pixel K) : Prop where
  ok : PackOK c.lwcMethod c.minThickness.length p
  thick : ∀ L ∈ p.layers.take p.n, 0 < L.thick

/-- The pack at the time of melt: after compaction, snowfall and heat conduction. -/
def beforeMelt (c : Cfg K) (e : StepIn K) (p : Pixel K) : Pixel K :=
  let p1 := accumulation c.albMax e.airTemp e.freshDensity e.snowfall (compact e.compacted p)
  conduct e.conducted (updateHeatCap { p1 with albedo := e.aged p1.albedo })

/-- No layer holds enough heat to melt all its ice, and the surface is not below the melting point
while the energy balance asks for melt (`C79_full_melt`, `C79_partial_melt`). -/
structure Moderate (c : Cfg K) (e : StepIn K) (p : Pixel K) : Prop where
  heat : ∀ L ∈ (beforeMelt c e p).layers.take (beforeMelt c e p).n, heat L < LF * L.ice
  surface : 0 < e.meltDemand → T0 ≤ e.surfTemp

/-- A remainder of snow thinner than 1e-6 m in a pack in which at least one layer was emptied, after
melt and sublimation. -/
def ThinRemainder (c : Cfg K) (e : StepIn K) (p : Pixel K) : Prop :=
  ∃ r, (sublimation c.dt e.surfTemp c.albMax e.airTemp e.freshDensity e.moistureFlux
      (melt e.meltDemand (beforeMelt c e p)).2).2 = some r ∧
    0 < depth r ∧ depth r < 1 / 1000000 ∧ ∃ L ∈ r.layers.take r.n, L.thick = 0

section aux

theorem topGone_of_thick {Ls Ls' : List (Layer K)} (he : Ls'.map Layer.thick = Ls.map Layer.thick)
    (h : TopGone Ls) (hok : ∀ L ∈ Ls', (L.thick = 0 ↔ L.ice = 0) ∧ 0 ≤ L.ice) : TopGone Ls' := by
  obtain ⟨g, r, rfl, h1, h2⟩ := h
  have hl : Ls' = Ls'.take g.length ++ Ls'.drop g.length := (List.take_append_drop _ _).symm
  refine ⟨_, _, hl, ?_, ?_⟩
  · intro L hL
    have : L.thick ∈ g.map Layer.thick := by
      have e : (Ls'.take g.length).map Layer.thick = g.map Layer.thick := by
        rw [List.map_take, he, List.map_append, List.take_append_of_le_length (by simp),
          List.take_of_length_le (by simp)]
      rw [← e]; exact List.mem_map_of_mem hL
    obtain ⟨M, hM, hMe⟩ := List.mem_map.mp this
    have ht : L.thick = 0 := by rw [← hMe]; exact (h1 M hM).1
    exact ⟨ht, (hok L (List.mem_of_mem_take hL)).1.mp ht⟩
  · intro L hL
    have : L.thick ∈ r.map Layer.thick := by
      have e : (Ls'.drop g.length).map Layer.thick = r.map Layer.thick := by
        rw [List.map_drop, he, List.map_append, List.drop_append_of_le_length (by simp)]
        simp
      rw [← e]; exact List.mem_map_of_mem hL
    obtain ⟨M, hM, hMe⟩ := List.mem_map.mp this
    have ht : 0 < L.thick := by rw [← hMe]; exact (h2 M hM).1
    have h3 := hok L (List.mem_of_mem_drop hL)
    exact ⟨ht, lt_of_le_of_ne h3.2 fun e => ht.ne' (h3.1.mpr e.symm)⟩

theorem PackOK.ice_pos {m : LwcMethod} {s : ℕ} {p : Pixel K} (hp : PackOK m s p) {L : Layer K}
    (hL : L ∈ p.layers.take p.n) (ht : 0 < L.thick) : 0 < L.ice :=
  lt_of_le_of_ne (hp.wf.active L hL).2.1 fun e => ht.ne' ((hp.layers L hL).1.mpr e.symm)

theorem addSnow_thick {m : LwcMethod} {s : ℕ} {p : Pixel K} (hp : PackOK m s p) (hs : 1 ≤ s)
    (a t d x : K) (hd : 0 < d) (hx : 0 < x) (h : ∀ L ∈ p.layers.take p.n, 0 < L.thick) :
    ∀ L ∈ (addSnow a t d (some x) 0 p).layers.take (addSnow a t d (some x) 0 p).n, 0 < L.thick := by
  have hxd : 0 < x / d := div_pos hx hd
  obtain ⟨n, layers, alb⟩ := p
  cases layers with
  | nil => simp [addSnow]
  | cons L Ls =>
    have h0 := (hp.wf.all L (by simp)).1
    intro L' hL'
    by_cases hn : n = 0
    · subst hn
      simp [addSnow, nanToZero, hx] at hL'
      subst hL'
      show 0 < L.thick + x / d
      linarith
    · obtain ⟨k, rfl⟩ : ∃ k, n = k + 1 := ⟨n - 1, by omega⟩
      simp [addSnow, nanToZero] at hL'
      rcases hL' with rfl | hL'
      · show 0 < L.thick + x / d
        linarith
      · exact h L' (by simp [hL'])

theorem conduct_thick (f : ℕ → K) {p : Pixel K} (hn : p.n ≤ p.layers.length) :
    ∀ L ∈ (conduct f p).layers.take (conduct f p).n, ∃ L0 ∈ p.layers.take p.n,
      L.thick = L0.thick := by
  intro L hL
  have hl : (conduct f p).layers.take p.n = (p.layers.take p.n).mapIdx fun k L =>
      { L with temp := f k } := by
    unfold conduct
    rw [setActive_take p _ hn (by simp) p.n le_rfl, List.take_of_length_le]
    simp
  have hL' : L ∈ (conduct f p).layers.take p.n := hL
  rw [hl] at hL'
  obtain ⟨k, hk, rfl⟩ := List.mem_mapIdx.mp hL'
  exact ⟨_, List.getElem_mem hk, rfl⟩

/-- Before melt the pack is plausible and every layer has a thickness. -/
theorem beforeMelt_solid {c : Cfg K} (hc : CfgOK c) {e : StepIn K} (he : InOK c.lwcMethod e)
    {p : Pixel K} (hp : Solid c p) : Solid c (beforeMelt c e p) := by
  have hslots : 1 ≤ c.minThickness.length := List.length_pos_iff.mpr hc.some_layer
  have hp0 := hp.ok.compact e.compacted he.compaction
  have ht0 : ∀ L ∈ (compact e.compacted p).layers.take (compact e.compacted p).n, 0 < L.thick := by
    intro L hL
    have hl : (compact e.compacted p).layers.take p.n = (p.layers.take p.n).mapIdx fun k L =>
        { L with thick := e.compacted (p.layers.take p.n) k } := by
      unfold compact
      rw [setActive_take p _ hp.ok.wf.n_le (by simp) p.n le_rfl, List.take_of_length_le]
      simp
    have hL' : L ∈ (compact e.compacted p).layers.take p.n := hL
    have hice : 0 < L.ice := by
      rw [hl] at hL'
      obtain ⟨k, hk, rfl⟩ := List.mem_mapIdx.mp hL'
      have hmem := List.getElem_mem hk
      exact (hp.ok.ice_pos hmem (hp.thick _ hmem) : 0 < (List.take p.n p.layers)[k].ice)
    refine lt_of_le_of_ne (hp0.wf.active L hL).1 fun h => ?_
    exact hice.ne' ((hp0.layers L hL).1.mp h.symm)
  have h1 : Solid c (accumulation c.albMax e.airTemp e.freshDensity e.snowfall
      (compact e.compacted p)) := by
    unfold accumulation
    cases hs : e.snowfall with
    | none => exact ⟨hp0, ht0⟩
    | some x =>
      simp only
      split_ifs with hx
      · exact ⟨hp0.addSnow hslots _ _ _ _ he.density_pos he.density_le hx,
          addSnow_thick hp0 hslots _ _ _ _ he.density_pos hx ht0⟩
      · exact ⟨hp0, ht0⟩
  obtain ⟨p1, hp1⟩ : ∃ x, accumulation c.albMax e.airTemp e.freshDensity e.snowfall
    (compact e.compacted p) = x := ⟨_, rfl⟩
  simp only [beforeMelt]
  rw [hp1] at h1 ⊢
  have h1ok : PackOK c.lwcMethod c.minThickness.length { p1 with albedo := e.aged p1.albedo } :=
    ⟨⟨h1.ok.wf.n_le, h1.ok.wf.active, h1.ok.wf.inactive⟩, h1.ok.slots_eq, h1.ok.layers⟩
  refine ⟨h1ok.updateHeatCap.conduct e.conducted, ?_⟩
  intro L hL
  obtain ⟨L1, hL1, e1⟩ := conduct_thick e.conducted h1ok.updateHeatCap.wf.n_le L hL
  simp only [updateHeatCap, ← List.map_take] at hL1
  obtain ⟨L0, h0, rfl⟩ := List.mem_map.mp hL1
  rw [e1]
  exact h1.thick L0 h0

end aux

/-- **C121.** From a solid pack with moderate heat a time step yields NaN exactly if melt and
sublimation leave a remainder thinner than 1e-6 m in a pack in which some layer was emptied. -/
theorem C121_undefined_iff (c : Cfg K) (hc : CfgOK c) (e : StepIn K) (he : InOK c.lwcMethod e)
    (p : Pixel K) (hp : Solid c p) (hmod : Moderate c e p) :
    step c e p = none ↔ ThinRemainder c e p := by
  have hslots : 1 ≤ c.minThickness.length := List.length_pos_iff.mpr hc.some_layer
  have h2 := beforeMelt_solid hc he hp
  obtain ⟨p2, hp2⟩ : ∃ x, beforeMelt c e p = x := ⟨_, rfl⟩
  have hheat := hmod.heat
  rw [hp2] at h2 hheat
  have hstep : step c e p = (match (sublimation c.dt e.surfTemp c.albMax e.airTemp e.freshDensity
      e.moistureFlux (melt e.meltDemand p2).2).2 with
    | none => none
    | some p4 =>
      match updateLayers c.minThickness
        (updateHeatCap (runoff c.lwcMethod c.maxFrac e.rainfall p4).2.2) with
      | none => none
      | some q => some (⟨(melt e.meltDemand p2).1, (sublimation c.dt e.surfTemp c.albMax e.airTemp
          e.freshDensity e.moistureFlux (melt e.meltDemand p2).2).1,
          (runoff c.lwcMethod c.maxFrac e.rainfall p4).1,
          (runoff c.lwcMethod c.maxFrac e.rainfall p4).2.1⟩, q)) := by
    rw [← hp2]; rfl
  have hwarm : ∀ L ∈ p2.layers.take p2.n, 0 < L.thick ∧ 0 < L.ice ∧ warmMelt L < L.ice := by
    intro L hL
    have ht := h2.thick L hL
    have hi := h2.ok.ice_pos hL ht
    refine ⟨ht, hi, max_lt ?_ hi⟩
    have := hheat L hL
    rw [div_lt_iff₀ LF_pos]
    unfold heat at this
    linarith
  have h3ok := h2.ok.melt e.meltDemand he.demand
  have hlen : (meltLoop ⟨e.meltDemand, 0⟩ (p2.layers.take p2.n)).2.length
    = (p2.layers.take p2.n).length := meltLoop_length _ _
  have h3act : (melt e.meltDemand p2).2.layers.take (melt e.meltDemand p2).2.n
      = (meltLoop ⟨e.meltDemand, 0⟩ (p2.layers.take p2.n)).2 := by
    show (p2.setActive _).layers.take p2.n = _
    rw [setActive_take p2 _ h2.ok.wf.n_le hlen p2.n le_rfl, List.take_of_length_le]
    rw [hlen]; simp
  have h3gone : TopGone ((melt e.meltDemand p2).2.layers.take (melt e.meltDemand p2).2.n) := by
    rw [h3act]; exact meltLoop_topGone _ _ he.demand hwarm
  have h3all : e.meltDemand = 0 →
      ∀ L ∈ (melt e.meltDemand p2).2.layers.take (melt e.meltDemand p2).2.n,
        0 < L.thick ∧ 0 < L.ice := by
    intro hz
    rw [h3act]
    exact meltLoop_rest _ _ hz hwarm
  obtain ⟨p3, hp3⟩ : ∃ x, (melt e.meltDemand p2).2 = x := ⟨_, rfl⟩
  obtain ⟨flux, hflux⟩ : ∃ x, (sublimation c.dt e.surfTemp c.albMax e.airTemp e.freshDensity
    e.moistureFlux p3).1 = x := ⟨_, rfl⟩
  rw [hp3] at hstep h3ok h3gone h3all
  -- where mass is exchanged with the air, no layer has been emptied by melt
  have hexch : sublAmount c.dt e.surfTemp e.moistureFlux p3 ≠ 0 →
      ∀ L ∈ p3.layers.take p3.n, 0 < L.thick ∧ 0 < L.ice := by
    intro hs
    obtain ⟨g, r, hgr, h1, h2'⟩ := h3gone
    by_cases hd : e.meltDemand = 0
    · exact h3all hd
    · have hT := hmod.surface (lt_of_le_of_ne he.demand (Ne.symm hd))
      cases g with
      | nil => rw [hgr]; exact h2'
      | cons L g =>
        exfalso
        apply hs
        have hz := (h1 L (by simp)).2
        cases hl : p3.layers with
        | nil => rw [hl] at hgr; simp at hgr
        | cons M Ms =>
          have hM : M = L := by
            rw [hl] at hgr
            cases hn : p3.n with
            | zero => rw [hn] at hgr; simp at hgr
            | succ n => rw [hn] at hgr; simpa using (List.cons.inj hgr).1
          simp only [sublAmount, hl, hM, hz, lt_irrefl, false_or, not_lt.mpr hT, if_false]
  -- sublimation
  obtain ⟨p4, hp4, h4ok, h4gone⟩ : ∃ p4, (sublimation c.dt e.surfTemp c.albMax e.airTemp
      e.freshDensity e.moistureFlux p3).2 = some p4 ∧
      PackOK c.lwcMethod c.minThickness.length p4 ∧ TopGone (p4.layers.take p4.n) := by
    obtain ⟨s, hs⟩ : ∃ s, sublAmount c.dt e.surfTemp e.moistureFlux p3 = s := ⟨_, rfl⟩
    simp only [sublimation, hs]
    rw [hs] at hexch
    rcases lt_trichotomy s 0 with hlt | rfl | hgt
    · have hf : 0 < -(min s 0) := by rw [min_eq_left hlt.le]; linarith
      have hmax : ¬ 0 < max s 0 := by rw [max_eq_right hlt.le]; exact lt_irrefl _
      have h4 := h3ok.addSnow hslots c.albMax e.airTemp e.freshDensity (-(min s 0)) he.density_pos
        he.density_le hf
      refine ⟨addSnow c.albMax e.airTemp e.freshDensity (some (-(min s 0))) 0 p3, ?_, h4, ?_⟩
      · simp only [hf, if_true, sublKernel, hmax, if_false, Option.pure_def]
      · have ht := addSnow_thick h3ok hslots c.albMax e.airTemp e.freshDensity (-(min s 0))
          he.density_pos hf (fun L hL => (hexch hlt.ne L hL).1)
        exact TopGone.of_all fun L hL => ⟨ht L hL, h4.ice_pos hL (ht L hL)⟩
    · refine ⟨p3, ?_, h3ok, h3gone⟩
      simp [sublKernel]
    · have hf : ¬ 0 < -(min s 0) := by rw [min_eq_right hgt.le]; simp
      have hmax : 0 < max s 0 := lt_max_of_lt_left hgt
      obtain ⟨r, hr, hg⟩ := sublLoop_topGone (p3.layers.take p3.n) (max s 0) hmax.le
        (hexch hgt.ne')
      have hk : sublKernel s p3 = some (p3.setActive r.2) := by
        simp only [sublKernel, hmax, if_true, hr, Option.bind_eq_bind, Option.bind_some,
          Option.pure_def]
      have h4 := h3ok.sublKernel s hk
      refine ⟨p3.setActive r.2, by simp only [hf, if_false, hk], h4, ?_⟩
      obtain ⟨hrel, -⟩ := sublLoop_spec _ _ hmax.le
        (fun L hL => (h3ok.wf.active L hL).2.1) r.1 r.2 hr
      have hl : (p3.setActive r.2).layers.take p3.n = r.2 := by
        rw [setActive_take p3 _ h3ok.wf.n_le hrel.length_eq.symm p3.n le_rfl,
          List.take_of_length_le]
        rw [← hrel.length_eq]; simp
      show TopGone ((p3.setActive r.2).layers.take p3.n)
      rw [hl]; exact hg
  -- runoff and relayering
  have hr : 0 ≤ e.rainfall.getD 0 := by
    cases hrr : e.rainfall with
    | none => simp
    | some x => simpa using he.rainfall x hrr
  have h6ok := (h4ok.runoff c.maxFrac e.rainfall hr hc.frac_nonneg hc.frac_le).updateHeatCap
  have hth := runoff_thick c.lwcMethod c.maxFrac e.rainfall p4 h4ok.wf.n_le
  have hn6 : (updateHeatCap (runoff c.lwcMethod c.maxFrac e.rainfall p4).2.2).n = p4.n := rfl
  obtain ⟨p6, hp6⟩ : ∃ x, updateHeatCap (runoff c.lwcMethod c.maxFrac e.rainfall p4).2.2 = x :=
    ⟨_, rfl⟩
  rw [hp4] at hstep
  simp only at hstep
  rw [hp6] at hstep h6ok hth hn6
  have hth' : (p6.layers.take p6.n).map Layer.thick = (p4.layers.take p4.n).map Layer.thick := by
    rw [List.map_take, List.map_take, hth, hn6]
  have h6gone : TopGone (p6.layers.take p6.n) := topGone_of_thick hth' h4gone fun L hL =>
    ⟨(h6ok.layers L hL).1, (h6ok.wf.active L hL).2.1⟩
  have hdep : depth p6 = depth p4 := by unfold depth; rw [hth]
  have hzero : (∃ L ∈ p6.layers.take p6.n, L.thick = 0) ↔
      ∃ L ∈ p4.layers.take p4.n, L.thick = 0 := by
    have : ∀ Ls : List (Layer K), (∃ L ∈ Ls, L.thick = 0) ↔ (0 : K) ∈ Ls.map Layer.thick := by
      intro Ls; simp
    rw [this, this, hth']
  have hnone : step c e p = none ↔ updateLayers c.minThickness p6 = none := by
    rw [hstep]
    cases updateLayers c.minThickness p6 <;> simp
  rw [hnone, updateLayers_topGone h6ok hc.some_layer hc.min_thickness h6gone, hdep, hzero]
  unfold ThinRemainder
  rw [hp2, hp3, hp4]
  simp

/-- **C121.** If the energy balance asks for all the ice (as it does when the pack melts completely)
the step is defined and leaves bare ground. -/
theorem C121_full_melt (c : Cfg K) (hc : CfgOK c) (e : StepIn K) (he : InOK c.lwcMethod e)
    (p : Pixel K) (hp : Solid c p) (hmod : Moderate c e p) (h0 : 0 < e.meltDemand)
    (hall : totalIce (beforeMelt c e p) ≤ e.meltDemand) :
    ∃ f q, step c e p = some (f, q) := by
  cases hst : step c e p with
  | some r => exact ⟨r.1, r.2, rfl⟩
  | none =>
    exfalso
    obtain ⟨r, hr, hd, -, -⟩ := (C121_undefined_iff c hc e he p hp hmod).mp hst
    have h2 := beforeMelt_solid hc he hp
    obtain ⟨p2, hp2⟩ : ∃ x, beforeMelt c e p = x := ⟨_, rfl⟩
    rw [hp2] at h2 hr hall
    have hlen : (meltLoop ⟨e.meltDemand, 0⟩ (p2.layers.take p2.n)).2.length
      = (p2.layers.take p2.n).length := meltLoop_length _ _
    have hz := meltLoop_all (p2.layers.take p2.n) ⟨e.meltDemand, 0⟩
      (fun L hL => h2.ok.ice_pos hL (h2.thick L hL)) h0.le (by
        rw [h2.ok.wf.sum_active (f := Layer.ice) (fun L h => h.2.1)]; exact hall)
    have h3 : ∀ L ∈ (melt e.meltDemand p2).2.layers, L.thick = 0 ∧ L.ice = 0 := by
      intro L hL
      have hL' : L ∈ (meltLoop ⟨e.meltDemand, 0⟩ (p2.layers.take p2.n)).2 ++ p2.layers.drop p2.n :=
        hL
      rcases List.mem_append.mp hL' with h | h
      · exact hz L h
      · obtain ⟨a, b, -⟩ := h2.ok.wf.inactive L h
        exact ⟨a, b⟩
    obtain ⟨p3, hp3⟩ : ∃ x, (melt e.meltDemand p2).2 = x := ⟨_, rfl⟩
    rw [hp3] at h3 hr
    have hs : sublAmount c.dt e.surfTemp e.moistureFlux p3 = 0 := by
      have hT := not_lt.mpr (hmod.surface h0)
      cases hl : p3.layers with
      | nil => simp only [sublAmount, hl, lt_irrefl, hT, or_self, if_false]
      | cons M Ms =>
        have := (h3 M (by rw [hl]; simp)).2
        simp only [sublAmount, hl, this, lt_irrefl, hT, or_self, if_false]
    simp only [sublimation, hs, sublKernel, min_self, neg_zero, lt_irrefl, max_self, if_false,
      Option.pure_def, Option.some.injEq] at hr
    have : depth r = 0 := by
      rw [← hr]
      apply List.sum_eq_zero
      intro x hx
      obtain ⟨L, hL, rfl⟩ := List.mem_map.mp hx
      exact (h3 L hL).1
    exact hd.ne' this

/-- **C121.** Layers at most 50 K above the melting point that hold no more water than ice cannot
melt through by their own heat. -/
theorem C121_moderate (c : Cfg K) (e : StepIn K) (p : Pixel K)
    (hs : 0 < e.meltDemand → T0 ≤ e.surfTemp) (ht : ∀ k, e.conducted k ≤ T0 + 50)
    (hw : ∀ L ∈ (beforeMelt c e p).layers.take (beforeMelt c e p).n,
      0 < L.ice ∧ 0 ≤ L.lwc ∧ L.lwc ≤ L.ice) : Moderate c e p := by
  refine ⟨?_, hs⟩
  intro L hL
  obtain ⟨hi, hl0, hl⟩ := hw L hL
  obtain ⟨p1, hb⟩ : ∃ p1, beforeMelt c e p = conduct e.conducted (updateHeatCap p1) := ⟨_, rfl⟩
  rw [hb] at hL
  have key : L.heatCap = L.ice * cIce + L.lwc * cWater ∧ ∃ k, L.temp = e.conducted k := by
    have hL' : L ∈ ((((updateHeatCap p1).layers.take p1.n).mapIdx fun k (L : Layer K) =>
        { L with temp := e.conducted k }) ++ (updateHeatCap p1).layers.drop p1.n).take p1.n := hL
    by_cases hn : p1.n ≤ p1.layers.length
    · rw [List.take_append_of_le_length (by simp [updateHeatCap, hn])] at hL'
      obtain ⟨k, hk, rfl⟩ := List.mem_mapIdx.mp (List.mem_of_mem_take hL')
      have hm := List.getElem_mem hk
      simp only [updateHeatCap, ← List.map_take] at hm
      obtain ⟨L0, -, h0e⟩ := List.mem_map.mp hm
      refine ⟨?_, k, rfl⟩
      show (List.take p1.n (updateHeatCap p1).layers)[k].heatCap
        = (List.take p1.n (updateHeatCap p1).layers)[k].ice * cIce
          + (List.take p1.n (updateHeatCap p1).layers)[k].lwc * cWater
      simp only [updateHeatCap, ← List.map_take]
      rw [← h0e]
    · have hdrop : (updateHeatCap p1).layers.drop p1.n = [] := by
        rw [List.drop_eq_nil_iff]; simp [updateHeatCap]; omega
      rw [hdrop, List.append_nil] at hL'
      obtain ⟨k, hk, rfl⟩ := List.mem_mapIdx.mp (List.mem_of_mem_take hL')
      have hm := List.getElem_mem hk
      simp only [updateHeatCap, ← List.map_take] at hm
      obtain ⟨L0, -, h0e⟩ := List.mem_map.mp hm
      refine ⟨?_, k, rfl⟩
      show (List.take p1.n (updateHeatCap p1).layers)[k].heatCap
        = (List.take p1.n (updateHeatCap p1).layers)[k].ice * cIce
          + (List.take p1.n (updateHeatCap p1).layers)[k].lwc * cWater
      simp only [updateHeatCap, ← List.map_take]
      rw [← h0e]
  obtain ⟨h1, k, h2⟩ := key
  have h3 := ht k
  unfold heat
  rw [h1, h2]
  have hcap : 0 ≤ L.ice * cIce + L.lwc * cWater := by
    have c1 : (0 : K) < cIce := cIce_pos
    have c2 : (0 : K) < cWater := cWater_pos
    positivity
  calc (L.ice * cIce + L.lwc * cWater) * (e.conducted k - T0)
      ≤ (L.ice * cIce + L.lwc * cWater) * 50 := mul_le_mul_of_nonneg_left (by linarith) hcap
    _ < LF * L.ice := by unfold cIce cWater LF; linarith

/-- **C121.** The pack after a defined step is solid again. -/
theorem C121_solid (c : Cfg K) (hc : CfgOK c) (e : StepIn K) (he : InOK c.lwcMethod e)
    (p q : Pixel K) (f : Fluxes K) (hp : Solid c p) (h : step c e p = some (f, q)) : Solid c q := by
  refine ⟨(C18_step_water_balance c hc e he p q f hp.ok h).1, ?_⟩
  have hp1 := beforeMelt_solid hc he hp
  simp only [step] at h
  split at h
  · simp at h
  rename_i p4 hp4
  split at h
  · simp at h
  rename_i q0 hq0
  simp only [Option.some.injEq, Prod.mk.injEq] at h
  obtain ⟨-, rfl⟩ := h
  have hslots : 1 ≤ c.minThickness.length := List.length_pos_iff.mpr hc.some_layer
  have h3ok := hp1.ok.melt e.meltDemand he.demand
  have h4ok : PackOK c.lwcMethod c.minThickness.length p4 := by
    simp only [sublimation] at hp4
    split_ifs at hp4 with hfrost
    · exact PackOK.sublKernel (h3ok.addSnow hslots _ _ _ _ he.density_pos he.density_le hfrost) _ hp4
    · exact h3ok.sublKernel _ hp4
  have hr : 0 ≤ e.rainfall.getD 0 := by
    cases hrr : e.rainfall with
    | none => simp
    | some x => simpa using he.rainfall x hrr
  have h6ok := (h4ok.runoff c.maxFrac e.rainfall hr hc.frac_nonneg hc.frac_le).updateHeatCap
  by_cases hd : 1 / 1000000 ≤ depth (updateHeatCap
      (runoff c.lwcMethod c.maxFrac e.rainfall p4).2.2)
  · obtain ⟨-, hgeo⟩ := C17_layer_geometry _ _ _ hc.some_layer hc.min_thickness h6ok.wf hd hq0
    intro L hL
    obtain ⟨k, hk, hg⟩ := mem_take_get hL
    exact (hgeo k L hg).1 hk
  · obtain ⟨hn, -⟩ := C16_thin_snow_deleted _ _ _ hc.some_layer hc.min_thickness (not_le.mp hd) hq0
    rw [hn]; simp

/-- **C121.** A run of any length yields NaN only if it reaches, after a defined part, a step with
immoderate heat or with a thin remainder. -/
theorem C121_run_partial (c : Cfg K) (hc : CfgOK c) : ∀ (es : List (StepIn K)) (p : Pixel K),
    (∀ e ∈ es, InOK c.lwcMethod e) → Solid c p → run c es p = none →
    ∃ i e fs q, es[i]? = some e ∧ run c (es.take i) p = some (fs, q) ∧ Solid c q ∧
      (¬ Moderate c e q ∨ ThinRemainder c e q) := by
  intro es
  induction es with
  | nil => intro p _ _ h; simp [run] at h
  | cons e es ih =>
    intro p hes hp h
    cases hst : step c e p with
    | none =>
      refine ⟨0, e, [], p, by simp, by simp [run], hp, ?_⟩
      by_cases hm : Moderate c e p
      · exact Or.inr ((C121_undefined_iff c hc e (hes e (by simp)) p hp hm).mp hst)
      · exact Or.inl hm
    | some r =>
      obtain ⟨f, p'⟩ := r
      have hp' := C121_solid c hc e (hes e (by simp)) p p' f hp hst
      have hrun : run c es p' = none := by
        simp only [run, hst] at h
        cases hr : run c es p' with
        | none => rfl
        | some x => rw [hr] at h; simp at h
      obtain ⟨i, e', fs, q, h1, h2, h3, h4⟩ := ih p' (fun x hx => hes x (by simp [hx])) hp' hrun
      refine ⟨i + 1, e', f :: fs, q, by simpa using h1, ?_, h3, h4⟩
      simp only [List.take_succ_cons, run, hst, h2]

/-! ## Witnesses -/

/-- Bare ground with two layer slots. -/
def barePix : Pixel ℚ :=
  { n := 0, albedo := none,
    layers := [⟨0, 0, 0, T0, 0⟩, ⟨0, 0, 0, T0, 0⟩] }

/-- 30 kg m-2 of snow in cold weather. -/
def snowDay : StepIn ℚ :=
  { snowfall := some 30, rainfall := some 0, airTemp := 270, surfTemp := 270, freshDensity := 100,
    compacted := fun Ls k => ((Ls[k]?).map Layer.thick).getD 0, aged := id,
    conducted := fun _ => 270, meltDemand := 0, moistureFlux := some 0 }

/-- Melt of `d` kg m-2 at the melting point. -/
def meltDay (d : ℚ) : StepIn ℚ :=
  { snowfall := some 0, rainfall := some 0, airTemp := 280, surfTemp := T0, freshDensity := 100,
    compacted := fun Ls k => ((Ls[k]?).map Layer.thick).getD 0, aged := id,
    conducted := fun _ => T0, meltDemand := d, moistureFlux := some 0 }

theorem exCfg_ok : CfgOK exCfg := by
  refine ⟨by simp [exCfg], ?_, by norm_num [exCfg], ?_⟩
  · intro t ht; simp [exCfg] at ht; rcases ht with rfl | rfl <;> norm_num
  · intro _; norm_num [exCfg, waterDensity, iceDensity]

theorem barePix_solid : Solid exCfg barePix :=
  ⟨⟨⟨by decide, by simp [barePix], by simp [barePix]⟩, rfl, by simp [barePix]⟩, by simp [barePix]⟩

theorem snowDay_ok : InOK exCfg.lwcMethod snowDay := by
  refine ⟨by norm_num [snowDay], by norm_num [snowDay], by norm_num [snowDay],
    fun _ => by norm_num [snowDay, iceDensity], by norm_num [snowDay], ?_⟩
  intro Ls k L hL h0 h1 hok
  simp [snowDay, hL, h0, hok]

theorem meltDay_ok (d : ℚ) (hd : 0 ≤ d) : InOK exCfg.lwcMethod (meltDay d) := by
  refine ⟨by norm_num [meltDay], by norm_num [meltDay], by norm_num [meltDay],
    fun _ => by norm_num [meltDay, iceDensity], hd, ?_⟩
  intro Ls k L hL h0 h1 hok
  simp [meltDay, hL, h0, hok]

/-- The pack after the day of snow: 0.1 m and 0.2 m. -/
def snowPix : Pixel ℚ :=
  { n := 2, albedo := some (85 / 100),
    layers := [⟨1 / 10, 10, 0, 270, 21000⟩, ⟨1 / 5, 20, 0, 270, 42000⟩] }

theorem snowPix_relayer : updateLayers [(1 / 10 : ℚ), 1 / 5]
    { n := 1, albedo := some (85 / 100),
      layers := [⟨3 / 10, 30, 0, 270, 63000⟩, ⟨0, 0, 0, T0, 0⟩] } = some snowPix := by
  norm_num [updateLayers, depth, newThickness, dropThin, toOld]
  rw [relayerLoop, relayerOld]
  norm_num [weight]
  rw [relayerOld]
  norm_num [weight, relayerLoop]
  refine ⟨?_, ?_⟩
  · intro k hk
    rcases (by omega : k = 0 ∨ k = 1) with rfl | rfl <;> norm_num [Function.update, cIce, cWater]
  · norm_num [snowPix, newLayer, List.range, List.range.loop, Function.update, cIce, cWater, T0]

theorem snowDay_step : ∃ f, step exCfg snowDay barePix = some (f, snowPix) := by
  have h := snowPix_relayer
  norm_num [T0] at h
  norm_num [step, exCfg, snowDay, barePix, compact, accumulation, addSnow, conduct, updateHeatCap,
    Pixel.setActive, melt, meltLoop, meltLayer, sublimation, sublAmount, sublKernel, sublLoop,
    sublLayer, iceSum, nanToZero, runoff, runoffLoop, runoffLayer, maxLwc, T0, cIce, cWater, LF,
    waterDensity, iceDensity, h]

theorem snowPix_solid : Solid exCfg snowPix := by
  obtain ⟨f, h⟩ := snowDay_step
  exact C121_solid exCfg exCfg_ok snowDay snowDay_ok barePix snowPix f barePix_solid h

theorem snowPix_beforeMelt (d : ℚ) : beforeMelt exCfg (meltDay d) snowPix =
    { n := 2, albedo := some (85 / 100),
      layers := [⟨1 / 10, 10, 0, T0, 21000⟩, ⟨1 / 5, 20, 0, T0, 42000⟩] } := by
  norm_num [beforeMelt, exCfg, meltDay, snowPix, compact, accumulation, conduct, updateHeatCap,
    Pixel.setActive, cIce, cWater]

theorem meltDay_moderate (d : ℚ) : Moderate exCfg (meltDay d) snowPix := by
  refine C121_moderate exCfg (meltDay d) snowPix (fun _ => le_rfl) (fun k => ?_) ?_
  · show (T0 : ℚ) ≤ T0 + 50
    norm_num
  · rw [snowPix_beforeMelt]; norm_num

/-- The hypotheses of `C121_undefined_iff`, `C121_solid` and `C121_full_melt` are met by the
complete melt of a pack of two layers. -/
example : Solid exCfg snowPix ∧ Moderate exCfg (meltDay 30) snowPix ∧
    ∃ f q, step exCfg (meltDay 30) snowPix = some (f, q) :=
  ⟨snowPix_solid, meltDay_moderate 30, C121_full_melt exCfg exCfg_ok _ (meltDay_ok 30 (by norm_num))
    snowPix snowPix_solid (meltDay_moderate 30) (by norm_num [meltDay]) (by
      rw [snowPix_beforeMelt]; norm_num [totalIce, meltDay])⟩

/-- **C121.** The claim is false in general: from bare ground, after a day with 30 kg m-2 of snow and
a day on which all but 0.00005 kg m-2 of it melts, the pixel is NaN. -/
theorem C121_thin_remainder_witness : ∃ (c : Cfg ℚ) (es : List (StepIn ℚ)) (p : Pixel ℚ),
    CfgOK c ∧ (∀ e ∈ es, InOK c.lwcMethod e) ∧ Solid c p ∧ p.n = 0 ∧ es.length = 2 ∧
    run c es p = none := by
  have hd : (0 : ℚ) ≤ 30 - 1 / 20000 := by norm_num
  refine ⟨exCfg, [snowDay, meltDay (30 - 1 / 20000)], barePix, exCfg_ok, ?_, barePix_solid, rfl, rfl,
    ?_⟩
  · intro e he
    rcases List.mem_pair.mp he with rfl | rfl
    · exact snowDay_ok
    · exact meltDay_ok _ hd
  · obtain ⟨f, h⟩ := snowDay_step
    have h2 : step exCfg (meltDay (30 - 1 / 20000)) snowPix = none := by
      rw [C121_undefined_iff exCfg exCfg_ok _ (meltDay_ok _ hd) snowPix snowPix_solid
        (meltDay_moderate _)]
      refine ⟨Pixel.mk 2
        [⟨0, 0, 10, T0, 21000⟩, ⟨1 / 2000000, 1 / 20000, 20 - 1 / 20000, T0, 42000⟩]
        (some (85 / 100)), ?_, ?_, ?_, ?_⟩
      · rw [snowPix_beforeMelt]
        norm_num [meltDay, exCfg, melt, meltLoop, meltLayer, sublimation, sublAmount, sublKernel,
          nanToZero, Pixel.setActive]
      · norm_num [depth]
      · norm_num [depth]
      · exact ⟨_, by simp; left; rfl, rfl⟩
    simp only [run, h, h2]

/-- **C121.** Immoderate heat gives NaN as well: a lower layer that melts through by its own heat
under a layer that stays. -/
theorem C121_heat_witness : ∃ (c : Cfg ℚ) (e : StepIn ℚ) (p : Pixel ℚ),
    CfgOK c ∧ InOK c.lwcMethod e ∧ Solid c p ∧ step c e p = none := by
  refine ⟨exCfg, { meltDay 0 with conducted := fun k => if k = 1 then 500 else 270 }, snowPix,
    exCfg_ok, ?_, snowPix_solid, ?_⟩
  · obtain ⟨h1, h2, h3, h4, h5, h6⟩ := meltDay_ok 0 le_rfl
    exact ⟨h1, h2, h3, h4, h5, h6⟩
  norm_num [step, exCfg, meltDay, snowPix, compact, accumulation, addSnow, conduct, updateHeatCap,
    Pixel.setActive, melt, meltLoop, meltLayer, sublimation, sublAmount, sublKernel, sublLoop,
    sublLayer, iceSum, nanToZero, runoff, runoffLoop, runoffLayer, maxLwc, T0, cIce, cWater, LF,
    waterDensity, iceDensity]
  have h : updateLayers [(1 / 10 : ℚ), 1 / 5]
      { n := 2, albedo := some (17 / 20),
        layers := [⟨1 / 10, 10, 0, 270, 21000⟩, ⟨0, 0, 0, 5463 / 20, 0⟩] } = none := by
    rw [C16_relayering_undefined_iff _ _ (by simp) (by norm_num)
      ⟨by decide, by norm_num, by simp⟩ (by norm_num [depth]) (by norm_num)]
    exact ⟨1, ⟨0, 0, 0, 5463 / 20, 0⟩, 1, by norm_num, rfl, rfl, by norm_num,
      by norm_num [topOf, depth, newThickness]⟩
  rw [h]

end Verif.MultiLayer
