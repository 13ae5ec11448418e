import Verif.Lemmas.Coupled

/-!
# C122: the coupled multilayer model
-/

namespace Verif.Coupled

open Verif.MultiLayer (Pixel Layer LwcMethod)

/-- Specification: a snowpack between two time steps. -/
structure SnowOK (c : Site) (p : Pixel ℝ) : Prop where
  slots : p.layers.length = c.minThickness.length
  count : p.n ≤ p.layers.length
  active : ∀ k L, p.layers[k]? = some L → k < p.n → 0 < L.thick ∧ 0 < L.ice ∧ 0 ≤ L.lwc
  inactive : ∀ k L, p.layers[k]? = some L → p.n ≤ k → L.thick = 0 ∧ L.ice = 0 ∧ L.lwc = 0
  snow : 0 < p.n → ∃ a, p.albedo = some a ∧ c.albedo.min ≤ a ∧ a ≤ c.albedo.max
  bare : p.n = 0 → p.albedo = none

/-- In the course of the run compaction leaves no layer denser than ice (`C122_light`: a matter of configuration for
all options except Anderson compaction with retention in the pore volume). -/
def LightRun (c : Site) : List Forcing → State → Prop
  | [], _ => True
  | f :: fs, s => Light c f s.snow ∧ ∀ x s', step c f s = some (x, s') → LightRun c fs s'

/-- Meteorological values in their physical ranges. -/
structure Natural (f : Forcing) : Prop where
  temp : 0 < f.temp
  wind : 0 ≤ f.wind
  density : 0 ≤ f.density
  latVap : 0 < f.latVap
  qsat : ∀ t, 0 < t → 0 ≤ f.qsat t

/-- After heat conduction a layer holds enough heat to melt all its ice. -/
def HotLayer (c : Site) (f : Forcing) (s : State) : Prop :=
  ∃ p e p2, prepare c f s = some p ∧ energy c f s p = some e ∧
    Heat.snowHeatConduction (boundary c s e.ground) p = some p2 ∧
    ∃ L ∈ p2.layers.take p2.n, LF * L.ice ≤ (L.temp - T0) * L.heatCap

/-- After melt and sublimation of the step, snow thinner than 1e-6 m remains in a pack with an emptied layer. -/
def Remainder (c : Site) (f : Forcing) (s : State) : Prop :=
  ∃ p e p2 r, prepare c f s = some p ∧ energy c f s p = some e ∧
    Heat.snowHeatConduction (boundary c s e.ground) p = some p2 ∧
    (MultiLayer.sublimation c.dt e.ts c.albedo.max f.temp (Snow.freshSnowDensity (some f.wetBulb)) (some e.moist)
      (MultiLayer.melt e.melt p2).2).2 = some r ∧
    0 < MultiLayer.depth r ∧ MultiLayer.depth r < 1 / 1000000 ∧ ∃ L ∈ r.layers.take r.n, L.thick = 0

section aux

theorem snowOK_iff {c : Site} {p : Pixel ℝ} (h : Inv c p) : SnowOK c p where
  slots := h.solid.ok.slots_eq
  count := h.solid.ok.wf.n_le
  active := by
    intro k L hk hn
    have hL : L ∈ p.layers.take p.n := by
      apply List.mem_iff_getElem?.mpr
      exact ⟨k, by rw [List.getElem?_take, if_pos hn, hk]⟩
    have ht := h.solid.thick L hL
    exact ⟨ht, h.solid.ok.ice_pos hL ht, (h.solid.ok.wf.active L hL).2.2⟩
  inactive := by
    intro k L hk hn
    have hL : L ∈ p.layers.drop p.n := by
      apply List.mem_iff_getElem?.mpr
      exact ⟨k - p.n, by rw [List.getElem?_drop, Nat.add_sub_cancel' hn, hk]⟩
    exact h.solid.ok.wf.inactive L hL
  snow := h.snow
  bare := h.bare

theorem hHeat (L : Layer ℝ) (h : ¬ MultiLayer.heat L < LF * L.ice) : LF * L.ice ≤ (L.temp - T0) * L.heatCap := by
  have := LF_pos (K := ℝ)
  have h1 := not_lt.mp h
  unfold MultiLayer.heat at h1
  linarith

theorem initial_inv {c : Site} (h : SiteOK c) : Inv c (initial c).snow := by
  have hall : ∀ L ∈ (initial c).snow.layers, L.thick = 0 ∧ L.ice = 0 ∧ L.lwc = 0 := by
    intro L hL
    obtain ⟨t, -, rfl⟩ := List.mem_map.mp hL
    exact ⟨rfl, rfl, rfl⟩
  refine ⟨⟨⟨⟨Nat.zero_le _, ?_, ?_⟩, ?_, ?_⟩, ?_⟩, ?_, fun _ => rfl⟩
  · intro L hL; simp [initial] at hL
  · intro L hL; exact hall L (List.mem_of_mem_drop hL)
  · simp [initial, mlCfg]
  · intro L hL; simp [initial] at hL
  · intro L hL; simp [initial] at hL
  · intro hn; simp [initial] at hn

theorem step_inv {c : Site} (h : SiteOK c) {f : Forcing} (hf : ForcingOK c f) {s s' : State} {x : MultiLayer.Fluxes ℝ}
    (hp : Inv c s.snow) (hl : Light c f s.snow) (hst : step c f s = some (x, s')) :
    Inv c s'.snow ∧ 0 ≤ x.runoff ∧ 0 ≤ x.refreezing ∧ 0 ≤ x.melt ∧ ∃ deleted : ℝ,
      MultiLayer.swe s'.snow = MultiLayer.swe s.snow + f.snow + f.rain - x.sublimation - x.runoff - deleted ∧
      0 ≤ deleted ∧ (c.lwcMethod = .poreVolume → deleted < iceDensity / 1000000) ∧
      (deleted ≠ 0 → s'.snow.n = 0) := by
  obtain ⟨p, hprep, hinv, g, hpg, href⟩ := step_refines h hf hp hl
  obtain ⟨e, he, -⟩ := energy_of_step hprep hst
  obtain ⟨u, hin, -, hbm, heq⟩ := href e he
  rw [heq] at hst
  cases hms : MultiLayer.step (mlCfg c) (inputs c f s.ts g u e.melt e.ts (some e.moist)) s.snow with
  | none => rw [hms] at hst; simp at hst
  | some r =>
    obtain ⟨fl, q⟩ := r
    rw [hms] at hst
    simp only [Option.map_some, Option.some.injEq, Prod.mk.injEq] at hst
    obtain ⟨rfl, rfl⟩ := hst
    obtain ⟨-, h2, h3, h4, d, h5, h6, h7, h8⟩ :=
      MultiLayer.C18_step_water_balance (mlCfg c) (mlCfg_ok h) _ hin _ _ _ hp.solid.ok hms
    have hsol := MultiLayer.C121_solid (mlCfg c) (mlCfg_ok h) _ hin _ _ _ hp.solid hms
    have halb : AlbedoOK c.albedo.min (mlCfg c).albMax q := by
      refine step_albedo (mlCfg_ok h) hin hp.solid h.albedo.range ?_ hms
      rw [hbm]
      exact ⟨hinv.snow, hinv.bare⟩
    exact ⟨⟨hsol, halb.1, halb.2⟩, h2, h3, h4, d, h5, h6, h7, fun hd => (h8 hd).2⟩

end aux

/-- **C122.** A run of any length from the initial state: contents and thickness of active layers are positive (liquid
water not negative), other slots are empty, an albedo in the configured range is present exactly where snow lies, and
snow water equals precipitation minus sublimation and runoff, minus remainders thinner than 1e-6 m that are deleted. -/
theorem C122_run (c : Site) (h : SiteOK c) (fs : List Forcing) (hf : ∀ f ∈ fs, ForcingOK c f)
    (hl : LightRun c fs (initial c)) (xs : List (MultiLayer.Fluxes ℝ)) (s : State)
    (hr : run c fs (initial c) = some (xs, s)) :
    SnowOK c s.snow ∧ xs.length = fs.length ∧ (∀ x ∈ xs, 0 ≤ x.runoff ∧ 0 ≤ x.refreezing ∧ 0 ≤ x.melt) ∧
    ∃ deleted : List ℝ, deleted.length = fs.length ∧
      (∀ d ∈ deleted, 0 ≤ d ∧ (c.lwcMethod = .poreVolume → d < 917 / 1000000)) ∧
      (s.snow.layers.map fun L => L.ice + L.lwc).sum = (fs.map fun f => f.snow + f.rain).sum -
        (xs.map fun x => x.sublimation + x.runoff).sum - deleted.sum := by
  have key : ∀ (fs : List Forcing) (s0 : State) (xs : List (MultiLayer.Fluxes ℝ)) (s : State),
      (∀ f ∈ fs, ForcingOK c f) → LightRun c fs s0 → Inv c s0.snow → run c fs s0 = some (xs, s) →
      Inv c s.snow ∧ xs.length = fs.length ∧ (∀ x ∈ xs, 0 ≤ x.runoff ∧ 0 ≤ x.refreezing ∧ 0 ≤ x.melt) ∧
      ∃ deleted : List ℝ, deleted.length = fs.length ∧
        (∀ d ∈ deleted, 0 ≤ d ∧ (c.lwcMethod = .poreVolume → d < 917 / 1000000)) ∧
        MultiLayer.swe s.snow = MultiLayer.swe s0.snow + (fs.map fun f => f.snow + f.rain).sum -
          (xs.map fun x => x.sublimation + x.runoff).sum - deleted.sum := by
    intro fs
    induction fs with
    | nil =>
      intro s0 xs s _ _ h0 hr
      simp only [run, Option.some.injEq, Prod.mk.injEq] at hr
      obtain ⟨rfl, rfl⟩ := hr
      exact ⟨h0, rfl, by simp, [], rfl, by simp, by simp⟩
    | cons f fs ih =>
      intro s0 xs s hf hl h0 hr
      simp only [run] at hr
      split at hr
      · simp at hr
      rename_i x s1 hst
      split at hr
      · simp at hr
      rename_i ys s2 hrun
      simp only [Option.some.injEq, Prod.mk.injEq] at hr
      obtain ⟨rfl, rfl⟩ := hr
      obtain ⟨h1, h2, h3, h4, d, h5, h6, h7, -⟩ := step_inv h (hf f (by simp)) h0 hl.1 hst
      obtain ⟨k1, k2, k3, ds, k4, k5, k6⟩ := ih s1 ys s2 (fun f' hf' => hf f' (by simp [hf'])) (hl.2 x s1 hst) h1 hrun
      refine ⟨k1, by simp [k2], ?_, d :: ds, by simp [k4], ?_, ?_⟩
      · intro y hy
        rcases List.mem_cons.mp hy with rfl | hy
        · exact ⟨h2, h3, h4⟩
        · exact k3 y hy
      · intro y hy
        rcases List.mem_cons.mp hy with rfl | hy
        · exact ⟨h6, fun hm => by simpa [iceDensity] using h7 hm⟩
        · exact k5 y hy
      · simp only [List.map_cons, List.sum_cons]
        linarith
  obtain ⟨k1, k2, k3, ds, k4, k5, k6⟩ := key fs (initial c) xs s hf hl (initial_inv h) hr
  refine ⟨snowOK_iff k1, k2, k3, ds, k4, k5, ?_⟩
  have h0 : MultiLayer.swe (initial c).snow = 0 := by
    simp [MultiLayer.swe, initial]
  have h1 : MultiLayer.swe s.snow = (s.snow.layers.map fun L => L.ice + L.lwc).sum := rfl
  rw [← h1, k6, h0]
  ring

theorem light_of_cfg {c : Site} (h : SiteOK c)
    (hm : c.lwcMethod ≠ .poreVolume ∨ ∃ e, c.compaction = .empirical e ∧ e.maxCold ≤ 917 ∧ e.maxMelting ≤ 917)
    (f : Forcing) (p : Pixel ℝ) (hp : Inv c p) : Light c f p := by
  intro hm'
  rcases hm with hm | ⟨e, he, h1, h2⟩
  · exact absurd hm' hm
  intro q hq L hL
  have hmass : ∀ L ∈ p.layers.take p.n, 0 < L.thick → 0 < L.ice + L.lwc := by
    intro L hL ht
    have h1 := hp.solid.ok.ice_pos hL ht
    have h2 := (hp.solid.ok.wf.active L hL).2.2
    linarith
  have hspec : ∀ D ∈ (p.layers.take p.n).map toD, ∃ D', Snow.empiricalLayer e c.dt D = some D' ∧
      D.ice ≤ 917 * D'.thick := by
    intro D hD
    obtain ⟨L, hL, rfl⟩ := List.mem_map.mp hD
    have ht := hp.solid.thick L hL
    have hi := hp.solid.ok.ice_pos hL ht
    have hw := (hp.solid.ok.wf.active L hL).2.2
    have hd := (hp.solid.ok.layers L hL).2 hm'
    have hmx : Snow.maxDensity e (toD L) ≤ 917 := by unfold Snow.maxDensity; split_ifs <;> assumption
    have hpos : 0 < L.ice + L.lwc := by linarith
    have hτ := h.timescale e he
    have hdt := h.dt
    simp only [Snow.empiricalLayer]
    have ht' : 0 < (toD L).thick := ht
    rw [if_pos ht']
    by_cases hr : ((toD L).ice + (toD L).lwc) / (toD L).thick < Snow.maxDensity e (toD L)
    · rw [if_pos hr]
      have hr0 : 0 < ((toD L).ice + (toD L).lwc) / (toD L).thick := div_pos hpos ht
      obtain ⟨mx, hmxe⟩ : ∃ x, Snow.maxDensity e (toD L) = x := ⟨_, rfl⟩
      obtain ⟨rho, hrho⟩ : ∃ x, ((toD L).ice + (toD L).lwc) / (toD L).thick = x := ⟨_, rfl⟩
      obtain ⟨ex, hex⟩ : ∃ x, Real.exp (-c.dt / e.timescale) = x := ⟨_, rfl⟩
      rw [hmxe] at hr hmx ⊢
      rw [hrho] at hr hr0 ⊢
      have hx0 : 0 < ex := by rw [← hex]; exact Real.exp_pos _
      have hx1 : ex ≤ 1 := by
        rw [← hex]
        apply Real.exp_le_one_iff.mpr
        rw [neg_div]
        have := div_pos hdt hτ
        linarith
      rw [hex]
      have hge : rho ≤ mx + (rho - mx) * ex := by nlinarith
      have hle : mx + (rho - mx) * ex ≤ 917 := by nlinarith
      have hp' : 0 < mx + (rho - mx) * ex := by linarith
      rw [if_neg hp'.ne']
      refine ⟨_, rfl, ?_⟩
      show (toD L).ice ≤ 917 * (((toD L).ice + (toD L).lwc) / (mx + (rho - mx) * ex))
      rw [← mul_div_assoc, le_div_iff₀ hp']
      have : 0 < (toD L).ice := hi
      have : 0 ≤ (toD L).lwc := hw
      nlinarith
    · rw [if_neg hr]
      exact ⟨_, rfl, by simpa [iceDensity, toD] using hd⟩
  obtain ⟨Ds, hDs, hfor⟩ := mapM_forall₂ _ _ hspec
  have hc : compactLayers c f.temp (p.layers.take p.n) = some Ds := by
    simp only [compactLayers, he, hDs]
  have hlen : Ds.length = (p.layers.take p.n).length := by
    rw [← hfor.length_eq, List.length_map]
  simp only [compaction, hc, Option.some.injEq] at hq
  subst hq
  have htake : (p.setActive (List.zipWith (fun (L : Layer ℝ) D => { L with thick := D.thick })
      (p.layers.take p.n) Ds)).layers.take p.n = List.zipWith (fun (L : Layer ℝ) D => { L with thick := D.thick })
      (p.layers.take p.n) Ds := by
    rw [MultiLayer.setActive_take p _ hp.solid.ok.wf.n_le (by simp [hlen]) p.n le_rfl,
      List.take_of_length_le (by simp)]
  have hL' : L ∈ List.zipWith (fun (L : Layer ℝ) D => { L with thick := D.thick }) (p.layers.take p.n) Ds := by
    rw [← htake]; exact hL
  obtain ⟨k, hk⟩ := List.mem_iff_getElem?.mp hL'
  rw [List.getElem?_zipWith_eq_some] at hk
  obtain ⟨L0, D, hL0, hD, rfl⟩ := hk
  obtain ⟨D', hD', hle⟩ := MultiLayer.forall₂_get hfor k (toD L0) (by rw [List.getElem?_map, hL0]; rfl)
  rw [hD] at hD'
  simp only [Option.some.injEq] at hD'
  subst hD'
  exact hle

/-- **C122.** With retention as a mass fraction, or empirical compaction towards at most the density of ice, no
assumption about compaction is needed. -/
theorem C122_light (c : Site) (h : SiteOK c)
    (hm : c.lwcMethod ≠ .poreVolume ∨ ∃ e, c.compaction = .empirical e ∧ e.maxCold ≤ 917 ∧ e.maxMelting ≤ 917)
    (fs : List Forcing) (hf : ∀ f ∈ fs, ForcingOK c f) : LightRun c fs (initial c) := by
  have hlight : ∀ f p, Inv c p → Light c f p := fun f p hp => light_of_cfg h hm f p hp
  have key : ∀ (fs : List Forcing) (s : State), (∀ f ∈ fs, ForcingOK c f) → Inv c s.snow → LightRun c fs s := by
    intro fs
    induction fs with
    | nil => intro s _ _; trivial
    | cons f fs ih =>
      intro s hf hs
      refine ⟨hlight f _ hs, fun x s' hst => ih s' (fun f' hf' => hf f' (by simp [hf'])) ?_⟩
      exact (step_inv h (hf f (by simp)) hs (hlight f _ hs) hst).1
  exact key fs _ hf (initial_inv h)

/-- **C122.** With a surface temperature above absolute zero the arguments the model collects for the surface energy
balance are physical, whatever the snow state, and the energy balance has a solution. -/
theorem C122_energy (c : Site) (h : SiteOK c) (f : Forcing) (hf : Natural f) (s : State) (hs : 0 < s.ts)
    (p : Pixel ℝ) (hp : Inv c p) :
    ∃ a, Surface.albedo (fraction c p) p.albedo c.soilAlbedo = some a ∧
      Surface.Physical (surfacePixel c f s p a) ∧ energy c f s p = some (surfacePixel c f s p a).energyBalance := by
  have hdepth : Snow.depth (p.layers.map toD) = MultiLayer.depth p := by
    simp [Snow.depth, MultiLayer.depth, toD, Function.comp_def]
  have hd0 : 0 ≤ MultiLayer.depth p := by
    apply List.sum_nonneg
    intro x hx
    obtain ⟨L, hL, rfl⟩ := List.mem_map.mp hx
    exact (hp.solid.ok.wf.all L hL).1
  obtain ⟨hf0, hf1, -, hfz, -⟩ := Snow.C27_area_fraction c.depthScale (p.layers.map toD) (by rw [hdepth]; exact hd0)
  obtain ⟨a, ha⟩ : ∃ a, Surface.albedo (fraction c p) p.albedo c.soilAlbedo = some a := by
    by_cases hn : 0 < p.n
    · obtain ⟨al, hal, -, -⟩ := hp.snow hn
      obtain ⟨⟨a, ha, -⟩, -⟩ := Surface.C77_albedo (fraction c p) hf0 hf1 al c.soilAlbedo
      exact ⟨a, by rw [hal]; exact ha⟩
    · have h0 : p.n = 0 := by omega
      have : fraction c p = 0 := hfz.mpr (by rw [hdepth]; exact wf_depth_zero hp.solid.ok.wf h0)
      rw [this]
      exact ⟨_, (Surface.C77_albedo 0 le_rfl zero_le_one 0 c.soilAlbedo).2.1 p.albedo⟩
  obtain ⟨hz1, hz2, -⟩ := Surface.C77_roughness (fraction c p) hf0 hf1 c.snowRough c.soilRough h.snowRough h.soilRough
  have hz0 : 0 < Surface.roughness (fraction c p) c.snowRough c.soilRough :=
    lt_of_lt_of_le (lt_min h.snowRough h.soilRough) hz1
  have hmaxpos : 0 < max c.snowRough c.soilRough := lt_of_lt_of_le h.snowRough (le_max_left _ _)
  have hzt : 0 < Surface.measurementHeight c.adjust c.zt (MultiLayer.depth p) := by
    have := h.tempHeight.1
    unfold Surface.measurementHeight
    split_ifs
    · exact lt_max_of_lt_right (by norm_num)
    · linarith
  have hex : 0 < exchange c f s.ts p := by
    have hsf : 0 < (match c.stab with
        | none => (1 : ℝ)
        | some b => Surface.stability b (Surface.measurementHeight c.adjust c.zt (MultiLayer.depth p)) c.zw
            (Surface.roughness (fraction c p) c.snowRough c.soilRough) (some f.temp) (some s.ts) (some f.wind)) := by
      split
      · exact one_pos
      · rename_i b hb
        obtain ⟨-, h1, h2⟩ := Surface.C78_range b (Surface.measurementHeight c.adjust c.zt (MultiLayer.depth p)) c.zw
          (Surface.roughness (fraction c p) c.snowRough c.soilRough) f.temp s.ts f.wind (h.stab b hb) hzt
          (hmaxpos.trans h.windHeight) hf.temp
        rcases le_total s.ts f.temp with hle | hle
        · exact (h1 hle).1
        · linarith [h2 hle]
    refine (Surface.C78_exchange c.adjust c.zt (MultiLayer.depth p) c.zw _ 0 _ hz0 ?_ hsf ?_).1
    · exact lt_of_le_of_lt hz2 h.windHeight
    · have := h.tempHeight
      split_ifs
      · linarith [this.2]
      · have h3 := this.1
        linarith
  have htop : 0 ≤ top Layer.thick p := by
    unfold top
    cases hl : p.layers with
    | nil => simp
    | cons L Ls => simpa using (hp.solid.ok.wf.all L (by rw [hl]; simp)).1
  have hlam := soilLam_pos h s 0
  have hdx := soilDx0_pos h
  obtain ⟨-, hc1, -⟩ := Surface.C77_layer_cond (top Layer.thick p) (soilDx c 0) c.snowCond (soilLam c s 0) htop hdx
    h.snowCond hlam
  obtain ⟨-, hu, -⟩ := Soil.C81_water c.soil h.soil c.moisture (s.soilTemp 0) h.moisture
  have hphys : Surface.Physical (surfacePixel c f s p a) := by
    refine ⟨h.dt, hf.density, hex.le, hf.wind, ?_, hf.latVap, lt_of_lt_of_le (lt_min h.snowCond hlam) hc1, ?_, hs,
      hf.qsat _ hs, ?_⟩
    · exact h.gsat.le.trans (Surface.C77_conductance c.gsat _ c.soil.sat c.soil.crit h.gsat hu.le
        (h.moisture.le.trans h.moisture_le) h.crit).1
    · exact lt_of_lt_of_le hdx (le_max_right _ _)
    · intro x hx
      obtain ⟨L, hL, rfl⟩ := List.mem_map.mp hx
      exact (hp.solid.ok.wf.all L hL).2.1
  refine ⟨a, ha, hphys, ?_⟩
  have hden : denominator (surfacePixel c f s p a) ≠ 0 := by
    have := Surface.Pixel.slope_pos hphys
    exact this.ne'
  simp only [energy, ha]
  rw [if_neg (by push Not; exact ⟨hs.ne', hden⟩)]

/-- **C122.** With soil temperatures that are not negative the soil column is physical, so that the new soil
temperatures satisfy the heat equation of every layer (C21, C82); the flux into it is the ground heat flux or, below
snow, that between lowest snow layer and top soil layer. -/
theorem C122_soil (c : Site) (h : SiteOK c) (s : State) (hs : ∀ k, k < c.soilThick.length → 0 ≤ s.soilTemp k)
    (ground : ℝ) (q : Pixel ℝ) :
    ∃ (flux : ℝ) (x : List ℝ),
      Heat.Physical (Soil.column c.soilThick.length (soilDx c) s.soilTemp (soilLam c s) (soilHc c s) c.dt flux) ∧
      Heat.tempChange (Soil.column c.soilThick.length (soilDx c) s.soilTemp (soilLam c s) (soilHc c s) c.dt flux) =
        some x ∧ x.length = c.soilThick.length ∧
      (∀ k, k < c.soilThick.length → soilStep c s ground q k = s.soilTemp k + x.getD k 0) ∧
      (q.n = 0 → flux = ground) ∧
      (∀ Q, (q.layers.take q.n).getLast? = some Q →
        flux = 2 / (Q.thick / c.snowCond + soilDx c 0 / soilLam c s 0) * (Q.temp - s.soilTemp 0)) := by
  obtain ⟨flux, hflux⟩ : ∃ x, Soil.heatFlux ground ((q.layers.take q.n).map fun L => ⟨L.thick, L.temp, c.snowCond⟩)
    ⟨soilDx c 0, s.soilTemp 0, soilLam c s 0⟩ = x := ⟨_, rfl⟩
  have hN : 0 < c.soilThick.length := List.length_pos_iff.mpr h.someSoil
  have hphys : Heat.Physical (Soil.column c.soilThick.length (soilDx c) s.soilTemp (soilLam c s) (soilHc c s) c.dt
      flux) := by
    refine ⟨hN, h.dt, fun k hk => soilDx_pos h hk, fun k _ => soilLam_pos h s k, ?_,
      soilDx_pos h (by omega), soilLam_pos h s _⟩
    intro k hk
    exact (Soil.C81_heat_capacity c.soil h.soil c.moisture (s.soilTemp k) (soilDx c k) h.moisture.le (hs k hk)
      (soilDx_pos h hk)).2.1
  obtain ⟨x, h1, h2, h3⟩ := Soil.C82_field (ι := Unit) c.soilThick.length (fun k _ => soilDx c k)
    (fun k _ => s.soilTemp k) (fun k _ => soilLam c s k) (fun k _ => soilHc c s k) c.dt (fun _ => flux) () hphys
  refine ⟨flux, x, hphys, h1, h2, ?_, ?_, ?_⟩
  · intro k hk
    rw [← h3 k hk]
    simp only [soilStep, hflux]
  · intro hq
    rw [← hflux, hq]
    simp [Soil.heatFlux]
  · intro Q hQ
    rw [← hflux]
    simp only [Soil.heatFlux, List.getLast?_map, hQ, Option.map_some]

/-- **C122.** Exactly when a time step of the coupled model gives NaN, for a surface above absolute zero and no layer
hot enough to melt by itself: if melt and sublimation leave a remainder thinner than 1e-6 m in a pack in which a layer
was emptied. -/
theorem C122_undefined_iff (c : Site) (h : SiteOK c) (f : Forcing) (hf : ForcingOK c f) (hn : Natural f) (s : State)
    (hs : 0 < s.ts) (hp : Inv c s.snow) (hl : Light c f s.snow) (hhot : ¬ HotLayer c f s) :
    step c f s = none ↔ Remainder c f s := by
  obtain ⟨p, hprep, hinv, g, hpg, href⟩ := step_refines h hf hp hl
  obtain ⟨a, -, -, he⟩ := C122_energy c h f hn s hs p hinv
  obtain ⟨u, hin, hcond, hbm, heq⟩ := href _ he
  obtain ⟨e, hee⟩ : ∃ x, (surfacePixel c f s p a).energyBalance = x := ⟨_, rfl⟩
  rw [hee] at he hin hcond hbm heq
  have hmelt := energy_melt (fun L hL => (hinv.solid.ok.wf.all L hL).2.1) he
  have hmod : MultiLayer.Moderate (mlCfg c) (inputs c f s.ts g u e.melt e.ts (some e.moist)) s.snow := by
    refine ⟨?_, hmelt.2⟩
    intro L hL
    rw [hbm] at hL
    by_contra hc
    refine hhot ⟨p, e, _, hprep, he, hcond, L, hL, hHeat L hc⟩
  have hiff := MultiLayer.C121_undefined_iff (mlCfg c) (mlCfg_ok h) _ hin s.snow hp.solid hmod
  rw [heq, Option.map_eq_none_iff, hiff]
  constructor
  · rintro ⟨r, h1, h2, h3, h4⟩
    rw [hbm] at h1
    exact ⟨p, e, _, r, hprep, he, hcond, h1, h2, h3, h4⟩
  · rintro ⟨p', e', p2, r, h1, h2, h3, h4, h5, h6, h7⟩
    rw [hprep] at h1
    simp only [Option.some.injEq] at h1
    subst h1
    rw [he] at h2
    simp only [Option.some.injEq] at h2
    subst h2
    rw [hcond] at h3
    simp only [Option.some.injEq] at h3
    subst h3
    refine ⟨r, ?_, h5, h6, h7⟩
    rw [hbm]
    exact h4

/-- **C122.** A step in which all snow melts by the energy balance is always defined. -/
theorem C122_full_melt (c : Site) (h : SiteOK c) (f : Forcing) (hf : ForcingOK c f) (hn : Natural f) (s : State)
    (hs : 0 < s.ts) (hp : Inv c s.snow) (hl : Light c f s.snow) (hhot : ¬ HotLayer c f s)
    (p : Pixel ℝ) (hprep : prepare c f s = some p) (a : ℝ)
    (ha : Surface.albedo (fraction c p) p.albedo c.soilAlbedo = some a)
    (hm : (surfacePixel c f s p a).Melts) (hnp : ¬ (surfacePixel c f s p a).Partially) :
    ∃ x s', step c f s = some (x, s') := by
  obtain ⟨p', hprep', hinv, g, hpg, href⟩ := step_refines h hf hp hl
  rw [hprep] at hprep'
  simp only [Option.some.injEq] at hprep'
  subst hprep'
  obtain ⟨a', ha', -, he⟩ := C122_energy c h f hn s hs p hinv
  rw [ha] at ha'
  simp only [Option.some.injEq] at ha'
  subst ha'
  obtain ⟨u, hin, hcond, hbm, heq⟩ := href _ he
  have hdem : (surfacePixel c f s p a).energyBalance.melt = (p.layers.map Layer.ice).sum := by
    unfold Surface.Pixel.energyBalance
    rw [if_neg hnp, if_pos hm]
    rfl
  obtain ⟨e, hee⟩ : ∃ x, (surfacePixel c f s p a).energyBalance = x := ⟨_, rfl⟩
  rw [hee] at he hin hcond hbm heq hdem
  have hmelt := energy_melt (fun L hL => (hinv.solid.ok.wf.all L hL).2.1) he
  have hmod : MultiLayer.Moderate (mlCfg c) (inputs c f s.ts g u e.melt e.ts (some e.moist)) s.snow := by
    refine ⟨?_, hmelt.2⟩
    intro L hL
    rw [hbm] at hL
    by_contra hc
    exact hhot ⟨p, e, _, hprep, he, hcond, L, hL, hHeat L hc⟩
  have hpos : 0 < e.melt := by
    rw [hdem]
    have hi : 0 < (surfacePixel c f s p a).ice0 := hm.2
    have hi' : 0 < (p.layers.map Layer.ice).headD 0 := hi
    cases hl : p.layers with
    | nil => rw [hl] at hi'; simp at hi'
    | cons L Ls =>
      rw [hl] at hi'
      have hrest : 0 ≤ (Ls.map Layer.ice).sum := List.sum_nonneg fun x hx => by
        obtain ⟨M, hM, rfl⟩ := List.mem_map.mp hx
        exact (hinv.solid.ok.wf.all M (by rw [hl]; simp [hM])).2.1
      simp only [List.map_cons, List.headD_cons] at hi'
      simp only [List.map_cons, List.sum_cons]
      linarith
  have hice : MultiLayer.totalIce (MultiLayer.conduct u p) = (p.layers.map Layer.ice).sum := by
    have hlay : (MultiLayer.conduct u p).layers.map Layer.ice = p.layers.map Layer.ice := by
      simp only [MultiLayer.conduct, Pixel.setActive, List.map_append, List.map_drop]
      have : ((p.layers.take p.n).mapIdx fun k (L : Layer ℝ) => { L with temp := u k }).map Layer.ice =
          (p.layers.map Layer.ice).take p.n := by
        apply List.ext_getElem
        · simp
        · intro i h1 h2
          simp
      rw [this, List.take_append_drop]
    rw [MultiLayer.totalIce, hlay]
  obtain ⟨fl, q, hst⟩ := MultiLayer.C121_full_melt (mlCfg c) (mlCfg_ok h) _ hin s.snow hp.solid hmod hpos (by
    rw [hbm, hice]; exact hdem.ge)
  rw [heq, hst]
  exact ⟨fl, _, rfl⟩

/-- **C122.** If a run gives NaN then after some number of steps from the initial state the surface is at or below
absolute zero, or a layer holds enough heat to melt by itself, or a thin remainder is left. That these are excluded by
ordinary weather is not shown. -/
theorem C122_nan_partial (c : Site) (h : SiteOK c) (fs : List Forcing) (hf : ∀ f ∈ fs, ForcingOK c f ∧ Natural f)
    (hl : LightRun c fs (initial c)) (hr : run c fs (initial c) = none) :
    ∃ (i : ℕ) (f : Forcing) (xs : List (MultiLayer.Fluxes ℝ)) (s : State), fs[i]? = some f ∧
      run c (fs.take i) (initial c) = some (xs, s) ∧ SnowOK c s.snow ∧
      (s.ts ≤ 0 ∨ HotLayer c f s ∨ Remainder c f s) := by
  have key : ∀ (fs : List Forcing) (s0 : State), (∀ f ∈ fs, ForcingOK c f ∧ Natural f) → LightRun c fs s0 →
      Inv c s0.snow → run c fs s0 = none →
      ∃ (i : ℕ) (f : Forcing) (xs : List (MultiLayer.Fluxes ℝ)) (s : State), fs[i]? = some f ∧
        run c (fs.take i) s0 = some (xs, s) ∧ SnowOK c s.snow ∧
        (s.ts ≤ 0 ∨ HotLayer c f s ∨ Remainder c f s) := by
    intro fs
    induction fs with
    | nil => intro s0 _ _ _ hr; simp [run] at hr
    | cons f fs ih =>
      intro s0 hf hl h0 hr
      cases hst : step c f s0 with
      | none =>
        refine ⟨0, f, [], s0, rfl, rfl, snowOK_iff h0, ?_⟩
        by_contra hc
        push Not at hc
        obtain ⟨h1, h2, h3⟩ := hc
        exact h3 ((C122_undefined_iff c h f (hf f (by simp)).1 (hf f (by simp)).2 s0 h1 h0 hl.1 h2).mp hst)
      | some r =>
        obtain ⟨x, s1⟩ := r
        have hrun : run c fs s1 = none := by
          simp only [run, hst] at hr
          cases hr' : run c fs s1 with
          | none => rfl
          | some y => rw [hr'] at hr; simp at hr
        obtain ⟨i, f', xs, s, k1, k2, k3, k4⟩ := ih s1 (fun f' hf' => hf f' (by simp [hf'])) (hl.2 x s1 hst)
          (step_inv h (hf f (by simp)).1 h0 hl.1 hst).1 hrun
        refine ⟨i + 1, f', x :: xs, s, by simpa using k1, ?_, k3, k4⟩
        simp only [List.take_succ_cons, run, hst, k2]
  exact key fs _ hf hl (initial_inv h) hr

/-- **C122.** On bare ground without snowfall the step is always defined, including hoar on the ground. -/
theorem C122_bare (c : Site) (h : SiteOK c) (f : Forcing) (hf : ForcingOK c f) (hn : Natural f) (s : State)
    (hs : 0 < s.ts) (hp : Inv c s.snow) (h0 : s.snow.n = 0) (hsn : f.snow = 0) :
    ∃ x s', step c f s = some (x, s') := by
  have hl : Light c f s.snow := by
    intro _ q hq L hL
    simp only [compaction, h0, List.take_zero] at hq
    split at hq
    · simp at hq
    · simp only [Option.some.injEq] at hq
      subst hq
      simp [Pixel.setActive, h0] at hL
  obtain ⟨p, hprep, hinv, g, hpg, href⟩ := step_refines h hf hp hl
  have hpn : p.n = 0 := by
    rw [hpg]
    simp [prepared, MultiLayer.updateHeatCap, ageing, MultiLayer.accumulation, hsn, MultiLayer.compact,
      Pixel.setActive, h0]
  cases hst : step c f s with
  | some r => exact ⟨r.1, r.2, rfl⟩
  | none =>
    exfalso
    have hcond : ∀ e p2, energy c f s p = some e → Heat.snowHeatConduction (boundary c s e.ground) p = some p2 →
        p2 = p := by
      intro e p2 he h2
      obtain ⟨u, -, hcond, -, -⟩ := href e he
      rw [h2, Option.some.injEq, conduct_zero u hpn] at hcond
      exact hcond
    have hhot : ¬ HotLayer c f s := by
      rintro ⟨p', e, p2, h1, h2, h3, L, hL, -⟩
      rw [hprep, Option.some.injEq] at h1
      subst h1
      rw [hcond e p2 h2 h3, hpn] at hL
      simp at hL
    obtain ⟨p', e, p2, r, h1, h2, h3, h4, -, -, L, hL, hL0⟩ :=
      (C122_undefined_iff c h f hf hn s hs hp hl hhot).mp hst
    rw [hprep, Option.some.injEq] at h1
    subst h1
    rw [hcond e p2 h2 h3] at h4
    have hslots : 1 ≤ c.minThickness.length := List.length_pos_iff.mpr h.layers
    have hmelt := energy_melt (fun L hL => (hinv.solid.ok.wf.all L hL).2.1) h2
    have h3ok := hinv.solid.ok.melt e.melt hmelt.1
    have h3n : (MultiLayer.melt e.melt p).2.n = 0 := hpn
    obtain ⟨p3, hp3⟩ : ∃ x, (MultiLayer.melt e.melt p).2 = x := ⟨_, rfl⟩
    rw [hp3] at h4 h3ok h3n
    simp only [MultiLayer.sublimation] at h4
    split_ifs at h4 with hfrost
    · have hneg : ¬ (0 < max (MultiLayer.sublAmount c.dt e.ts (some e.moist) p3) 0) := by
        intro hc
        rcases lt_max_iff.mp hc with hc | hc
        · rw [min_eq_right hc.le] at hfrost; simp at hfrost
        · exact absurd hc (lt_irrefl 0)
      simp only [MultiLayer.sublKernel, hneg, if_false, Option.pure_def, Option.some.injEq] at h4
      subst h4
      refine (MultiLayer.addSnow_thick h3ok hslots _ _ _ _ (freshDensity_pos (some f.wetBulb)) hfrost ?_ L hL).ne' hL0
      intro M hM
      rw [h3n] at hM
      simp at hM
    · have : r.n = 0 := by
        simp only [MultiLayer.sublKernel] at h4
        split_ifs at h4
        · cases hk : MultiLayer.sublLoop (max (MultiLayer.sublAmount c.dt e.ts (some e.moist) p3) 0)
            (List.take p3.n p3.layers) with
          | none => rw [hk] at h4; simp at h4
          | some y => rw [hk] at h4; simp at h4; rw [← h4]; exact h3n
        · simp at h4; rw [← h4]; exact h3n
      rw [this] at hL
      simp at hL

/-! ## Witnesses -/

/-- A site with Anderson compaction and two layers. -/
noncomputable def exSite : Site where
  dt := 3600
  albedo := ⟨1 / 2, 9 / 10, 480, 200, 1 / 2, .binary⟩
  ageByAir := false
  compaction := .anderson
  lwcMethod := .poreVolume
  maxFrac := 3 / 100
  minThickness := [1 / 10, 1 / 5]
  depthScale := 1 / 10
  snowCond := 6 / 25
  snowRough := 1 / 1000
  soilRough := 1 / 100
  soilAlbedo := 1 / 5
  gsat := 1 / 100
  adjust := false
  zt := 2
  zw := 10
  stab := some 5
  soil := { b := 6, psi := 1 / 5, sat := 2 / 5, crit := 1 / 5, capDry := 2000000, condDry := 1 / 5 }
  moisture := 3 / 10
  soilThick := [1 / 10, 1 / 5]
  initTemp := 280

theorem exSite_ok : SiteOK exSite := by
  constructor <;> norm_num [exSite]
  · constructor <;> norm_num
  · intro e he; simp at he
  · simp
  · constructor <;> norm_num
  · simp

/-- A dry day. -/
noncomputable def exDay : Forcing where
  temp := 285
  wetBulb := 280
  specHum := 1 / 1000
  swIn := 300
  lwIn := 280
  wind := 2
  rain := 1
  snow := 0
  density := 1
  latVap := 2500000
  qsat := fun _ => 1 / 100

theorem exDay_ok : ForcingOK exSite exDay ∧ Natural exDay := by
  refine ⟨⟨?_, ?_, ?_⟩, ⟨?_, ?_, ?_, ?_, ?_⟩⟩ <;> norm_num [exDay]

/-- The hypotheses of `C122_bare` and `C122_run` are met. -/
example : ∃ xs s, LightRun exSite [exDay] (initial exSite) ∧ run exSite [exDay] (initial exSite) = some (xs, s) := by
  obtain ⟨x, s, h⟩ := C122_bare exSite exSite_ok exDay exDay_ok.1 exDay_ok.2 (initial exSite) (by norm_num [initial, exSite])
    (initial_inv exSite_ok) rfl rfl
  refine ⟨[x], s, ⟨?_, fun _ _ _ => trivial⟩, by simp [run, h]⟩
  intro _ q hq L hL
  simp only [compaction, initial, List.take_zero] at hq
  split at hq
  · simp at hq
  · simp only [Option.some.injEq] at hq
    subst hq
    simp [Pixel.setActive] at hL

/-- One layer slot, empirical compaction, constant albedo. -/
noncomputable def meltSite : Site :=
  { exSite with
    albedo := ⟨1 / 2, 1 / 2, 480, 200, 1 / 2, .binary⟩
    compaction := .empirical ⟨3600, 50, 50⟩
    lwcMethod := .massFraction
    minThickness := [1 / 10]
    soilAlbedo := 1 / 2
    soilThick := [1 / 100] }

theorem meltSite_ok : SiteOK meltSite := by
  constructor <;> norm_num [meltSite, exSite]
  · constructor <;> norm_num
  · constructor <;> norm_num

/-- A sunny calm hour without precipitation. -/
noncomputable def meltHour : Forcing where
  temp := 280
  wetBulb := 275
  specHum := 0
  swIn := 900
  lwIn := 0
  wind := 0
  rain := 0
  snow := 0
  density := 1
  latVap := 2500000
  qsat := fun _ => 0

/-- One centimetre of melting snow. -/
noncomputable def meltState : State where
  snow := { n := 1, layers := [⟨1 / 100, 1, 0, T0, 0⟩], albedo := some (1 / 2) }
  soilTemp := fun _ => T0
  ts := T0

/-- The hypotheses of `C122_full_melt` (and of `C122_undefined_iff`) are met by snow that melts away within an
hour. -/
example : ForcingOK meltSite meltHour ∧ Natural meltHour ∧ 0 < meltState.ts ∧ Inv meltSite meltState.snow ∧
    Light meltSite meltHour meltState.snow ∧ ¬ HotLayer meltSite meltHour meltState ∧
    ∃ p a, prepare meltSite meltHour meltState = some p ∧
      Surface.albedo (fraction meltSite p) p.albedo meltSite.soilAlbedo = some a ∧
      (surfacePixel meltSite meltHour meltState p a).Melts ∧
      ¬ (surfacePixel meltSite meltHour meltState p a).Partially := by
  have hf : ForcingOK meltSite meltHour := by
    refine ⟨?_, ?_, ?_⟩ <;> norm_num [meltHour, meltSite]
  have hn : Natural meltHour := by refine ⟨?_, ?_, ?_, ?_, ?_⟩ <;> norm_num [meltHour]
  have hs : 0 < meltState.ts := by norm_num [meltState, T0]
  have hi : Inv meltSite meltState.snow := by
    refine ⟨⟨⟨⟨?_, ?_, ?_⟩, ?_, ?_⟩, ?_⟩, ?_, ?_⟩ <;>
      norm_num [meltState, meltSite, mlCfg, MultiLayer.LayerOK, iceDensity]
  have hl : Light meltSite meltHour meltState.snow := fun h => by simp [meltSite] at h
  have hcomp : compaction meltSite meltHour.temp meltState.snow = some meltState.snow := by
    norm_num [compaction, compactLayers, meltSite, meltState, toD, Snow.empiricalLayer, Snow.maxDensity,
      Pixel.setActive]
  obtain ⟨p, hp⟩ : ∃ p, p = MultiLayer.updateHeatCap (ageing meltSite meltHour meltState.ts meltState.snow) := ⟨_, rfl⟩
  have hprep : prepare meltSite meltHour meltState = some p := by
    rw [hp]
    simp only [prepare, hcomp]
    norm_num [MultiLayer.accumulation, meltHour]
  obtain ⟨p', hprep', hinv, -⟩ := step_refines meltSite_ok hf hi hl
  rw [hprep, Option.some.injEq] at hprep'
  subst hprep'
  have hn1 : p.n = 1 := by rw [hp]; rfl
  have hlay : p.layers = [⟨1 / 100, 1, 0, T0, 2100⟩] := by
    rw [hp]; norm_num [MultiLayer.updateHeatCap, ageing, meltState, MultiLayer.Layer.heatCap, cIce]
  have halb : p.albedo = some (1 / 2) := by
    obtain ⟨a, ha, h1, h2⟩ := hinv.snow (by omega)
    rw [ha]
    exact congrArg some (le_antisymm h2 h1)
  obtain ⟨a, ha, hphys, he⟩ := C122_energy meltSite meltSite_ok meltHour hn meltState hs p hinv
  have ha2 : a = 1 / 2 := by
    have hd0 : 0 ≤ Snow.depth (p.layers.map toD) := by rw [hlay]; norm_num [Snow.depth, toD]
    obtain ⟨hf0, hf1, -⟩ := Snow.C27_area_fraction meltSite.depthScale (p.layers.map toD) hd0
    obtain ⟨⟨b, hb, h1, h2⟩, -⟩ := Surface.C77_albedo (fraction meltSite p) hf0 hf1 (1 / 2) meltSite.soilAlbedo
    rw [halb, hb, Option.some.injEq] at ha
    subst ha
    have : meltSite.soilAlbedo = 1 / 2 := rfl
    rw [this] at h1 h2
    simp at h1 h2
    norm_num
    linarith
  obtain ⟨px, hpx⟩ : ∃ x, surfacePixel meltSite meltHour meltState p a = x := ⟨_, rfl⟩
  have htr : px.transfer = 0 := by rw [← hpx]; simp [Surface.Pixel.transfer, surfacePixel, meltHour]
  have hlc : px.layerCond = 6 / 25 := by
    rw [← hpx]
    norm_num [surfacePixel, Surface.layerCond, top, hlay, soilDx, meltSite, exSite]
  have hlt : px.layerTemp = Atmosphere.T0 := by
    rw [← hpx]
    norm_num [surfacePixel, Surface.layerTemp, top, hlay, soilDx, meltSite, exSite, meltState, T0, Atmosphere.T0]
  have hth : px.layerThick = 1 / 100 := by
    rw [← hpx]
    norm_num [surfacePixel, Surface.layerThickness, top, hlay, soilDx, meltSite, exSite]
  have hts : px.ts = Atmosphere.T0 := by
    rw [← hpx]; norm_num [surfacePixel, meltState, T0, Atmosphere.T0]
  have hice : px.ice = [1] := by rw [← hpx]; simp [surfacePixel, hlay]
  have hdt : px.dt = 3600 := by rw [← hpx]; rfl
  have hnet : px.netRad Atmosphere.T0 = 450 - 99 / 100 * Surface.sigma * Atmosphere.T0 ^ 4 := by
    rw [← hpx, ha2]
    norm_num [Surface.Pixel.netRad, surfacePixel, meltHour]
  have hadv : px.advHeat Atmosphere.T0 = 0 := by
    rw [← hpx]; simp [Surface.Pixel.advHeat, surfacePixel, meltHour]
  have hsolve : ∀ m : ℝ, (px.solve (px.fluxesAt px.ts m)).ts =
      (450 - 99 / 100 * Surface.sigma * Atmosphere.T0 ^ 4 - 334000 * (m / 3600)) /
        (48 + 4 * Surface.sigma * Atmosphere.T0 ^ 3) := by
    intro m
    simp only [Surface.Pixel.solve, Surface.Pixel.fluxesAt, Surface.Pixel.sensFlux, Surface.Pixel.moistFlux,
      Surface.Pixel.groundFlux, hts, hnet, hadv, htr, hlt, hlc, hth, hdt]
    norm_num [Surface.lf]
  have hdry : px.dry.ts = (450 - 99 / 100 * Surface.sigma * Atmosphere.T0 ^ 4) /
      (48 + 4 * Surface.sigma * Atmosphere.T0 ^ 3) := by
    unfold Surface.Pixel.dry; rw [hsolve]; norm_num
  have hwet : px.wet.ts = (450 - 99 / 100 * Surface.sigma * Atmosphere.T0 ^ 4 - 334000 * (1 / 3600)) /
      (48 + 4 * Surface.sigma * Atmosphere.T0 ^ 3) := by
    unfold Surface.Pixel.wet; rw [hsolve, hice]; norm_num
  have hdry0 : 0 < px.dry.ts := by rw [hdry]; norm_num [Surface.sigma, Atmosphere.T0]
  have hwet0 : 0 < px.wet.ts := by rw [hwet]; norm_num [Surface.sigma, Atmosphere.T0]
  have hwet1 : px.wet.ts < 1 := by rw [hwet]; norm_num [Surface.sigma, Atmosphere.T0]
  have hM : px.Melts := by
    refine ⟨?_, ?_⟩
    · rw [hts]; linarith
    · simp [Surface.Pixel.ice0, hice]
  have hP : ¬ px.Partially := by
    rintro ⟨-, h2⟩
    rw [hts] at h2
    linarith
  refine ⟨hf, hn, hs, hi, hl, ?_, p, a, hprep, ha, by rw [hpx]; exact hM, by rw [hpx]; exact hP⟩
  rintro ⟨p', e, p2, h1, h2, h3, L, hL, hL0⟩
  rw [hprep, Option.some.injEq] at h1
  subst h1
  rw [he, Option.some.injEq, hpx] at h2
  have hg : e.ground = 48 * px.wet.ts := by
    rw [← h2]
    unfold Surface.Pixel.energyBalance
    rw [if_neg hP, if_pos hM]
    simp only [Surface.Pixel.finish, Surface.Pixel.fluxesAt, Surface.Pixel.groundFlux, hts, hlt]
    have : px.wet.ground = 48 * px.wet.ts := by
      simp only [Surface.Pixel.wet, Surface.Pixel.solve, hlc, hth]
      ring
    rw [this]
    simp
  have hcol : Heat.Physical (Heat.snowColumn (boundary meltSite meltState e.ground) p) := by
    refine ⟨by rw [Heat.snowColumn]; simp [hn1], by norm_num [Heat.snowColumn, boundary, meltSite, exSite], ?_, ?_, ?_, ?_, ?_⟩
    · intro k hk
      have : k = 0 := by simp only [Heat.snowColumn, hn1] at hk; omega
      subst this; norm_num [Heat.snowColumn, hlay]
    · intro k _
      exact meltSite_ok.snowCond
    · intro k hk
      have : k = 0 := by simp only [Heat.snowColumn, hn1] at hk; omega
      subst this; norm_num [Heat.snowColumn, hlay]
    · exact soilDx0_pos meltSite_ok
    · exact soilLam_pos meltSite_ok meltState 0
  obtain ⟨x, hx, -, hbal⟩ := Heat.C21_layer_energy_balance _ hcol
  have hb := hbal 0 (by simp [Heat.snowColumn, hn1])
  obtain ⟨x0, hx0⟩ : ∃ y, x.getD 0 0 = y := ⟨_, rfl⟩
  have hx0' : x[0]?.getD 0 = x0 := by rw [← hx0]; simp
  have hR : 0 < Heat.halfResistance (Heat.snowColumn (boundary meltSite meltState e.ground) p) 0 +
      Heat.halfResistance (Heat.snowColumn (boundary meltSite meltState e.ground) p) 1 := by
    have h5 := soilDx0_pos meltSite_ok
    have h6 := soilLam_pos meltSite_ok meltState 0
    have h7 := meltSite_ok.snowCond
    simp only [Heat.halfResistance, Heat.snowColumn, hn1, hlay, boundary]
    norm_num
    positivity
  obtain ⟨R, hRe⟩ : ∃ y, Heat.halfResistance (Heat.snowColumn (boundary meltSite meltState e.ground) p) 0 +
      Heat.halfResistance (Heat.snowColumn (boundary meltSite meltState e.ground) p) 1 = y := ⟨_, rfl⟩
  rw [hRe] at hR
  have hb' : 2100 * x0 = 3600 * (48 * px.wet.ts - x0 / R) := by
    have e1 : (Heat.snowColumn (boundary meltSite meltState e.ground) p).hc 0 = 2100 := by
      simp [Heat.snowColumn, hlay]
    have e2 : (Heat.snowColumn (boundary meltSite meltState e.ground) p).dt = 3600 := by
      simp [Heat.snowColumn, boundary, meltSite, exSite]
    rw [e1, e2, hx0] at hb
    rw [hb]
    simp only [Heat.fluxAbove, Heat.fluxBelow, if_true, hRe]
    have e3 : (Heat.snowColumn (boundary meltSite meltState e.ground) p).flux = 48 * px.wet.ts := by
      rw [← hg]; rfl
    rw [e3]
    simp [Heat.withBottom, Heat.snowColumn, hn1, Heat.newTemp, hlay, hx0']
  have hx0n : 0 ≤ x0 := by
    by_contra hc
    push Not at hc
    have : x0 / R < 0 := div_neg_of_neg_of_pos hc hR
    nlinarith
  have hxle : 2100 * x0 ≤ 3600 * (48 * px.wet.ts) := by
    have : 0 ≤ x0 / R := div_nonneg hx0n hR.le
    linarith
  have hp2 : p2.layers.take p2.n = [⟨1 / 100, 1, 0, T0 + x0, 2100⟩] := by
    simp only [Heat.snowHeatConduction, hn1, Nat.one_pos, if_true, hx, Option.some.injEq] at h3
    subst h3
    simp [Pixel.setActive, hn1, hlay, hx0']
  rw [hp2] at hL
  simp only [List.mem_singleton] at hL
  subst hL
  simp only [LF] at hL0
  linarith

end Verif.Coupled
