import Verif.Model.Coupled
import Verif.Props.StepDef
import Verif.Props.Snow
import Verif.Props.Soil
import Verif.Props.Surface
import Verif.Props.HeatConduction

/-!
# Lemmas for the coupled multilayer model
-/

namespace Verif.Coupled

open Verif.MultiLayer (Pixel Layer LayerOK PackOK WF Solid InOK CfgOK LwcMethod)

/-- The configuration of the snow part. -/
def mlCfg (c : Site) : MultiLayer.Cfg ℝ where
  dt := c.dt
  albMax := c.albedo.max
  lwcMethod := c.lwcMethod
  maxFrac := c.maxFrac
  minThickness := c.minThickness

/-- Configured values in their physical ranges. -/
structure SiteOK (c : Site) : Prop where
  dt : 0 < c.dt
  albedo : c.albedo.OK
  timescale : ∀ e, c.compaction = .empirical e → 0 < e.timescale
  layers : c.minThickness ≠ []
  minThickness : ∀ t ∈ c.minThickness, 1 / 1000000 ≤ t
  frac : 0 ≤ c.maxFrac
  frac_le : c.lwcMethod = .poreVolume → 1000 * c.maxFrac ≤ 917
  snowCond : 0 < c.snowCond
  soil : Soil.Physical c.soil
  crit : 0 < c.soil.crit
  moisture : 0 < c.moisture
  moisture_le : c.moisture ≤ c.soil.sat
  someSoil : c.soilThick ≠ []
  soilThick : ∀ d ∈ c.soilThick, 0 < d
  gsat : 0 < c.gsat
  snowRough : 0 < c.snowRough
  soilRough : 0 < c.soilRough
  windHeight : max c.snowRough c.soilRough < c.zw
  tempHeight : max c.snowRough c.soilRough < c.zt ∧ max c.snowRough c.soilRough < 10
  stab : ∀ b, c.stab = some b → 0 ≤ b

theorem mlCfg_ok {c : Site} (h : SiteOK c) : CfgOK (mlCfg c) where
  some_layer := h.layers
  min_thickness := h.minThickness
  frac_nonneg := h.frac
  frac_le := by
    intro hm
    have := h.frac_le hm
    simpa [MultiLayer.Cfg.maxFrac, mlCfg, waterDensity, iceDensity] using this

/-! ## Compaction -/

theorem mapM_forall₂ {α β : Type*} {R : α → β → Prop} (g : α → Option β) :
    ∀ l : List α, (∀ x ∈ l, ∃ y, g x = some y ∧ R x y) → ∃ l', l.mapM g = some l' ∧ List.Forall₂ R l l'
  | [], _ => ⟨[], by simp, .nil⟩
  | x :: xs, h => by
    obtain ⟨y, hy, hr⟩ := h x (by simp)
    obtain ⟨ys, hys, hf⟩ := mapM_forall₂ g xs fun z hz => h z (by simp [hz])
    exact ⟨y :: ys, by simp [List.mapM_cons, hy, hys], .cons hr hf⟩

/-- Compaction is defined for layers with a thickness and mass, and compacts each of them. -/
theorem compactLayers_spec {c : Site} (h : SiteOK c) (temp : ℝ) (Ls : List (Layer ℝ))
    (hL : ∀ L ∈ Ls, 0 < L.thick → 0 < L.ice + L.lwc) :
    ∃ Ds, compactLayers c temp Ls = some Ds ∧ List.Forall₂ Snow.Compacted (Ls.map toD) Ds := by
  have hm : ∀ D ∈ Ls.map toD, 0 < D.thick → 0 < D.ice + D.lwc := by
    intro D hD
    obtain ⟨L, hL', rfl⟩ := List.mem_map.mp hD
    exact hL L hL'
  unfold compactLayers
  split
  · obtain ⟨Ds, h1, h2, -⟩ := Snow.C25_anderson c.dt h.dt.le (some temp) _ hm
    exact ⟨Ds, h1, h2⟩
  · rename_i e he
    exact mapM_forall₂ _ _ fun D hD => by
      obtain ⟨D', h1, h2, -⟩ := Snow.C25_empirical e (h.timescale e he) c.dt h.dt.le D (hm D hD)
      exact ⟨D', h1, h2⟩

open Classical in
/-- The thicknesses computed by compaction for the layers `Ls`, as a function of layers and index. -/
noncomputable def compactedOf (Ls : List (Layer ℝ)) (Ds : List Snow.DLayer) (Ls' : List (Layer ℝ)) (k : ℕ) : ℝ :=
  if Ls' = Ls then (Ds.map Snow.DLayer.thick).getD k 0 else (Ls'.map Layer.thick).getD k 0

theorem compact_eq (p : Pixel ℝ) (Ds : List Snow.DLayer) (hl : Ds.length = (p.layers.take p.n).length) :
    MultiLayer.compact (compactedOf (p.layers.take p.n) Ds) p =
      p.setActive (List.zipWith (fun (L : Layer ℝ) D => { L with thick := D.thick }) (p.layers.take p.n) Ds) := by
  unfold MultiLayer.compact
  simp only
  congr 1
  apply List.ext_getElem
  · simp [hl]
  · intro i h1 h2
    have hi : i < Ds.length := by rw [hl]; simpa using h1
    simp [compactedOf, hi]

/-- The snowpack is in order: every active layer has a thickness, and there is an albedo exactly where there is
snow. -/
structure Inv (c : Site) (p : Pixel ℝ) : Prop where
  solid : Solid (mlCfg c) p
  snow : 0 < p.n → ∃ a, p.albedo = some a ∧ c.albedo.min ≤ a ∧ a ≤ c.albedo.max
  bare : p.n = 0 → p.albedo = none

/-- Compaction of this step leaves no layer denser than ice. -/
def Light (c : Site) (f : Forcing) (p : Pixel ℝ) : Prop :=
  c.lwcMethod = .poreVolume → ∀ q, compaction c f.temp p = some q →
    ∀ L ∈ q.layers.take q.n, L.ice ≤ 917 * L.thick

/-- Compaction is defined; it is `compact` with thicknesses that keep layers plausible. -/
theorem compaction_spec {c : Site} (h : SiteOK c) (f : Forcing) {p : Pixel ℝ} (hp : Solid (mlCfg c) p)
    (hl : Light c f p) :
    ∃ g, compaction c f.temp p = some (MultiLayer.compact g p) ∧
      ∀ (Ls : List (Layer ℝ)) (k : ℕ) (L : Layer ℝ), Ls[k]? = some L → 0 ≤ L.thick →
        0 ≤ L.ice → LayerOK c.lwcMethod L →
          0 ≤ g Ls k ∧ LayerOK c.lwcMethod { L with thick := g Ls k } := by
  have hmass : ∀ L ∈ p.layers.take p.n, 0 < L.thick → 0 < L.ice + L.lwc := by
    intro L hL ht
    have h1 := hp.ok.ice_pos hL ht
    have h2 := (hp.ok.wf.active L hL).2.2
    linarith
  obtain ⟨Ds, h1, h2⟩ := compactLayers_spec h f.temp (p.layers.take p.n) hmass
  have hlen : Ds.length = (p.layers.take p.n).length := by
    rw [← h2.length_eq, List.length_map]
  have heq : compaction c f.temp p = some (MultiLayer.compact (compactedOf (p.layers.take p.n) Ds) p) := by
    rw [compact_eq p Ds hlen]
    simp only [compaction, h1]
  refine ⟨_, heq, ?_⟩
  intro Ls k L hk ht hi hok
  by_cases hLs : Ls = p.layers.take p.n
  · subst hLs
    have hmem : L ∈ p.layers.take p.n := List.mem_of_getElem? hk
    obtain ⟨D, hD, hc⟩ := MultiLayer.forall₂_get h2 k (toD L) (by rw [List.getElem?_map, hk]; rfl)
    have hg : compactedOf (p.layers.take p.n) Ds (p.layers.take p.n) k = D.thick := by
      simp [compactedOf, hD]
    have hDpos : 0 < D.thick := hc.thick_pos (hp.thick L hmem)
    have hice := hp.ok.ice_pos hmem (hp.thick L hmem)
    rw [hg]
    refine ⟨hDpos.le, ⟨fun h0 => absurd h0 hDpos.ne', fun h0 => absurd h0 hice.ne'⟩, ?_⟩
    intro hm
    have hn : k < p.n := by
      have := (List.getElem?_eq_some_iff.mp hk).1
      simp at this; exact this.1
    have hq := hl hm _ heq { L with thick := D.thick } (by
      show _ ∈ (MultiLayer.compact (compactedOf (p.layers.take p.n) Ds) p).layers.take p.n
      unfold MultiLayer.compact
      rw [MultiLayer.setActive_take p _ hp.ok.wf.n_le (by simp) p.n le_rfl, List.take_of_length_le (by simp)]
      apply List.mem_iff_getElem?.mpr
      refine ⟨k, ?_⟩
      rw [List.getElem?_mapIdx, hk]
      simp only [Option.map_some, hg])
    simpa [iceDensity] using hq
  · have hg : compactedOf (p.layers.take p.n) Ds Ls k = L.thick := by
      simp [compactedOf, hLs, hk]
    rw [hg]
    exact ⟨ht, hok⟩

/-! ## Accumulation and ageing -/

/-- Precipitation is not negative; with retention in the pore volume, the wet bulb temperature is at most 319 K (fresh
snow is lighter than ice). -/
structure ForcingOK (c : Site) (f : Forcing) : Prop where
  snow : 0 ≤ f.snow
  rain : 0 ≤ f.rain
  wetBulb : c.lwcMethod = .poreVolume → f.wetBulb ≤ 319

theorem freshDensity_pos (T : Option ℝ) : 0 < Snow.freshSnowDensity T :=
  lt_of_lt_of_le (by norm_num) (Snow.C26_fresh_snow_density.1 T)

theorem freshDensity_le {T : ℝ} (h : T ≤ 319) : Snow.freshSnowDensity (some T) ≤ 917 := by
  refine le_trans (Snow.C26_fresh_snow_density.2.1 T 319 h) ?_
  have hm : max (319 : ℝ) (T0 - 15) - (T0 - 15) ≤ 61 := by norm_num [T0]
  have h0 : 0 ≤ max (319 : ℝ) (T0 - 15) - (T0 - 15) := by norm_num [T0]
  have h61 : (61 : ℝ) ^ (3 / 2 : ℝ) ≤ 488 := by
    rw [show (3 / 2 : ℝ) = 1 + 1 / 2 by norm_num, Real.rpow_add (by norm_num), Real.rpow_one, ← Real.sqrt_eq_rpow]
    have : Real.sqrt 61 ≤ 8 := by
      rw [Real.sqrt_le_left (by norm_num)]; norm_num
    linarith
  have hp := Real.rpow_le_rpow h0 hm (show (0 : ℝ) ≤ 3 / 2 by norm_num)
  simp only [Snow.freshSnowDensity]
  linarith

/-- The step inputs of `Model/MultiLayerStep` that correspond to results of the other parts. -/
noncomputable def inputs (c : Site) (f : Forcing) (ts : ℝ) (g : List (Layer ℝ) → ℕ → ℝ) (u : ℕ → ℝ)
    (demand surf : ℝ) (moist : Option ℝ) : MultiLayer.StepIn ℝ where
  snowfall := some f.snow
  rainfall := some f.rain
  airTemp := f.temp
  surfTemp := surf
  freshDensity := Snow.freshSnowDensity (some f.wetBulb)
  compacted := g
  aged := Snow.albedo c.albedo c.dt (some (if c.ageByAir then f.temp else ts)) (some f.snow)
  conducted := u
  meltDemand := demand
  moistureFlux := moist

theorem inputs_ok {c : Site} {f : Forcing} (hf : ForcingOK c f) {ts : ℝ} {g : List (Layer ℝ) → ℕ → ℝ}
    (hg : ∀ (Ls : List (Layer ℝ)) (k : ℕ) (L : Layer ℝ), Ls[k]? = some L → 0 ≤ L.thick →
        0 ≤ L.ice → LayerOK c.lwcMethod L →
          0 ≤ g Ls k ∧ LayerOK c.lwcMethod { L with thick := g Ls k })
    (u : ℕ → ℝ) {demand : ℝ} (hd : 0 ≤ demand) (surf : ℝ) (moist : Option ℝ) :
    InOK (mlCfg c).lwcMethod (inputs c f ts g u demand surf moist) where
  snowfall := fun x hx => by
    simp only [inputs, Option.some.injEq] at hx; rw [← hx]; exact hf.snow
  rainfall := fun x hx => by
    simp only [inputs, Option.some.injEq] at hx; rw [← hx]; exact hf.rain
  density_pos := freshDensity_pos (some f.wetBulb)
  density_le := fun hm => by
    have := freshDensity_le (hf.wetBulb hm)
    simpa [inputs, iceDensity] using this
  demand := hd
  compaction := hg

/-- The temperatures of the layers of a pixel. -/
def ownTemps (p : Pixel ℝ) (k : ℕ) : ℝ := (p.layers.map Layer.temp).getD k 0

theorem conduct_own (p : Pixel ℝ) : MultiLayer.conduct (ownTemps p) p = p := by
  obtain ⟨n, layers, alb⟩ := p
  simp only [MultiLayer.conduct, Pixel.setActive]
  congr 1
  have : (List.take n layers).mapIdx (fun k (L : Layer ℝ) => { L with temp := ownTemps ⟨n, layers, alb⟩ k })
      = List.take n layers := by
    apply List.ext_getElem
    · simp
    · intro i h1 h2
      have hi : i < layers.length := by simp at h2; exact h2.2
      simp [ownTemps, hi]
  rw [this, List.take_append_drop]

theorem conduct_zero (u : ℕ → ℝ) {p : Pixel ℝ} (h : p.n = 0) : MultiLayer.conduct u p = p := by
  obtain ⟨n, layers, alb⟩ := p
  simp only at h
  subst h
  simp [MultiLayer.conduct, Pixel.setActive]

/-- The pack before the energy balance. -/
noncomputable def prepared (c : Site) (f : Forcing) (ts : ℝ) (g : List (Layer ℝ) → ℕ → ℝ) (p : Pixel ℝ) :
    Pixel ℝ :=
  MultiLayer.updateHeatCap (ageing c f ts
      (MultiLayer.accumulation c.albedo.max f.temp (Snow.freshSnowDensity (some f.wetBulb)) (some f.snow)
        (MultiLayer.compact g p)))

theorem beforeMelt_eq (c : Site) (f : Forcing) (ts : ℝ) (g : List (Layer ℝ) → ℕ → ℝ) (p : Pixel ℝ)
    (u : ℕ → ℝ) (demand surf : ℝ) (moist : Option ℝ) :
    MultiLayer.beforeMelt (mlCfg c) (inputs c f ts g u demand surf moist) p =
      MultiLayer.conduct u (prepared c f ts g p) := rfl

theorem prepared_solid {c : Site} (h : SiteOK c) {f : Forcing} (hf : ForcingOK c f) {p : Pixel ℝ}
    (hp : Solid (mlCfg c) p) {g : List (Layer ℝ) → ℕ → ℝ}
    (hg : ∀ (Ls : List (Layer ℝ)) (k : ℕ) (L : Layer ℝ), Ls[k]? = some L → 0 ≤ L.thick →
        0 ≤ L.ice → LayerOK c.lwcMethod L →
          0 ≤ g Ls k ∧ LayerOK c.lwcMethod { L with thick := g Ls k }) (ts : ℝ) :
    Solid (mlCfg c) (prepared c f ts g p) := by
  have := MultiLayer.beforeMelt_solid (mlCfg_ok h)
    (inputs_ok hf hg (ownTemps (prepared c f ts g p)) (le_refl 0) 0 none (ts := ts)) hp
  rwa [beforeMelt_eq, conduct_own] at this

/-- Albedo before the energy balance: present and in range where snow lies, absent otherwise. -/
theorem prepared_inv {c : Site} (h : SiteOK c) {f : Forcing} (hf : ForcingOK c f) {p : Pixel ℝ}
    (hp : Inv c p) {g : List (Layer ℝ) → ℕ → ℝ}
    (hg : ∀ (Ls : List (Layer ℝ)) (k : ℕ) (L : Layer ℝ), Ls[k]? = some L → 0 ≤ L.thick →
        0 ≤ L.ice → LayerOK c.lwcMethod L →
          0 ≤ g Ls k ∧ LayerOK c.lwcMethod { L with thick := g Ls k }) (ts : ℝ) :
    Inv c (prepared c f ts g p) := by
  have hs := prepared_solid h hf hp.solid hg ts
  obtain ⟨a1, ha1⟩ : ∃ x, MultiLayer.accumulation c.albedo.max f.temp (Snow.freshSnowDensity (some f.wetBulb))
    (some f.snow) (MultiLayer.compact g p) = x := ⟨_, rfl⟩
  have hne : c.minThickness ≠ [] := h.layers
  have hlay : p.layers ≠ [] := by
    intro e
    have := hp.solid.ok.slots_eq
    rw [e] at this
    exact hne (List.length_eq_zero_iff.mp this.symm)
  have hcl : (MultiLayer.compact g p).layers ≠ [] := by
    intro e
    have h1 : (MultiLayer.compact g p).layers.length = p.layers.length :=
      MultiLayer.setActive_length p _ hp.solid.ok.wf.n_le (by simp)
    rw [e] at h1
    exact hlay (List.length_eq_zero_iff.mp h1.symm)
  have key : (0 < a1.n → ∃ a, a1.albedo = some a ∧ c.albedo.min ≤ a ∧ a ≤ c.albedo.max) ∧
      (a1.n = 0 → a1.albedo = none ∧ f.snow = 0) := by
    have hr := h.albedo.range
    rw [← ha1]
    simp only [MultiLayer.accumulation]
    split_ifs with hs0
    · obtain ⟨L, Ls, hL⟩ := List.exists_cons_of_ne_nil hcl
      have hn : (MultiLayer.compact g p).n = p.n := rfl
      have hal : (MultiLayer.compact g p).albedo = p.albedo := rfl
      by_cases h0 : p.n = 0
      · simp only [MultiLayer.addSnow, hL, hn, h0, nanToZero, Option.getD_some, hs0, and_self, if_true]
        exact ⟨fun _ => ⟨_, rfl, hr, le_refl _⟩, fun e => absurd e one_ne_zero⟩
      · simp only [MultiLayer.addSnow, hL, hn, h0, hal, false_and, if_false]
        exact ⟨hp.snow, fun e => e.elim⟩
    · exact ⟨hp.snow, fun e => ⟨hp.bare e, le_antisymm (not_lt.mp hs0) hf.snow⟩⟩
  have hdt := h.dt
  refine ⟨hs, ?_, ?_⟩
  · intro hn
    have hn' : 0 < a1.n := by rw [← ha1]; exact hn
    obtain ⟨a, ha, h1, h2⟩ := key.1 hn'
    obtain ⟨a', e, h3, h4⟩ := Snow.C24_albedo_in_range c.albedo h.albedo c.dt hdt
      (some (if c.ageByAir then f.temp else ts)) (some f.snow)
      (fun x hx => by simp only [Option.some.injEq] at hx; rw [← hx]; exact hf.snow) a h1 h2
    refine ⟨a', ?_, h3, h4⟩
    rw [← e, ← ha, ← ha1]
    rfl
  · intro hn
    have hn' : a1.n = 0 := by rw [← ha1]; exact hn
    obtain ⟨ha, hs0⟩ := key.2 hn'
    have : (prepared c f ts g p).albedo =
        Snow.albedo c.albedo c.dt (some (if c.ageByAir then f.temp else ts)) (some f.snow) none := by
      rw [← ha, ← ha1]; rfl
    rw [this, hs0]
    have hrf := h.albedo.refresh
    have h3600 : 0 < c.albedo.refreshSnowfall / 3600 := by positivity
    simp only [Snow.albedo, Option.map_some, zero_div, nanToZero, Option.getD_some, Option.map_none]
    split
    · rw [if_neg (not_le.mpr h3600)]
    · rw [if_neg (fun hh => h3600.ne' hh.1)]

/-! ## Heat conduction -/

/-- Soil conductivity is positive at every temperature. -/
theorem soilLam_pos {c : Site} (h : SiteOK c) (s : State) (k : ℕ) : 0 < soilLam c s k :=
  lt_trans h.soil.condDry (Soil.C81_conductivity c.soil h.soil c.moisture (s.soilTemp k) h.moisture h.moisture_le).1

theorem soilDx_pos {c : Site} (h : SiteOK c) {k : ℕ} (hk : k < c.soilThick.length) : 0 < soilDx c k := by
  unfold soilDx
  have e : c.soilThick.getD k 0 = c.soilThick[k] := by simp [hk]
  rw [e]
  exact h.soilThick _ (List.getElem_mem hk)

theorem soilDx0_pos {c : Site} (h : SiteOK c) : 0 < soilDx c 0 :=
  soilDx_pos h (List.length_pos_iff.mpr h.someSoil)

/-- Heat conduction in the prepared pack is defined and changes the temperatures only. -/
theorem conduction_spec {c : Site} (h : SiteOK c) (s : State) (flux : ℝ) {p0 : Pixel ℝ}
    (hp : Solid (mlCfg c) (MultiLayer.updateHeatCap p0)) :
    ∃ u, Heat.snowHeatConduction (boundary c s flux) (MultiLayer.updateHeatCap p0) =
      some (MultiLayer.conduct u (MultiLayer.updateHeatCap p0)) := by
  obtain ⟨p, hpe⟩ : ∃ x, MultiLayer.updateHeatCap p0 = x := ⟨_, rfl⟩
  have hhc : ∀ L ∈ p.layers, L.heatCap = L.ice * cIce + L.lwc * cWater := by
    intro L hL
    rw [← hpe] at hL
    obtain ⟨L0, -, rfl⟩ := List.mem_map.mp hL
    rfl
  rw [hpe] at hp ⊢
  by_cases hn : 0 < p.n
  · have hle := hp.ok.wf.n_le
    have hget : ∀ k, k < p.n → ∃ L ∈ p.layers.take p.n, p.layers[k]? = some L := by
      intro k hk
      have hk' : k < p.layers.length := by omega
      refine ⟨p.layers[k], ?_, by simp [hk']⟩
      apply List.mem_iff_getElem?.mpr
      exact ⟨k, by simp [List.getElem?_take, hk, hk']⟩
    have hphys : Heat.Physical (Heat.snowColumn (boundary c s flux) p) := by
      refine ⟨hn, h.dt, ?_, fun _ _ => h.snowCond, ?_, soilDx0_pos h, soilLam_pos h s 0⟩
      · intro k hk
        obtain ⟨L, hL, e⟩ := hget k hk
        have : (Heat.snowColumn (boundary c s flux) p).dx k = L.thick := by
          simp [Heat.snowColumn, e]
        rw [this]; exact hp.thick L hL
      · intro k hk
        obtain ⟨L, hL, e⟩ := hget k hk
        have : (Heat.snowColumn (boundary c s flux) p).hc k = L.heatCap := by
          simp [Heat.snowColumn, e]
        rw [this, hhc L (List.mem_of_mem_take hL)]
        have h1 := hp.ok.ice_pos hL (hp.thick L hL)
        have h2 := (hp.ok.wf.active L hL).2.2
        have := cIce_pos (K := ℝ)
        have := cWater_pos (K := ℝ)
        positivity
    obtain ⟨x, hx, -⟩ := Heat.C21_layer_energy_balance _ hphys
    refine ⟨fun k => ownTemps p k + x.getD k 0, ?_⟩
    simp only [Heat.snowHeatConduction, if_pos hn, hx, MultiLayer.conduct]
    congr 2
    apply List.ext_getElem
    · simp
    · intro i h1 h2
      have hi : i < p.layers.length := by simp at h1; exact h1.2
      simp [ownTemps, hi]
  · have h0 : p.n = 0 := by omega
    refine ⟨fun _ => 0, ?_⟩
    rw [conduct_zero _ h0]
    simp [Heat.snowHeatConduction, h0]

/-! ## Energy balance -/

/-- Melt is demanded only with the surface at or above the melting point. -/
theorem energyBalance_melt (p : Surface.Pixel) (hi : ∀ x ∈ p.ice, 0 ≤ x) :
    0 ≤ p.energyBalance.melt ∧ (0 < p.energyBalance.melt → T0 ≤ p.energyBalance.ts) := by
  have hT : (T0 : ℝ) = Atmosphere.T0 := by norm_num [T0, Atmosphere.T0]
  rw [hT]
  unfold Surface.Pixel.energyBalance
  split_ifs with h1 h2
  · exact ⟨le_max_right _ _, fun _ => by simp [Surface.Pixel.finish, Surface.Pixel.fluxesAt]⟩
  · refine ⟨List.sum_nonneg hi, fun _ => ?_⟩
    have : ¬ p.ts + p.wet.ts < Atmosphere.T0 := fun hlt => h1 ⟨h2, hlt⟩
    simpa [Surface.Pixel.finish, Surface.Pixel.fluxesAt] using this
  · exact ⟨le_refl _, fun h0 => absurd h0 (lt_irrefl _)⟩

/-! ## Albedo at the end of the step -/

theorem wf_depth_zero {p : Pixel ℝ} (hp : WF p) (hn : p.n = 0) : MultiLayer.depth p = 0 := by
  unfold MultiLayer.depth
  apply List.sum_eq_zero
  intro x hx
  obtain ⟨L, hL, rfl⟩ := List.mem_map.mp hx
  exact (hp.inactive L (by rw [hn]; simpa using hL)).1

theorem updateLayers_albedo {minTh : List ℝ} {p q : Pixel ℝ} (hp : WF p)
    (h : MultiLayer.updateLayers minTh p = some q) :
    (q.n = 0 → q.albedo = none) ∧ (0 < q.n → 0 < p.n ∧ q.albedo = p.albedo) := by
  simp only [MultiLayer.updateLayers] at h
  split_ifs at h with hd hns
  · split at h
    · simp at h
    · split_ifs at h
      simp only [Option.some.injEq] at h
      subst h
      exact ⟨fun _ => rfl, fun hn => absurd hns hn.ne'⟩
  · split at h
    · simp at h
    · split_ifs at h
      simp only [Option.some.injEq] at h
      subst h
      refine ⟨fun hn => absurd hn hns, fun _ => ⟨?_, rfl⟩⟩
      by_contra hp0
      have := wf_depth_zero hp (by omega)
      linarith
  · simp only [Option.some.injEq] at h
    subst h
    exact ⟨fun _ => rfl, fun hn => absurd hn (lt_irrefl 0)⟩

/-- Albedo present and in range exactly where snow lies. -/
def AlbedoOK (lo hi : ℝ) (p : Pixel ℝ) : Prop :=
  (0 < p.n → ∃ a, p.albedo = some a ∧ lo ≤ a ∧ a ≤ hi) ∧ (p.n = 0 → p.albedo = none)

/-- A step keeps the albedo where snow lies, for snow before melt with an albedo. -/
theorem step_albedo {k : MultiLayer.Cfg ℝ} (hk : CfgOK k) {e : MultiLayer.StepIn ℝ} (he : InOK k.lwcMethod e)
    {p q : Pixel ℝ} {fl : MultiLayer.Fluxes ℝ} (hp : Solid k p) {lo : ℝ} (hlo : lo ≤ k.albMax)
    (ha : AlbedoOK lo k.albMax (MultiLayer.beforeMelt k e p))
    (h : MultiLayer.step k e p = some (fl, q)) : AlbedoOK lo k.albMax q := by
  have hp1 := MultiLayer.beforeMelt_solid hk he hp
  simp only [MultiLayer.step] at h
  split at h
  · simp at h
  rename_i p4 hp4
  split at h
  · simp at h
  rename_i q0 hq0
  simp only [Option.some.injEq, Prod.mk.injEq] at h
  obtain ⟨-, rfl⟩ := h
  have hslots : 1 ≤ k.minThickness.length := List.length_pos_iff.mpr hk.some_layer
  have h3ok := hp1.ok.melt e.meltDemand he.demand
  obtain ⟨p2, hp2⟩ : ∃ x, MultiLayer.beforeMelt k e p = x := ⟨_, rfl⟩
  have hp4' : (MultiLayer.sublimation k.dt e.surfTemp k.albMax e.airTemp e.freshDensity e.moistureFlux
      (MultiLayer.melt e.meltDemand p2).2).2 = some p4 := by rw [← hp2]; exact hp4
  rw [hp2] at ha h3ok
  obtain ⟨p3, hp3⟩ : ∃ x, (MultiLayer.melt e.meltDemand p2).2 = x := ⟨_, rfl⟩
  have ha3 : AlbedoOK lo k.albMax p3 := by rw [← hp3]; exact ha
  rw [hp3] at hp4' h3ok
  have hker : ∀ (x : ℝ) (r r' : Pixel ℝ), MultiLayer.sublKernel x r = some r' →
      r'.n = r.n ∧ r'.albedo = r.albedo := by
    intro x r r' hr
    simp only [MultiLayer.sublKernel] at hr
    split_ifs at hr
    · cases hl : MultiLayer.sublLoop (max x 0) (List.take r.n r.layers) with
      | none => rw [hl] at hr; simp at hr
      | some y =>
        rw [hl] at hr
        simp at hr
        subst hr
        exact ⟨rfl, rfl⟩
    · simp at hr; subst hr; exact ⟨rfl, rfl⟩
  have h4 : PackOK k.lwcMethod k.minThickness.length p4 ∧ AlbedoOK lo k.albMax p4 := by
    simp only [MultiLayer.sublimation] at hp4'
    split_ifs at hp4' with hfrost
    · refine ⟨PackOK.sublKernel (h3ok.addSnow hslots _ _ _ _ he.density_pos he.density_le hfrost) _ hp4', ?_⟩
      obtain ⟨e1, e2⟩ := hker _ _ _ hp4'
      have hne : p3.layers ≠ [] := by
        intro e0
        have := h3ok.slots_eq
        rw [e0] at this
        simp at this
        omega
      obtain ⟨L, Ls, hL⟩ := List.exists_cons_of_ne_nil hne
      unfold AlbedoOK
      rw [e1, e2]
      by_cases h0 : p3.n = 0
      · simp only [MultiLayer.addSnow, hL, h0, nanToZero, Option.getD_some, hfrost, and_self, if_true]
        exact ⟨fun _ => ⟨_, rfl, hlo, le_refl _⟩, fun e => absurd e one_ne_zero⟩
      · simp only [MultiLayer.addSnow, hL, h0, false_and, if_false]
        exact ⟨ha3.1, fun e => e.elim⟩
    · refine ⟨h3ok.sublKernel _ hp4', ?_⟩
      obtain ⟨e1, e2⟩ := hker _ _ _ hp4'
      unfold AlbedoOK
      rw [e1, e2]
      exact ha3
  have hr : ∀ x, e.rainfall = some x → 0 ≤ x := he.rainfall
  obtain ⟨h4ok, h4a⟩ := h4
  have h5 : PackOK k.lwcMethod k.minThickness.length
      (MultiLayer.updateHeatCap (MultiLayer.runoff k.lwcMethod k.maxFrac e.rainfall p4).2.2) := by
    have hr' : 0 ≤ e.rainfall.getD 0 := by
      cases hrr : e.rainfall with
      | none => simp
      | some x => simpa using he.rainfall x hrr
    exact (h4ok.runoff k.maxFrac e.rainfall hr' hk.frac_nonneg hk.frac_le).updateHeatCap
  obtain ⟨u1, u2⟩ := updateLayers_albedo h5.wf hq0
  exact ⟨fun hn => by
    obtain ⟨hn4, e4⟩ := u2 hn
    rw [e4]
    exact h4a.1 hn4, u1⟩

/-! ## Refinement -/

theorem energy_melt {c : Site} {f : Forcing} {s : State} {p : Pixel ℝ} {e : Surface.Fluxes}
    (hi : ∀ L ∈ p.layers, 0 ≤ L.ice) (h : energy c f s p = some e) : 0 ≤ e.melt ∧ (0 < e.melt → T0 ≤ e.ts) := by
  unfold energy at h
  split at h
  · simp at h
  · simp only at h
    split_ifs at h
    simp only [Option.some.injEq] at h
    subst h
    apply energyBalance_melt
    intro x hx
    obtain ⟨L, hL, rfl⟩ := List.mem_map.mp hx
    exact hi L hL

/-- A step of the coupled model whose energy balance is defined is a step of `Model/MultiLayerStep` with admissible
inputs. -/
theorem step_refines {c : Site} (h : SiteOK c) {f : Forcing} (hf : ForcingOK c f) {s : State} (hp : Inv c s.snow)
    (hl : Light c f s.snow) :
    ∃ p, prepare c f s = some p ∧ Inv c p ∧ ∃ g, p = prepared c f s.ts g s.snow ∧
      ∀ e, energy c f s p = some e → ∃ u,
        InOK (mlCfg c).lwcMethod (inputs c f s.ts g u e.melt e.ts (some e.moist)) ∧
        Heat.snowHeatConduction (boundary c s e.ground) p = some (MultiLayer.conduct u p) ∧
        MultiLayer.beforeMelt (mlCfg c) (inputs c f s.ts g u e.melt e.ts (some e.moist)) s.snow =
          MultiLayer.conduct u p ∧
        step c f s = (MultiLayer.step (mlCfg c) (inputs c f s.ts g u e.melt e.ts (some e.moist)) s.snow).map
          fun r => (r.1, ⟨r.2, soilStep c s e.ground r.2, e.ts⟩) := by
  obtain ⟨g, hg, hok⟩ := compaction_spec h f hp.solid hl
  have hinv := prepared_inv h hf hp hok s.ts
  have hprep : prepare c f s = some (prepared c f s.ts g s.snow) := by
    simp only [prepare, hg]
    rfl
  refine ⟨_, hprep, hinv, g, rfl, ?_⟩
  intro e he
  obtain ⟨u, hu⟩ : ∃ u, Heat.snowHeatConduction (boundary c s e.ground) (prepared c f s.ts g s.snow) =
      some (MultiLayer.conduct u (prepared c f s.ts g s.snow)) := conduction_spec h s e.ground hinv.solid
  have hm := energy_melt (fun L hL => (hinv.solid.ok.wf.all L hL).2.1) he
  refine ⟨u, inputs_ok hf hok u hm.1 _ _, hu, beforeMelt_eq .., ?_⟩
  simp only [step, hprep, he, hu]
  have hms : massStep c f e (MultiLayer.conduct u (prepared c f s.ts g s.snow)) =
      MultiLayer.step (mlCfg c) (inputs c f s.ts g u e.melt e.ts (some e.moist)) s.snow := by
    simp only [massStep, MultiLayer.step, mlCfg, inputs, prepared, ageing]
    cases (MultiLayer.sublimation (K := ℝ) _ _ _ _ _ _ _).2 with
    | none => rfl
    | some r =>
      simp only
      cases MultiLayer.updateLayers c.minThickness (MultiLayer.updateHeatCap
        (MultiLayer.runoff c.lwcMethod c.maxFrac (some f.rain) r).2.2) <;> rfl
  rw [hms]
  cases MultiLayer.step (mlCfg c) (inputs c f s.ts g u e.melt e.ts (some e.moist)) s.snow with
  | none => rfl
  | some r => rfl

/-- If the step is defined, so was its energy balance. -/
theorem energy_of_step {c : Site} {f : Forcing} {s s' : State} {x : MultiLayer.Fluxes ℝ} {p : Pixel ℝ}
    (hp : prepare c f s = some p) (h : step c f s = some (x, s')) : ∃ e, energy c f s p = some e ∧ s'.ts = e.ts := by
  simp only [step, hp] at h
  cases he : energy c f s p with
  | none => rw [he] at h; simp at h
  | some e =>
    rw [he] at h
    simp only at h
    split at h
    · simp at h
    · split at h
      · simp at h
      · simp only [Option.some.injEq, Prod.mk.injEq] at h
        obtain ⟨-, rfl⟩ := h
        exact ⟨e, rfl, rfl⟩

end Verif.Coupled
