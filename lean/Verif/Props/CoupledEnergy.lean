import Verif.Props.TempRange

/-!
# C132: the energy pathway of the coupled multilayer model
-/

set_option linter.unusedSectionVars false

namespace Verif.Coupled

open Verif.MultiLayer (Pixel Layer totalIce)
open Verif.Atmosphere (cp rv)
open Finset (range)

/-- Specification: what radiation (`lw` emitted), sensible heat at `t`, moisture transfer `ev` with heat `lat`, and
precipitation at `t0` bring to the surface in excess of the ground heat flux `g`. -/
noncomputable def gain (c : Site) (f : Forcing) (a r lw t t0 lat ev g : ℝ) : ℝ :=
  ((1 - a) * f.swIn + f.lwIn - lw) + cp * r * (f.temp - t) + lat * ev +
    (4180 * (f.temp - t0) * f.rain + 2100 * (f.wetBulb - t0) * f.snow) / c.dt - g

/-- Specification: energy books of a step with the new surface temperature `ts`, for the snowpack `p` at the time of the
energy balance. `a`: albedo, `ψ`: moisture availability, `r`: turbulent transfer, `L`: heat of vaporization or sublimation,
`κ`, `θ`, `d`: conductivity, temperature and thickness of the uppermost layer, `g`: ground heat flux, `m`: melt. -/
structure SurfaceBooks (c : Site) (f : Forcing) (s : State) (p : Pixel ℝ) (ts a ψ r L κ θ d g m : ℝ) : Prop where
  bareAlbedo : p.n = 0 → a = c.soilAlbedo
  moist : 0 ≤ ψ ∧ ψ ≤ 1 ∧ (0 < MultiLayer.swe s.snow + f.snow → ψ = 1)
  thickness : d = max (top Layer.thick p) (soilDx c 0)
  temp : soilDx c 0 < top Layer.thick p ∧ θ = top Layer.temp p ∨
    top Layer.thick p ≤ soilDx c 0 ∧
      θ = s.soilTemp 0 + (top Layer.temp p - s.soilTemp 0) * (top Layer.thick p / soilDx c 0)
  cond : soilDx c 0 / κ = min (2 * top Layer.thick p) (soilDx c 0) / c.snowCond +
    (soilDx c 0 - min (2 * top Layer.thick p) (soilDx c 0)) / soilLam c s 0
  ground : g = 2 * κ * (ts - θ) / d
  noMelt : 0 ≤ m ∧ (top Layer.ice p ≤ 0 → m = 0)
  cap : 0 < top Layer.ice p → ts ≤ T0 ∨ m = totalIce p
  closure : (ts = T0 ∧ 0 < top Layer.ice p ∧
      334000 * m / c.dt = max (gain c f a r (99 / 100 * Surface.sigma * T0 ^ 4) T0 T0 L (ψ * r * (f.specHum - f.qsat T0)) g) 0) ∨
    334000 * m / c.dt =
      gain c f a r (Surface.sigma * (99 / 100 * s.ts ^ 4 + 4 * s.ts ^ 3 * (ts - s.ts))) ts s.ts L
        (ψ * r * (f.specHum - (f.qsat s.ts + L * f.qsat s.ts / (rv * s.ts ^ 2) * (ts - s.ts)))) g
  latent : L = if 0 < top Layer.ice p ∨ s.ts < T0 then f.latVap + 334000 else f.latVap

section aux

theorem sum_mapIdx (g : Layer ℝ → ℝ) (Ls : List (Layer ℝ)) (u : ℕ → Layer ℝ → Layer ℝ) (hu : ∀ k L, g (u k L) = g L) :
    ((Ls.mapIdx u).map g).sum = (Ls.map g).sum := by
  congr 1
  apply List.ext_getElem?
  intro i
  simp only [List.getElem?_map, List.getElem?_mapIdx]
  cases Ls[i]? <;> simp [hu]

theorem prepared_swe {c : Site} (h : SiteOK c) {f : Forcing} (hf : ForcingOK c f) {p : Pixel ℝ} (hp : Inv c p)
    (ts : ℝ) {g : List (Layer ℝ) → ℕ → ℝ}
    (hg : ∀ (Ls : List (Layer ℝ)) (k : ℕ) (L : Layer ℝ), Ls[k]? = some L → 0 ≤ L.thick → 0 ≤ L.ice →
      MultiLayer.LayerOK c.lwcMethod L → 0 ≤ g Ls k ∧ MultiLayer.LayerOK c.lwcMethod { L with thick := g Ls k }) :
    MultiLayer.swe (prepared c f ts g p) = MultiLayer.swe p + f.snow := by
  have hp0 : MultiLayer.PackOK c.lwcMethod c.minThickness.length (MultiLayer.compact g p) := hp.solid.ok.compact g hg
  have hslots : 1 ≤ c.minThickness.length := List.length_pos_iff.mpr h.layers
  have i0 : MultiLayer.totalIce (MultiLayer.compact g p) = MultiLayer.totalIce p := by
    simp only [MultiLayer.totalIce, MultiLayer.compact, MultiLayer.setActive_sum]
    rw [sum_mapIdx Layer.ice]
    · ring
    · intros; rfl
  have l0 : MultiLayer.totalLwc (MultiLayer.compact g p) = MultiLayer.totalLwc p := by
    simp only [MultiLayer.totalLwc, MultiLayer.compact, MultiLayer.setActive_sum]
    rw [sum_mapIdx Layer.lwc]
    · ring
    · intros; rfl
  have hne : (MultiLayer.compact g p).layers ≠ [] := by
    intro hnil; have := hp0.slots_eq; rw [hnil] at this; simp at this; omega
  obtain ⟨p0, hpe⟩ : ∃ x, MultiLayer.compact g p = x := ⟨_, rfl⟩
  rw [hpe] at hp0 i0 l0 hne
  have key : MultiLayer.totalIce (MultiLayer.accumulation c.albedo.max f.temp (Snow.freshSnowDensity (some f.wetBulb))
        (some f.snow) p0) = MultiLayer.totalIce p0 + f.snow ∧
      MultiLayer.totalLwc (MultiLayer.accumulation c.albedo.max f.temp (Snow.freshSnowDensity (some f.wetBulb))
        (some f.snow) p0) = MultiLayer.totalLwc p0 := by
    simp only [MultiLayer.accumulation]
    split_ifs with hx
    · obtain ⟨a, b, -⟩ := MultiLayer.C19_add_snow c.albedo.max f.temp (Snow.freshSnowDensity (some f.wetBulb))
        (some f.snow) 0 p0 hp0.wf hne (freshDensity_pos _) (fun y hy => by simp at hy; rw [← hy]; exact hx.le) rfl
      exact ⟨a, by rw [b, add_zero]⟩
    · have : f.snow = 0 := le_antisymm (not_lt.mp hx) hf.snow
      simp [this]
  have hcap : ∀ q : Pixel ℝ, MultiLayer.swe (MultiLayer.updateHeatCap (ageing c f ts q)) = MultiLayer.swe q := by
    intro q
    simp [MultiLayer.swe, MultiLayer.updateHeatCap, ageing, Function.comp_def]
  unfold prepared
  rw [hcap, hpe, MultiLayer.swe_eq, key.1, key.2, MultiLayer.swe_eq p, i0, l0]
  ring

theorem surface_books {c : Site} (h : SiteOK c) {f : Forcing} (hf : Natural f) {s : State} (hs : 0 < s.ts) {p : Pixel ℝ}
    (hp : Inv c p) (hsw : MultiLayer.swe p = MultiLayer.swe s.snow + f.snow) {e : Surface.Fluxes}
    (he : energy c f s p = some e) :
    ∃ a ψ r L κ θ d, SurfaceBooks c f s p e.ts a ψ r L κ θ d e.ground e.melt := by
  obtain ⟨a, ha, hphys, he'⟩ := C122_energy c h f hf s hs p hp
  rw [he, Option.some.injEq] at he'
  subst he'
  obtain ⟨px, hpx⟩ : ∃ x, surfacePixel c f s p a = x := ⟨_, rfl⟩
  have htop : 0 ≤ top Layer.thick p ∧ top Layer.ice p = px.ice0 := by
    rw [← hpx]
    refine ⟨?_, rfl⟩
    unfold top
    cases hl : p.layers with
    | nil => simp
    | cons L Ls => simpa using (hp.solid.ok.wf.all L (by simp [hl])).1
  have hdx := soilDx0_pos h
  have hice : px.ice.sum = MultiLayer.totalIce p := by rw [← hpx]; rfl
  have hswe : px.swe = MultiLayer.swe s.snow + f.snow := by rw [← hpx]; exact hsw
  have hc := Surface.C77_layer_cond (top Layer.thick p) (soilDx c 0) c.snowCond (soilLam c s 0) htop.1 hdx h.snowCond
    (soilLam_pos h s 0)
  have hav := Surface.C79_availability px (hpx ▸ hphys)
  have hmn := Surface.C79_melt_nonneg px (hpx ▸ hphys)
  have hng := Surface.C79_new_fluxes px
  refine ⟨a, px.avail, f.density * exchange c f s.ts p * f.wind, px.latHeat s.ts, px.layerCond, px.layerTemp,
    px.layerThick, ?_⟩
  rw [hpx]
  refine ⟨?_, ⟨hav.1, hav.2.1, fun h0 => hav.2.2.1 (Or.inl (by rw [hswe]; exact h0))⟩, by rw [← hpx]; rfl, ?_,
    by rw [← hpx]; exact hc.1, hng.2, ⟨hmn.1, fun h0 => hmn.2 (by rw [← htop.2]; exact h0)⟩, ?_, ?_, ?_⟩
  · intro hn
    have hdepth : Snow.depth (p.layers.map toD) = MultiLayer.depth p := by
      simp [Snow.depth, MultiLayer.depth, toD, Function.comp_def]
    have hd0 := wf_depth_zero hp.solid.ok.wf hn
    have : fraction c p = 0 :=
      (Snow.C27_area_fraction c.depthScale (p.layers.map toD) (by rw [hdepth, hd0])).2.2.2.1.mpr (by rw [hdepth, hd0])
    rw [this, (Surface.C77_albedo 0 le_rfl zero_le_one 0 c.soilAlbedo).2.1 p.albedo, Option.some.injEq] at ha
    exact ha.symm
  · rw [← hpx]
    simp only [surfacePixel, Surface.layerTemp]
    split_ifs with hlt
    · exact Or.inl ⟨hlt, rfl⟩
    · exact Or.inr ⟨not_lt.mp hlt, by ring⟩
  · intro h0
    rw [htop.2] at h0
    rw [← hice]
    exact Surface.C79_ice_caps_temperature px h0
  · by_cases hpa : px.Partially
    · left
      obtain ⟨h1, h2, -⟩ := Surface.C79_partial_melt px (hpx ▸ hphys) hpa
      refine ⟨h1, by rw [htop.2]; exact hpa.1.2, ?_⟩
      have hL : px.latHeat Atmosphere.T0 = px.latHeat s.ts := by
        unfold Surface.Pixel.latHeat
        rw [if_pos (Or.inl hpa.1.2), if_pos (Or.inl hpa.1.2)]
      have e1 : (334000 : ℝ) = Surface.lf := by norm_num [Surface.lf]
      have e2 : px.dt = c.dt := by rw [← hpx]; rfl
      rw [e1, ← e2, h2, hL, hng.2, h1]
      have e3 : (T0 : ℝ) = Atmosphere.T0 := by norm_num [T0, Atmosphere.T0]
      congr 1
      simp only [Surface.surplus, gain, ← hpx, surfacePixel, e3]
      norm_num [Surface.cWater, Surface.cIce]
    · right
      have h1 := Surface.C79_closure_partial px (hpx ▸ hphys) hpa
      have e1 : (334000 : ℝ) = Surface.lf := by norm_num [Surface.lf]
      have e2 : px.dt = c.dt := by rw [← hpx]; rfl
      have e4 : px.ts = s.ts := by rw [← hpx]; rfl
      simp only [e4] at h1
      rw [e1, ← e2, ← h1, hng.2]
      obtain ⟨av, hav⟩ : ∃ x, px.avail = x := ⟨_, rfl⟩
      obtain ⟨la, hla⟩ : ∃ x, px.latHeat s.ts = x := ⟨_, rfl⟩
      obtain ⟨t, ht⟩ : ∃ x, px.energyBalance.ts = x := ⟨_, rfl⟩
      rw [hav, hla, ht]
      simp only [gain, ← hpx, surfacePixel]
      norm_num [Surface.cWater, Surface.cIce]
  · have e3 : (T0 : ℝ) = Atmosphere.T0 := by norm_num [T0, Atmosphere.T0]
    rw [htop.2, e3]
    have e1 : (334000 : ℝ) = Surface.lf := by norm_num [Surface.lf]
    rw [e1]
    rw [← hpx]
    rfl

theorem conducted {c : Site} (h : SiteOK c) (s : State) (flux : ℝ) {p p2 : Pixel ℝ} (hp : Inv c p)
    (hhc : ∀ L ∈ p.layers, L.heatCap = L.ice * cIce + L.lwc * cWater) (hn : 0 < p.n)
    (hc : Heat.snowHeatConduction (boundary c s flux) p = some p2) :
    ∃ T : ℕ → ℝ, p2 = MultiLayer.conduct T p ∧
      ∑ k ∈ range p.n, (2100 * (p.layers.map Layer.ice).getD k 0 + 4180 * (p.layers.map Layer.lwc).getD k 0) *
          (T k - (p.layers.map Layer.temp).getD k 0) =
        c.dt * (flux - (T (p.n - 1) - (p.layers.map Layer.temp).getLastD 0) /
          ((p.layers.map Layer.thick).getD (p.n - 1) 0 / 2 / c.snowCond + soilDx c 0 / 2 / soilLam c s 0)) := by
  have hphys := snowColumn_physical h s flux hp hhc hn
  obtain ⟨x, hx, -⟩ := Heat.C21_layer_energy_balance _ hphys
  have hbal := Heat.C21_column_energy_balance _ hphys x hx
  simp only [Heat.snowHeatConduction, if_pos hn, hx, Option.some.injEq] at hc
  have hle := hp.solid.ok.wf.n_le
  refine ⟨fun k => (p.layers.map Layer.temp).getD k 0 + x.getD k 0, ?_, ?_⟩
  · rw [← hc, MultiLayer.conduct]
    congr 1
    apply List.ext_getElem
    · simp
    · intro k h1 h2
      simp at h1
      simp [h1.2]
  · have e1 : (Heat.snowColumn (boundary c s flux) p).N = p.n := rfl
    rw [e1] at hbal
    simp only [Heat.newTemp] at hbal
    refine Eq.trans (Finset.sum_congr rfl fun k hk => ?_) hbal
    have hk' : k < p.layers.length := lt_of_lt_of_le (Finset.mem_range.mp hk) hle
    have := hhc _ (List.getElem_mem hk')
    simp only [Heat.snowColumn, List.getD_eq_getElem?_getD, List.getElem?_map, List.getElem?_eq_getElem hk',
      Option.map_some, Option.getD_some, this]
    rw [add_sub_cancel_left]
    norm_num [cIce, cWater]
    left
    ring

end aux

/-- **C132.** Energy books of a step. `p`: snowpack after snowfall, `T`: layer temperatures after heat conduction, `g`: heat
entering the ground, `gs`: heat entering the soil. Missing for the full claim: below snow `gs` is not the heat leaving the
snow (`C132_base_false`). -/
theorem C132_step_partial (c : Site) (h : SiteOK c) (f : Forcing) (hf : ForcingOK c f) (hn : Natural f) (s s' : State)
    (hs : 0 < s.ts) (hp : Inv c s.snow) (hl : Light c f s.snow)
    (hsoil : ∀ k, k < c.soilThick.length → 0 ≤ s.soilTemp k) (x : MultiLayer.Fluxes ℝ)
    (hst : step c f s = some (x, s')) :
    ∃ (p : Pixel ℝ) (a ψ r L κ θ d g m gs : ℝ) (T : ℕ → ℝ),
      MultiLayer.swe p = MultiLayer.swe s.snow + f.snow ∧
      SurfaceBooks c f s p s'.ts a ψ r L κ θ d g m ∧
      (0 < p.n →
        ∑ k ∈ range p.n, (2100 * (p.layers.map Layer.ice).getD k 0 + 4180 * (p.layers.map Layer.lwc).getD k 0) *
            (T k - (p.layers.map Layer.temp).getD k 0) =
          c.dt * (g - (T (p.n - 1) - (p.layers.map Layer.temp).getLastD 0) /
            ((p.layers.map Layer.thick).getD (p.n - 1) 0 / 2 / c.snowCond + soilDx c 0 / 2 / soilLam c s 0))) ∧
      ((∀ k, k < p.n → T k ≤ T0) → x.melt = min m (totalIce p)) ∧
      (s'.snow.n = 0 → gs = g) ∧
      (∀ Q, (s'.snow.layers.take s'.snow.n).getLast? = some Q →
        gs * (Q.thick / 2 / c.snowCond + soilDx c 0 / 2 / soilLam c s 0) = Q.temp - s.soilTemp 0) ∧
      ∑ k ∈ range c.soilThick.length, soilHc c s k * (s'.soilTemp k - s.soilTemp k) =
        c.dt * (gs - (s'.soilTemp (c.soilThick.length - 1) - s.soilTemp (c.soilThick.length - 1)) /
          (soilDx c (c.soilThick.length - 1) / soilLam c s (c.soilThick.length - 1))) := by
  obtain ⟨p, hprep, hinv, g0, hpg, href⟩ := step_refines h hf hp hl
  obtain ⟨e, he, hts⟩ := energy_of_step hprep hst
  obtain ⟨u, hin, hcond, hbm, -⟩ := href e he
  have hsw : MultiLayer.swe p = MultiLayer.swe s.snow + f.snow := by
    rw [hpg]; exact prepared_swe h hf hp s.ts hin.compaction
  obtain ⟨a, ψ, r, L, κ, θ, d, hbooks⟩ := surface_books h hn hs hinv hsw he
  have hhc : ∀ L ∈ p.layers, L.heatCap = L.ice * cIce + L.lwc * cWater := by
    intro L hL
    rw [hpg] at hL
    obtain ⟨L0, -, rfl⟩ := List.mem_map.mp hL
    rfl
  have hinv' := (step_inv h hf hp hl hst).1
  simp only [step, hprep, he, hcond] at hst
  cases hms : massStep c f e (MultiLayer.conduct u p) with
  | none => rw [hms] at hst; simp at hst
  | some y =>
  obtain ⟨fl, q⟩ := y
  rw [hms] at hst
  simp only [Option.some.injEq, Prod.mk.injEq] at hst
  obtain ⟨rfl, rfl⟩ := hst
  have hmelt : fl.melt = (MultiLayer.melt e.melt (MultiLayer.conduct u p)).1 := by
    simp only [massStep] at hms
    split at hms
    · simp at hms
    · split at hms
      · simp at hms
      · simp only [Option.some.injEq, Prod.mk.injEq] at hms
        rw [← hms.1]
  obtain ⟨T, hT, hsum⟩ : ∃ T : ℕ → ℝ, MultiLayer.conduct u p = MultiLayer.conduct T p ∧ (0 < p.n → _) := by
    by_cases h0 : 0 < p.n
    · obtain ⟨T, h1, h2⟩ := conducted h s e.ground hinv hhc h0 hcond
      exact ⟨T, h1, fun _ => h2⟩
    · exact ⟨u, rfl, fun h1 => absurd h1 h0⟩
  obtain ⟨flux, xs, hphys, hx1, hx2, hx3, hx4, hx5⟩ := C122_soil c h s hsoil e.ground q
  refine ⟨p, a, ψ, r, L, κ, θ, d, e.ground, e.melt, flux, T, hsw, hbooks, hsum, ?_, ?_, ?_, ?_⟩
  · intro hcold
    rw [hmelt, hT]
    have hwf := (hinv.solid.ok.conduct T).wf
    have hice : totalIce (MultiLayer.conduct T p) = totalIce p := by
      simp only [totalIce, MultiLayer.conduct, MultiLayer.setActive_sum]
      rw [sum_mapIdx Layer.ice]
      · ring
      · intros; rfl
    rw [(MultiLayer.C13_melt_cold_pack e.melt _ hbooks.noMelt.1 hwf ?_).2, hice]
    intro M hM
    have hle := hinv.solid.ok.wf.n_le
    have htk : (MultiLayer.conduct T p).layers.take p.n = (p.layers.take p.n).mapIdx fun k L => { L with temp := T k } := by
      unfold MultiLayer.conduct
      rw [MultiLayer.setActive_take p _ hle (by simp) p.n le_rfl, List.take_of_length_le]
      simp
    have hM' : M ∈ (MultiLayer.conduct T p).layers.take p.n := hM
    rw [htk] at hM'
    obtain ⟨k, hk, rfl⟩ := List.mem_mapIdx.mp hM'
    have hk' : k < p.n := by simp at hk; exact hk.1
    refine ⟨?_, hcold k hk'⟩
    have hmem := List.getElem_mem hk
    have := hinv.solid.ok.wf.active _ hmem
    rw [show ({ (p.layers.take p.n)[k] with temp := T k } : Layer ℝ).heatCap = (p.layers.take p.n)[k].heatCap from rfl,
      hhc _ (List.mem_of_mem_take hmem)]
    have h1 := cIce_pos (K := ℝ)
    have h2 := cWater_pos (K := ℝ)
    obtain ⟨-, a1, a2⟩ := this
    positivity
  · exact hx4
  · intro Q hQ
    have hQ0 : 0 ≤ Q.thick := (hinv'.solid.ok.wf.active Q (List.mem_of_getLast? hQ)).1
    have h1 := soilDx0_pos h
    have h2 := soilLam_pos h s 0
    have h3 := h.snowCond
    have h4 : 0 < Q.thick / c.snowCond + soilDx c 0 / soilLam c s 0 := by positivity
    rw [hx5 Q hQ]
    field_simp
  · have hN : 0 < c.soilThick.length := List.length_pos_iff.mpr h.someSoil
    have hbal := Heat.C21_column_energy_balance _ hphys xs hx1
    simp only [Soil.column, Heat.newTemp] at hbal
    dsimp only
    rw [hx3 _ (by omega : c.soilThick.length - 1 < c.soilThick.length), add_sub_cancel_left]
    rw [add_sub_cancel_left] at hbal
    rw [Finset.sum_congr rfl fun k hk => by rw [hx3 k (Finset.mem_range.mp hk), add_sub_cancel_left], hbal]
    congr 3
    ring

/-! ## Witness -/

/-- A calm night in radiative equilibrium with a surface at 250 K. -/
noncomputable def calmHour : Forcing where
  temp := 250
  wetBulb := 250
  specHum := 0
  swIn := 0
  lwIn := 99 / 100 * Surface.sigma * 250 ^ 4
  wind := 0
  rain := 0
  snow := 0
  density := 1
  latVap := 2500000
  qsat := fun _ => 0

/-- Ten centimetres of snow at 250 K above soil at 280 K. -/
noncomputable def calmState : State where
  snow := { n := 1, layers := [⟨1 / 10, 20, 0, 250, 42000⟩], albedo := some (1 / 2) }
  soilTemp := fun _ => 280
  ts := 250

theorem calm_ok : ForcingOK meltSite calmHour ∧ Natural calmHour ∧ 0 < calmState.ts ∧ Inv meltSite calmState.snow ∧
    Light meltSite calmHour calmState.snow ∧ ∀ k, k < meltSite.soilThick.length → 0 ≤ calmState.soilTemp k := by
  refine ⟨?_, ?_, ?_, ?_, fun h => by simp [meltSite] at h, fun _ _ => by norm_num [calmState]⟩
  · refine ⟨?_, ?_, ?_⟩ <;> norm_num [calmHour, meltSite]
  · refine ⟨?_, ?_, ?_, ?_, ?_⟩ <;> norm_num [calmHour]
  · norm_num [calmState]
  · refine ⟨⟨⟨⟨?_, ?_, ?_⟩, ?_, ?_⟩, ?_⟩, ?_, ?_⟩ <;>
      norm_num [calmState, meltSite, mlCfg, MultiLayer.LayerOK, iceDensity]

theorem calm_prepare : prepare meltSite calmHour calmState = some calmState.snow := by
  obtain ⟨p, hprep, hinv, -⟩ := step_refines meltSite_ok calm_ok.1 calm_ok.2.2.2.1 calm_ok.2.2.2.2.1
  have hcomp : compaction meltSite calmHour.temp calmState.snow = some calmState.snow := by
    norm_num [compaction, compactLayers, meltSite, calmState, toD, Snow.empiricalLayer, Snow.maxDensity,
      Pixel.setActive]
  have e : p = MultiLayer.updateHeatCap (ageing meltSite calmHour calmState.ts calmState.snow) := by
    have : prepare meltSite calmHour calmState =
        some (MultiLayer.updateHeatCap (ageing meltSite calmHour calmState.ts calmState.snow)) := by
      simp only [prepare, hcomp]
      norm_num [MultiLayer.accumulation, calmHour]
    rw [this, Option.some.injEq] at hprep
    exact hprep.symm
  have h1 : p.n = 1 := by rw [e]; rfl
  have h2 : p.layers = [⟨1 / 10, 20, 0, 250, 42000⟩] := by
    rw [e]; norm_num [MultiLayer.updateHeatCap, ageing, calmState, MultiLayer.Layer.heatCap, cIce]
  obtain ⟨a, ha, h3, h4⟩ := hinv.snow (by omega)
  have h5 : a = 1 / 2 := le_antisymm h4 h3
  rw [hprep]
  obtain ⟨n, Ls, al⟩ := p
  simp only at h1 h2 ha
  simp [calmState, h1, h2, ha, h5]

theorem calm_energy : ∃ e, energy meltSite calmHour calmState calmState.snow = some e ∧ e.ts = 250 ∧ e.ground = 0 ∧
    e.melt = 0 ∧ e.moist = 0 := by
  obtain ⟨h1, h2, h3, h4, -⟩ := calm_ok
  obtain ⟨a, ha, hphys, he⟩ := C122_energy meltSite meltSite_ok calmHour h2 calmState h3 calmState.snow h4
  refine ⟨_, he, ?_⟩
  obtain ⟨px, hpx⟩ : ∃ x, surfacePixel meltSite calmHour calmState calmState.snow a = x := ⟨_, rfl⟩
  rw [hpx] at hphys ⊢
  have e1 : px.layerTemp = 250 := by
    rw [← hpx]; norm_num [surfacePixel, Surface.layerTemp, top, calmState, soilDx, meltSite]
  have e2 : px.ts = 250 := by rw [← hpx]; rfl
  have hsur : Surface.surplus px px.avail (px.latHeat px.ts) px.ts = 0 := by
    simp only [Surface.surplus, e1, e2]
    rw [← hpx]
    norm_num [surfacePixel, calmHour]
  have hdry : px.dry.ts = 0 := by
    rw [Surface.Pixel.dry, Surface.Pixel.solve_eq]
    simp [hsur]
  have hm : ¬ px.Melts := fun hm => by
    have := hm.1
    rw [hdry, e2] at this
    norm_num [Atmosphere.T0] at this
  have hpa : ¬ px.Partially := fun hp => hm hp.1
  have ht : px.energyBalance.ts = 250 := by
    obtain ⟨-, h5, h6⟩ := Surface.C79_warming px hphys hm
    rw [hsur] at h5 h6
    rw [e2] at h5 h6
    exact le_antisymm (not_lt.mp fun h => lt_irrefl _ (h5.mp h)) (not_lt.mp fun h => lt_irrefl _ (h6.mp h))
  refine ⟨ht, ?_, (Surface.C79_warming px hphys hm).1, ?_⟩
  · rw [(Surface.C79_new_fluxes px).2, ht, e1]; simp
  · rw [(Surface.C79_moisture_false px hpa).1, ← hpx]
    norm_num [surfacePixel, calmHour]

theorem calm_step : ∃ (s' : State) (x : MultiLayer.Fluxes ℝ), step meltSite calmHour calmState = some (x, s') ∧
    s'.snow = calmState.snow ∧ s'.ts = calmState.ts ∧ s'.soilTemp 0 < calmState.soilTemp 0 := by
  obtain ⟨h1, h2, h3, h4, h5, h6⟩ := calm_ok
  obtain ⟨e, he, ht, hg, hm, hmo⟩ := calm_energy
  have hcond : Heat.snowHeatConduction (boundary meltSite calmState 0) calmState.snow = some calmState.snow := by
    have hhc : ∀ L ∈ calmState.snow.layers, L.heatCap = L.ice * cIce + L.lwc * cWater := by
      norm_num [calmState, cIce]
    obtain ⟨u, hu⟩ : ∃ p2, Heat.snowHeatConduction (boundary meltSite calmState 0) calmState.snow = some p2 := by
      have hphys := snowColumn_physical meltSite_ok calmState 0 h4 hhc (by norm_num [calmState])
      obtain ⟨x, hx, -⟩ := Heat.C21_layer_energy_balance _ hphys
      exact ⟨_, by simp only [Heat.snowHeatConduction, hx]; rfl⟩
    obtain ⟨T, hT, hsum⟩ := conducted meltSite_ok calmState 0 h4 hhc (by norm_num [calmState]) hu
    have hlam := soilLam_pos meltSite_ok calmState 0
    have hT0 : T 0 = 250 := by
      obtain ⟨l, hl⟩ : ∃ l, soilLam meltSite calmState 0 = l := ⟨_, rfl⟩
      rw [hl] at hsum hlam
      norm_num [calmState, meltSite, exSite, soilDx] at hsum
      have hR : 0 < 5 / 24 + 1 / 200 / l := by positivity
      obtain ⟨R, hR'⟩ : ∃ R, 5 / 24 + 1 / 200 / l = R := ⟨_, rfl⟩
      rw [hR'] at hsum hR
      have h0 : (T 0 - 250) * (42000 + 3600 / R) = 0 := by
        have : (T 0 - 250) * (42000 + 3600 / R) = 42000 * (T 0 - 250) + 3600 * ((T 0 - 250) / R) := by ring
        rw [this, hsum]; ring
      rcases mul_eq_zero.mp h0 with h0 | h0
      · linarith
      · have : 0 < 42000 + 3600 / R := by positivity
        linarith
    rw [hu, hT]
    norm_num [MultiLayer.conduct, Pixel.setActive, calmState, hT0]
  have hmass : massStep meltSite calmHour e calmState.snow = some (⟨0, 0, 0, 0⟩, calmState.snow) := by
    have r1 : MultiLayer.melt e.melt calmState.snow = (0, calmState.snow) := by
      norm_num [hm, MultiLayer.melt, MultiLayer.meltLoop, MultiLayer.meltLayer, calmState, Pixel.setActive, T0]
    have r2 : ∀ a b c : ℝ, MultiLayer.sublimation meltSite.dt e.ts a b c (some e.moist) calmState.snow =
        (0, some calmState.snow) := by
      intro a b c
      norm_num [hmo, ht, MultiLayer.sublimation, MultiLayer.sublAmount, nanToZero, T0, calmState, MultiLayer.iceSum,
        MultiLayer.sublKernel]
    have r3 : MultiLayer.runoff meltSite.lwcMethod meltSite.maxFrac (some calmHour.rain) calmState.snow =
        (0, 0, calmState.snow) := by
      norm_num [MultiLayer.runoff, MultiLayer.runoffLoop, MultiLayer.runoffLayer, calmState, calmHour, meltSite, exSite,
        MultiLayer.maxLwc, LF, T0, Pixel.setActive, nanToZero]
    have r4 : MultiLayer.updateHeatCap calmState.snow = calmState.snow := by
      norm_num [MultiLayer.updateHeatCap, calmState, cIce, Layer.heatCap]
    have r5 : MultiLayer.updateLayers meltSite.minThickness calmState.snow = some calmState.snow := by
      have t1 : MultiLayer.dropThin (MultiLayer.newThickness (1 / 10 : ℝ) [1 / 10]) = [1 / 10] := by
        norm_num [MultiLayer.dropThin, MultiLayer.newThickness]
      have t2 : ∀ (ths : ℕ → ℝ) (X : ℝ × ℝ × ℝ), MultiLayer.relayerOld 1 1 ths ⟨1 / 10, X⟩ ⟨0, 1 / 10, fun _ => 0⟩ =
          some ⟨0, 0, Function.update (fun _ => 0) 0 X⟩ := by
        intro ths X
        rw [MultiLayer.relayerOld]
        norm_num [MultiLayer.weight]
      have t3 : MultiLayer.toOld (⟨1 / 10, 20, 0, 250, 42000⟩ : Layer ℝ) = ⟨1 / 10, (20, 0, -972300)⟩ := by
        norm_num [MultiLayer.toOld, T0]
      simp only [MultiLayer.updateLayers, calmState, meltSite, MultiLayer.depth, List.map_cons, List.map_nil,
        List.sum_cons, List.sum_nil, add_zero, t1, List.take_succ_cons, List.take_zero, t3, List.length_cons,
        List.length_nil, zero_add, MultiLayer.relayerLoop, List.getD_cons_zero]
      norm_num [t2, MultiLayer.newLayer, cIce, T0, List.range_succ]
    simp only [massStep, r1, r2, r3, r4, r5]
  refine ⟨⟨calmState.snow, soilStep meltSite calmState 0 calmState.snow, e.ts⟩, ⟨0, 0, 0, 0⟩, ?_, rfl, ht, ?_⟩
  · simp only [step, calm_prepare, he, hg, hcond, hmass]
  · obtain ⟨flux, xs, hphys, hx1, hx2, hx3, hx4, hx5⟩ := C122_soil meltSite meltSite_ok calmState h6 0 calmState.snow
    have hbal := Heat.C21_column_energy_balance _ hphys xs hx1
    have hN : meltSite.soilThick.length = 1 := rfl
    have e0 := hx3 0 (by norm_num [hN])
    have hlam := soilLam_pos meltSite_ok calmState 0
    have hdx := soilDx0_pos meltSite_ok
    have hcap := hphys.hc 0 (by norm_num [Soil.column, hN])
    have hfl := hx5 ⟨1 / 10, 20, 0, 250, 42000⟩ (by norm_num [calmState])
    have hdt : (0 : ℝ) < meltSite.dt := meltSite_ok.dt
    have hk : (0 : ℝ) < meltSite.snowCond := meltSite_ok.snowCond
    dsimp only
    rw [e0]
    simp only [Soil.column, Heat.newTemp, hN, Nat.sub_self, Finset.sum_range_one, add_sub_cancel_left] at hbal hcap
    obtain ⟨y, hy⟩ : ∃ y, xs.getD 0 0 = y := ⟨_, rfl⟩
    obtain ⟨R, hR⟩ : ∃ R, soilDx meltSite 0 / 2 / soilLam meltSite calmState 0 +
      soilDx meltSite 0 / 2 / soilLam meltSite calmState 0 = R := ⟨_, rfl⟩
    rw [hy, hR] at hbal
    rw [hy]
    have hRp : 0 < R := by rw [← hR]; positivity
    have hneg : flux < 0 := by
      rw [hfl]
      apply mul_neg_of_pos_of_neg
      · positivity
      · norm_num [calmState]
    have : y < 0 := by
      by_contra h0
      push Not at h0
      have a1 : 0 ≤ soilHc meltSite calmState 0 * y := mul_nonneg hcap.le h0
      have a2 : 0 ≤ y / R := by positivity
      rw [hbal] at a1
      nlinarith
    linarith

/-- **C132 is false for the heat leaving the snow.** Snow in equilibrium with the air neither gains nor loses heat at
its surface; warmer soil below it cools, but the snow keeps its temperature: the heat conduction of the snow takes the
temperature of the last snow slot for that of the soil (`multilayermodel.py:509`). -/
theorem C132_base_false : ∃ (c : Site) (f : Forcing) (s s' : State) (x : MultiLayer.Fluxes ℝ),
    SiteOK c ∧ ForcingOK c f ∧ Natural f ∧ 0 < s.ts ∧ Inv c s.snow ∧ step c f s = some (x, s') ∧
    s'.snow = s.snow ∧ s'.ts = s.ts ∧ (∀ L ∈ s.snow.layers, L.temp < s.soilTemp 0) ∧
    c.soilThick.length = 1 ∧ s'.soilTemp 0 < s.soilTemp 0 := by
  obtain ⟨h1, h2, h3, h4, h5, h6⟩ := calm_ok
  obtain ⟨s', x, e1, e2, e3, e4⟩ := calm_step
  exact ⟨meltSite, calmHour, calmState, s', x, meltSite_ok, h1, h2, h3, h4, e1, e2, e3, by norm_num [calmState], rfl, e4⟩

/-- The hypotheses of `C132_step_partial` are met. -/
example : ∃ x s', SiteOK meltSite ∧ ForcingOK meltSite calmHour ∧ Natural calmHour ∧ 0 < calmState.ts ∧
    Inv meltSite calmState.snow ∧ Light meltSite calmHour calmState.snow ∧
    (∀ k, k < meltSite.soilThick.length → 0 ≤ calmState.soilTemp k) ∧
    step meltSite calmHour calmState = some (x, s') := by
  obtain ⟨h1, h2, h3, h4, h5, h6⟩ := calm_ok
  obtain ⟨s', x, e1, -⟩ := calm_step
  exact ⟨x, s', meltSite_ok, h1, h2, h3, h4, h5, h6, e1⟩

end Verif.Coupled
