import Verif.Model.Gaps
import Verif.Props.Coupled

/-!
# Lemmas for the coupled multilayer model with missing weather data
-/

namespace Verif.Gaps

open Verif.MultiLayer (Pixel Layer LayerOK PackOK WF Solid InOK CfgOK LwcMethod)
open Verif.Coupled (Site State SiteOK Inv mlCfg mlCfg_ok AlbedoOK)

/-- Weather without gaps. -/
def ofForcing (f : Coupled.Forcing) : Weather where
  temp := some f.temp
  wetBulb := some f.wetBulb
  specHum := some f.specHum
  swIn := some f.swIn
  lwIn := some f.lwIn
  wind := some f.wind
  rain := some f.rain
  snow := some f.snow
  density := some f.density
  latVap := some f.latVap
  qsat := f.qsat

/-- Some value of the energy balance is missing. -/
def Incomplete (w : Weather) : Prop :=
  w.temp = none ∨ w.wetBulb = none ∨ w.specHum = none ∨ w.swIn = none ∨ w.lwIn = none ∨ w.wind = none ∨
  w.rain = none ∨ w.snow = none ∨ w.density = none ∨ w.latVap = none

theorem complete_or (w : Weather) : Incomplete w ∨ ∃ f, w = ofForcing f := by
  obtain ⟨t, wb, q, sw, lw, u, r, s, d, l, qs⟩ := w
  cases t <;> cases wb <;> cases q <;> cases sw <;> cases lw <;> cases u <;> cases r <;> cases s <;> cases d <;>
    cases l <;> first
    | exact Or.inr ⟨⟨_, _, _, _, _, _, _, _, _, _, qs⟩, rfl⟩
    | exact Or.inl (by simp [Incomplete])

/-! ## Energy balance -/

theorem balance_none {b : Surf} (h : Incomplete b.w) (t : ℝ) : b.balance t = none := by
  unfold Surf.balance Surf.netRad Surf.sensFlux Surf.latFlux Surf.advHeat Surf.latHeat Surf.moistFlux Surf.transfer
  rcases h with h | h | h | h | h | h | h | h | h | h <;> simp [h]

theorem energy_none {b : Surf} (h : ∀ t, b.balance t = none) :
    ¬ b.Singular ∧ b.energyBalance.ts = b.ts ∧ b.energyBalance.ground = b.groundFlux b.ts ∧
    b.energyBalance.melt = some (if Atmosphere.T0 < b.ts ∧ 0 < b.ice0 then b.ice.sum else 0) ∧
    b.energyBalance.moist = b.moistFlux (b.w.qsat b.ts) := by
  have h0 : ∀ m, b.tempChange m = 0 := fun m => by simp [Surf.tempChange, h]
  have hg : ∀ m, b.groundChange m = 0 := fun m => by simp [Surf.groundChange, h0]
  have hp : ¬ b.Partially := by
    rintro ⟨⟨h1, -⟩, h2⟩
    rw [h0] at h1 h2
    linarith
  have hm : b.Melts ↔ Atmosphere.T0 < b.ts ∧ 0 < b.ice0 := by
    unfold Surf.Melts
    rw [h0, add_zero]
  refine ⟨fun hs => hs.1 (h _), ?_⟩
  unfold Surf.energyBalance
  rw [if_neg hp]
  simp only [h0, hg, add_zero, true_and, and_true, Option.some.injEq]
  by_cases hc : b.Melts
  · rw [if_pos hc, if_pos (hm.mp hc)]
  · rw [if_neg hc, if_neg (fun hh => hc (hm.mpr hh))]

theorem energy_gap {b : Surf} (h : Incomplete b.w) :
    ¬ b.Singular ∧ b.energyBalance.ts = b.ts ∧ b.energyBalance.ground = b.groundFlux b.ts ∧
    b.energyBalance.melt = some (if Atmosphere.T0 < b.ts ∧ 0 < b.ice0 then b.ice.sum else 0) ∧
    b.energyBalance.moist = b.moistFlux (b.w.qsat b.ts) := energy_none (balance_none h)

theorem exchange_ofForcing (c : Site) (f : Coupled.Forcing) (ts : ℝ) (p : Pixel ℝ) :
    exchange c (ofForcing f) ts p = Coupled.exchange c f ts p := rfl

section complete
variable (c : Site) (f : Coupled.Forcing) (s : State) (p : Pixel ℝ) (a : ℝ) (hmo : 0 < c.moisture)
include hmo

theorem surf_avail : (surf c (ofForcing f) s p).avail = some (Coupled.surfacePixel c f s p a).avail := by
  by_cases h1 : 0 < MultiLayer.swe p
  · have e1 : 0 < (surf c (ofForcing f) s p).swe := h1
    have e2 : 0 < (Coupled.surfacePixel c f s p a).swe := h1
    rw [Surf.avail, if_pos e1, Surface.Pixel.avail, if_pos e2]
  · have e1 : ¬ 0 < (surf c (ofForcing f) s p).swe := h1
    have e2 : ¬ 0 < (Coupled.surfacePixel c f s p a).swe := h1
    rw [Surf.avail, if_neg e1, Surface.Pixel.avail, if_neg e2]
    by_cases h2 : f.qsat s.ts < f.specHum
    · have e3 : ∃ q, (surf c (ofForcing f) s p).w.specHum = some q ∧
          (surf c (ofForcing f) s p).w.qsat (surf c (ofForcing f) s p).ts < q := ⟨_, rfl, h2⟩
      have e4 : (Coupled.surfacePixel c f s p a).qsat (Coupled.surfacePixel c f s p a).ts <
          (Coupled.surfacePixel c f s p a).specHum := h2
      rw [if_pos e3, if_pos e4]
    · have e3 : ¬ ∃ q, (surf c (ofForcing f) s p).w.specHum = some q ∧
          (surf c (ofForcing f) s p).w.qsat (surf c (ofForcing f) s p).ts < q := by
        rintro ⟨q, hq, h3⟩
        simp only [surf, ofForcing, Option.some.injEq] at hq
        subst hq
        exact h2 h3
      have e4 : ¬ (Coupled.surfacePixel c f s p a).qsat (Coupled.surfacePixel c f s p a).ts <
          (Coupled.surfacePixel c f s p a).specHum := h2
      rw [if_neg e3, if_neg e4]
      simp only [surf, hmo, if_true]
      rfl

theorem surf_balance (ha : Surface.albedo (Coupled.fraction c p) p.albedo c.soilAlbedo = some a) (t : ℝ) :
    (surf c (ofForcing f) s p).balance t =
      some ((Coupled.surfacePixel c f s p a).netRad t + (Coupled.surfacePixel c f s p a).sensFlux t +
        (Coupled.surfacePixel c f s p a).latHeat t *
          (Coupled.surfacePixel c f s p a).moistFlux ((Coupled.surfacePixel c f s p a).qsat t) +
        (Coupled.surfacePixel c f s p a).advHeat t - (Coupled.surfacePixel c f s p a).groundFlux t) ∧
    (surf c (ofForcing f) s p).moistFlux (f.qsat t) =
      some ((Coupled.surfacePixel c f s p a).moistFlux (f.qsat t)) := by
  have hav := surf_avail c f s p a hmo
  have hm : ∀ q, (surf c (ofForcing f) s p).moistFlux q = some ((Coupled.surfacePixel c f s p a).moistFlux q) := by
    intro q
    unfold Surf.moistFlux
    rw [hav]
    rfl
  refine ⟨?_, hm _⟩
  unfold Surf.balance Surf.latFlux
  have h1 : (surf c (ofForcing f) s p).netRad t = some ((Coupled.surfacePixel c f s p a).netRad t) := by
    unfold Surf.netRad
    have : (surf c (ofForcing f) s p).albedo = some a := ha
    rw [this]
    rfl
  have h2 : (surf c (ofForcing f) s p).latHeat t = some ((Coupled.surfacePixel c f s p a).latHeat t) := rfl
  rw [h1, h2, show (surf c (ofForcing f) s p).w.qsat t = f.qsat t from rfl, hm]
  rfl

theorem surf_slope (ha : Surface.albedo (Coupled.fraction c p) p.albedo c.soilAlbedo = some a) :
    (surf c (ofForcing f) s p).slope = some (Coupled.denominator (Coupled.surfacePixel c f s p a)) := by
  have hav := surf_avail c f s p a hmo
  unfold Surf.slope
  rw [hav]
  rfl

theorem surf_change (ha : Surface.albedo (Coupled.fraction c p) p.albedo c.soilAlbedo = some a) (m : ℝ) :
    (surf c (ofForcing f) s p).tempChange m =
      ((Coupled.surfacePixel c f s p a).solve ((Coupled.surfacePixel c f s p a).fluxesAt s.ts m)).ts := by
  unfold Surf.tempChange
  rw [show (surf c (ofForcing f) s p).ts = s.ts from rfl, (surf_balance c f s p a hmo ha s.ts).1,
    surf_slope c f s p a hmo ha]
  rfl

theorem surf_energy (ha : Surface.albedo (Coupled.fraction c p) p.albedo c.soilAlbedo = some a) :
    (surf c (ofForcing f) s p).energyBalance =
      ⟨(Coupled.surfacePixel c f s p a).energyBalance.ts, (Coupled.surfacePixel c f s p a).energyBalance.ground,
        some (Coupled.surfacePixel c f s p a).energyBalance.melt,
        some (Coupled.surfacePixel c f s p a).energyBalance.moist⟩ := by
  have hc := surf_change c f s p a hmo ha
  have hg : ∀ m, (surf c (ofForcing f) s p).groundChange m =
      ((Coupled.surfacePixel c f s p a).solve ((Coupled.surfacePixel c f s p a).fluxesAt s.ts m)).ground := by
    intro m
    unfold Surf.groundChange
    rw [hc]
    rfl
  have hm : (surf c (ofForcing f) s p).Melts ↔ (Coupled.surfacePixel c f s p a).Melts := by
    unfold Surf.Melts
    rw [hc]
    exact Iff.rfl
  have hp : (surf c (ofForcing f) s p).Partially ↔ (Coupled.surfacePixel c f s p a).Partially := by
    unfold Surf.Partially Surface.Pixel.Partially
    rw [hm, hc]
    exact Iff.rfl
  unfold Surf.energyBalance Surface.Pixel.energyBalance
  by_cases h1 : (Coupled.surfacePixel c f s p a).Partially
  · rw [if_pos h1, if_pos (hp.mpr h1)]
    have hb := surf_balance c f s p a hmo ha Atmosphere.T0
    rw [hb.1, show (surf c (ofForcing f) s p).w.qsat Atmosphere.T0 = f.qsat Atmosphere.T0 from rfl, hb.2]
    simp only [Surface.Pixel.finish, Surface.Pixel.fluxesAt, add_zero, Option.map_some, Surf.Result.mk.injEq, true_and]
    exact ⟨rfl, rfl, rfl⟩
  · rw [if_neg h1, if_neg (fun hh => h1 (hp.mp hh))]
    have hb := surf_balance c f s p a hmo ha s.ts
    by_cases h2 : (Coupled.surfacePixel c f s p a).Melts
    · rw [if_pos h2, if_pos (hm.mpr h2)]
      simp only [hc, hg]
      rw [show (surf c (ofForcing f) s p).w.qsat (surf c (ofForcing f) s p).ts = f.qsat s.ts from rfl, hb.2]
      rfl
    · rw [if_neg h2, if_neg (fun hh => h2 (hm.mp hh))]
      simp only [hc, hg]
      rw [show (surf c (ofForcing f) s p).w.qsat (surf c (ofForcing f) s p).ts = f.qsat s.ts from rfl, hb.2]
      rfl

theorem surf_singular (ha : Surface.albedo (Coupled.fraction c p) p.albedo c.soilAlbedo = some a) :
    (surf c (ofForcing f) s p).Singular ↔
      s.ts = 0 ∨ Coupled.denominator (Coupled.surfacePixel c f s p a) = 0 := by
  unfold Surf.Singular
  rw [surf_slope c f s p a hmo ha, show (surf c (ofForcing f) s p).ts = s.ts from rfl, (surf_balance c f s p a hmo ha s.ts).1]
  simp

end complete

/-! ## Snow before the energy balance -/

/-- Precipitation is missing or not negative; with retention in the pore volume, the wet bulb temperature is missing or
at most 319 K (fresh snow is lighter than ice). -/
structure WeatherOK (c : Site) (w : Weather) : Prop where
  snow : ∀ x, w.snow = some x → 0 ≤ x
  rain : ∀ x, w.rain = some x → 0 ≤ x
  wetBulb : c.lwcMethod = .poreVolume → ∀ x, w.wetBulb = some x → x ≤ 319

/-- Without air temperature there is no snowfall and no air density. -/
structure Coherent (w : Weather) : Prop where
  snow : ∀ x, w.snow = some x → 0 < x → w.temp ≠ none
  density : w.density ≠ none → w.temp ≠ none

/-- Compaction of this step leaves no layer denser than ice. -/
def Light (c : Site) (w : Weather) (p : Pixel ℝ) : Prop :=
  c.lwcMethod = .poreVolume → ∀ q, compaction c w.temp p = some q →
    ∀ L ∈ q.layers.take q.n, L.ice ≤ 917 * L.thick

theorem compactLayers_spec {c : Site} (h : SiteOK c) (temp : Option ℝ) (Ls : List (Layer ℝ))
    (hL : ∀ L ∈ Ls, 0 < L.thick → 0 < L.ice + L.lwc) :
    ∃ Ds, compactLayers c temp Ls = some Ds ∧ List.Forall₂ Snow.Compacted (Ls.map Coupled.toD) Ds := by
  have hm : ∀ D ∈ Ls.map Coupled.toD, 0 < D.thick → 0 < D.ice + D.lwc := by
    intro D hD
    obtain ⟨L, hL', rfl⟩ := List.mem_map.mp hD
    exact hL L hL'
  unfold compactLayers
  split
  · obtain ⟨Ds, h1, h2, -⟩ := Snow.C25_anderson c.dt h.dt.le temp _ hm
    exact ⟨Ds, h1, h2⟩
  · rename_i e he
    exact Coupled.mapM_forall₂ _ _ fun D hD => by
      obtain ⟨D', h1, h2, -⟩ := Snow.C25_empirical e (h.timescale e he) c.dt h.dt.le D (hm D hD)
      exact ⟨D', h1, h2⟩

/-- Thicknesses after compaction keep layers plausible. -/
def Plausible (c : Site) (g : List (Layer ℝ) → ℕ → ℝ) : Prop :=
  ∀ (Ls : List (Layer ℝ)) (k : ℕ) (L : Layer ℝ), Ls[k]? = some L → 0 ≤ L.thick →
    0 ≤ L.ice → LayerOK c.lwcMethod L →
      0 ≤ g Ls k ∧ LayerOK c.lwcMethod { L with thick := g Ls k }

theorem compaction_spec {c : Site} (h : SiteOK c) (w : Weather) {p : Pixel ℝ} (hp : Solid (mlCfg c) p)
    (hl : Light c w p) : ∃ g, compaction c w.temp p = some (MultiLayer.compact g p) ∧ Plausible c g := by
  have hmass : ∀ L ∈ p.layers.take p.n, 0 < L.thick → 0 < L.ice + L.lwc := by
    intro L hL ht
    have h1 := hp.ok.ice_pos hL ht
    have h2 := (hp.ok.wf.active L hL).2.2
    linarith
  obtain ⟨Ds, h1, h2⟩ := compactLayers_spec h w.temp (p.layers.take p.n) hmass
  have hlen : Ds.length = (p.layers.take p.n).length := by
    rw [← h2.length_eq, List.length_map]
  have heq : compaction c w.temp p = some (MultiLayer.compact (Coupled.compactedOf (p.layers.take p.n) Ds) p) := by
    rw [Coupled.compact_eq p Ds hlen]
    simp only [compaction, h1]
  refine ⟨_, heq, ?_⟩
  intro Ls k L hk ht hi hok
  by_cases hLs : Ls = p.layers.take p.n
  · subst hLs
    have hmem : L ∈ p.layers.take p.n := List.mem_of_getElem? hk
    obtain ⟨D, hD, hc⟩ := MultiLayer.forall₂_get h2 k (Coupled.toD L) (by rw [List.getElem?_map, hk]; rfl)
    have hg : Coupled.compactedOf (p.layers.take p.n) Ds (p.layers.take p.n) k = D.thick := by
      simp [Coupled.compactedOf, hD]
    have hDpos : 0 < D.thick := hc.thick_pos (hp.thick L hmem)
    have hice := hp.ok.ice_pos hmem (hp.thick L hmem)
    rw [hg]
    refine ⟨hDpos.le, ⟨fun h0 => absurd h0 hDpos.ne', fun h0 => absurd h0 hice.ne'⟩, ?_⟩
    intro hm
    have hn : k < p.n := by
      have := (List.getElem?_eq_some_iff.mp hk).1
      simp at this; exact this.1
    have hq := hl hm _ heq { L with thick := D.thick } (by
      show _ ∈ (MultiLayer.compact (Coupled.compactedOf (p.layers.take p.n) Ds) p).layers.take p.n
      unfold MultiLayer.compact
      rw [MultiLayer.setActive_take p _ hp.ok.wf.n_le (by simp) p.n le_rfl, List.take_of_length_le (by simp)]
      apply List.mem_iff_getElem?.mpr
      refine ⟨k, ?_⟩
      rw [List.getElem?_mapIdx, hk]
      simp only [Option.map_some, hg])
    simpa [iceDensity] using hq
  · have hg : Coupled.compactedOf (p.layers.take p.n) Ds Ls k = L.thick := by
      simp [Coupled.compactedOf, hLs, hk]
    rw [hg]
    exact ⟨ht, hok⟩

/-- The step inputs of `Model/MultiLayerStep` that correspond to results of the other parts. -/
noncomputable def inputs (c : Site) (w : Weather) (ts : ℝ) (g : List (Layer ℝ) → ℕ → ℝ) (u : ℕ → ℝ)
    (demand surf : ℝ) (moist : Option ℝ) : MultiLayer.StepIn ℝ where
  snowfall := w.snow
  rainfall := w.rain
  airTemp := w.temp.getD 0
  surfTemp := surf
  freshDensity := Snow.freshSnowDensity w.wetBulb
  compacted := g
  aged := Snow.albedo c.albedo c.dt (if c.ageByAir then w.temp else some ts) w.snow
  conducted := u
  meltDemand := demand
  moistureFlux := moist

theorem inputs_ok {c : Site} {w : Weather} (hw : WeatherOK c w) {ts : ℝ} {g : List (Layer ℝ) → ℕ → ℝ}
    (hg : Plausible c g) (u : ℕ → ℝ) {demand : ℝ} (hd : 0 ≤ demand) (surf : ℝ) (moist : Option ℝ) :
    InOK (mlCfg c).lwcMethod (inputs c w ts g u demand surf moist) where
  snowfall := hw.snow
  rainfall := hw.rain
  density_pos := Coupled.freshDensity_pos w.wetBulb
  density_le := fun hm => by
    have : Snow.freshSnowDensity w.wetBulb ≤ 917 := by
      cases hb : w.wetBulb with
      | none => norm_num [Snow.freshSnowDensity]
      | some x => exact Coupled.freshDensity_le (hw.wetBulb hm x hb)
    simpa [inputs, iceDensity] using this
  demand := hd
  compaction := hg

/-- The pack before the energy balance. -/
noncomputable def prepared (c : Site) (w : Weather) (ts : ℝ) (g : List (Layer ℝ) → ℕ → ℝ) (p : Pixel ℝ) :
    Pixel ℝ :=
  MultiLayer.updateHeatCap (ageing c w ts
      (MultiLayer.accumulation c.albedo.max (w.temp.getD 0) (Snow.freshSnowDensity w.wetBulb) w.snow
        (MultiLayer.compact g p)))

theorem beforeMelt_eq (c : Site) (w : Weather) (ts : ℝ) (g : List (Layer ℝ) → ℕ → ℝ) (p : Pixel ℝ)
    (u : ℕ → ℝ) (demand surf : ℝ) (moist : Option ℝ) :
    MultiLayer.beforeMelt (mlCfg c) (inputs c w ts g u demand surf moist) p =
      MultiLayer.conduct u (prepared c w ts g p) := rfl

theorem prepared_solid {c : Site} (h : SiteOK c) {w : Weather} (hw : WeatherOK c w) {p : Pixel ℝ}
    (hp : Solid (mlCfg c) p) {g : List (Layer ℝ) → ℕ → ℝ} (hg : Plausible c g) (ts : ℝ) :
    Solid (mlCfg c) (prepared c w ts g p) := by
  have := MultiLayer.beforeMelt_solid (mlCfg_ok h)
    (inputs_ok hw hg (Coupled.ownTemps (prepared c w ts g p)) (le_refl 0) 0 none (ts := ts)) hp
  rwa [beforeMelt_eq, Coupled.conduct_own] at this

theorem prepared_inv {c : Site} (h : SiteOK c) {w : Weather} (hw : WeatherOK c w) {p : Pixel ℝ}
    (hp : Inv c p) {g : List (Layer ℝ) → ℕ → ℝ} (hg : Plausible c g) (ts : ℝ) :
    Inv c (prepared c w ts g p) := by
  have hs := prepared_solid h hw hp.solid hg ts
  obtain ⟨a1, ha1⟩ : ∃ x, MultiLayer.accumulation c.albedo.max (w.temp.getD 0) (Snow.freshSnowDensity w.wetBulb)
    w.snow (MultiLayer.compact g p) = x := ⟨_, rfl⟩
  have hne : c.minThickness ≠ [] := h.layers
  have hlay : p.layers ≠ [] := by
    intro e
    have := hp.solid.ok.slots_eq
    rw [e] at this
    exact hne (List.length_eq_zero_iff.mp this.symm)
  have hcl : (MultiLayer.compact g p).layers ≠ [] := by
    intro e
    have h1 : (MultiLayer.compact g p).layers.length = p.layers.length :=
      MultiLayer.setActive_length p _ hp.solid.ok.wf.n_le (by simp)
    rw [e] at h1
    exact hlay (List.length_eq_zero_iff.mp h1.symm)
  have key : (0 < a1.n → ∃ a, a1.albedo = some a ∧ c.albedo.min ≤ a ∧ a ≤ c.albedo.max) ∧
      (a1.n = 0 → a1.albedo = none ∧ (w.snow = none ∨ w.snow = some 0)) := by
    have hr := h.albedo.range
    rw [← ha1]
    have hn : (MultiLayer.compact g p).n = p.n := rfl
    have hal : (MultiLayer.compact g p).albedo = p.albedo := rfl
    cases hsn : w.snow with
    | none => simpa [MultiLayer.accumulation, hn, hal] using ⟨hp.snow, hp.bare⟩
    | some x =>
      simp only [MultiLayer.accumulation]
      split_ifs with hs0
      · obtain ⟨L, Ls, hL⟩ := List.exists_cons_of_ne_nil hcl
        by_cases h0 : p.n = 0
        · simp only [MultiLayer.addSnow, hL, hn, h0, nanToZero, Option.getD_some, hs0, and_self, if_true]
          exact ⟨fun _ => ⟨_, rfl, hr, le_refl _⟩, fun e => absurd e one_ne_zero⟩
        · simp only [MultiLayer.addSnow, hL, hn, h0, hal, false_and, if_false]
          exact ⟨hp.snow, fun e => e.elim⟩
      · exact ⟨hp.snow, fun e => ⟨hp.bare e, Or.inr (congrArg some (le_antisymm (not_lt.mp hs0) (hw.snow x hsn)))⟩⟩
  have hdt := h.dt
  refine ⟨hs, ?_, ?_⟩
  · intro hn
    have hn' : 0 < a1.n := by rw [← ha1]; exact hn
    obtain ⟨a, ha, h1, h2⟩ := key.1 hn'
    obtain ⟨a', e, h3, h4⟩ := Snow.C24_albedo_in_range c.albedo h.albedo c.dt hdt
      (if c.ageByAir then w.temp else some ts) w.snow hw.snow a h1 h2
    refine ⟨a', ?_, h3, h4⟩
    rw [← e, ← ha, ← ha1]
    rfl
  · intro hn
    have hn' : a1.n = 0 := by rw [← ha1]; exact hn
    obtain ⟨ha, hs0⟩ := key.2 hn'
    have : (prepared c w ts g p).albedo =
        Snow.albedo c.albedo c.dt (if c.ageByAir then w.temp else some ts) w.snow none := by
      rw [← ha, ← ha1]; rfl
    rw [this]
    have hrf := h.albedo.refresh
    have h3600 : 0 < c.albedo.refreshSnowfall / 3600 := by positivity
    rcases hs0 with hs0 | hs0
    · rw [hs0]
      unfold Snow.albedo
      split
      · exact if_neg (not_le.mpr h3600)
      · exact if_neg (fun hh => h3600.ne' hh.1)
    · rw [hs0]
      simp only [Snow.albedo, Option.map_some, zero_div, nanToZero, Option.getD_some, Option.map_none]
      split
      · rw [if_neg (not_le.mpr h3600)]
      · rw [if_neg (fun hh => h3600.ne' hh.1)]

/-- There is a surface albedo. -/
theorem albedo_some {c : Site} {p : Pixel ℝ} (hp : Inv c p) :
    ∃ a, Surface.albedo (Coupled.fraction c p) p.albedo c.soilAlbedo = some a := by
  have hdepth : Snow.depth (p.layers.map Coupled.toD) = MultiLayer.depth p := by
    simp [Snow.depth, MultiLayer.depth, Coupled.toD, Function.comp_def]
  have hd0 : 0 ≤ MultiLayer.depth p := by
    apply List.sum_nonneg
    intro x hx
    obtain ⟨L, hL, rfl⟩ := List.mem_map.mp hx
    exact (hp.solid.ok.wf.all L hL).1
  obtain ⟨hf0, hf1, -, hfz, -⟩ :=
    Snow.C27_area_fraction c.depthScale (p.layers.map Coupled.toD) (by rw [hdepth]; exact hd0)
  by_cases hn : 0 < p.n
  · obtain ⟨al, hal, -, -⟩ := hp.snow hn
    obtain ⟨⟨a, ha, -⟩, -⟩ := Surface.C77_albedo (Coupled.fraction c p) hf0 hf1 al c.soilAlbedo
    exact ⟨a, by rw [hal]; exact ha⟩
  · have h0 : p.n = 0 := by omega
    have : Coupled.fraction c p = 0 := hfz.mpr (by rw [hdepth]; exact Coupled.wf_depth_zero hp.solid.ok.wf h0)
    rw [this]
    exact ⟨_, (Surface.C77_albedo 0 le_rfl zero_le_one 0 c.soilAlbedo).2.1 p.albedo⟩

/-- The melt demand is present and not negative, and the surface is at the melting point if it is positive. -/
theorem energy_melt {c : Site} (hmo : 0 < c.moisture) {w : Weather} {s : State} {p : Pixel ℝ} (hp : Inv c p) :
    ∃ m, (surf c w s p).energyBalance.melt = some m ∧ 0 ≤ m ∧
      (0 < m → T0 ≤ (surf c w s p).energyBalance.ts) := by
  have hi : ∀ x ∈ p.layers.map Layer.ice, 0 ≤ x := by
    intro x hx
    obtain ⟨L, hL, rfl⟩ := List.mem_map.mp hx
    exact (hp.solid.ok.wf.all L hL).2.1
  have hT : (T0 : ℝ) = Atmosphere.T0 := by norm_num [T0, Atmosphere.T0]
  rcases complete_or w with hw | ⟨f, rfl⟩
  · obtain ⟨-, h1, -, h2, -⟩ := energy_gap (b := surf c w s p) hw
    refine ⟨_, h2, ?_, ?_⟩
    · split_ifs
      · exact List.sum_nonneg hi
      · exact le_refl _
    · split_ifs with hc
      · intro _
        rw [h1, hT]
        exact hc.1.le
      · intro h0; exact absurd h0 (lt_irrefl _)
  · obtain ⟨a, ha⟩ := albedo_some hp
    rw [surf_energy c f s p a hmo ha]
    obtain ⟨h1, h2⟩ := Coupled.energyBalance_melt (Coupled.surfacePixel c f s p a) hi
    exact ⟨_, rfl, h1, h2⟩

/-- Without air temperature there is no moisture flux. -/
theorem energy_moist {c : Site} {w : Weather} (hw : Coherent w) {s : State} {p : Pixel ℝ} (ht : w.temp = none) :
    (surf c w s p).energyBalance.moist = none := by
  have hd : w.density = none := by
    by_contra h0
    exact hw.density h0 ht
  obtain ⟨-, -, -, -, h⟩ := energy_gap (b := surf c w s p) (Or.inl ht)
  rw [h]
  have : (surf c w s p).w.density = none := hd
  unfold Surf.moistFlux Surf.transfer
  rw [this]
  cases (surf c w s p).avail <;> rfl

theorem sublAmount_none {dt ts : ℝ} {p : Pixel ℝ} (hi : ∀ L ∈ p.layers, 0 ≤ L.ice) :
    0 ≤ MultiLayer.sublAmount dt ts none p := by
  have : 0 ≤ (p.layers.map Layer.ice).sum := List.sum_nonneg fun x hx => by
    obtain ⟨L, hL, rfl⟩ := List.mem_map.mp hx
    exact hi L hL
  have h2 : 0 ≤ MultiLayer.iceSum p.layers := this
  simp only [MultiLayer.sublAmount, nanToZero, Option.getD_none, Option.map_none]
  split_ifs <;> simp [h2]

/-! ## Refinement -/

/-- A step whose energy balance is not singular is a step of `Model/MultiLayerStep` with admissible inputs. -/
theorem step_refines {c : Site} (h : SiteOK c) {w : Weather} (hw : WeatherOK c w) (hc : Coherent w) {s : State}
    (hp : Inv c s.snow) (hl : Light c w s.snow) :
    ∃ p, prepare c w s = some p ∧ Inv c p ∧ ∃ g m u, p = prepared c w s.ts g s.snow ∧
      (surf c w s p).energyBalance.melt = some m ∧ 0 ≤ m ∧ (0 < m → T0 ≤ (surf c w s p).energyBalance.ts) ∧
      InOK (mlCfg c).lwcMethod
        (inputs c w s.ts g u m (surf c w s p).energyBalance.ts (surf c w s p).energyBalance.moist) ∧
      Heat.snowHeatConduction (Coupled.boundary c s (surf c w s p).energyBalance.ground) p =
        some (MultiLayer.conduct u p) ∧
      MultiLayer.beforeMelt (mlCfg c)
        (inputs c w s.ts g u m (surf c w s p).energyBalance.ts (surf c w s p).energyBalance.moist) s.snow =
          MultiLayer.conduct u p ∧
      (¬ (surf c w s p).Singular → step c w s = (MultiLayer.step (mlCfg c)
        (inputs c w s.ts g u m (surf c w s p).energyBalance.ts (surf c w s p).energyBalance.moist) s.snow).map
          fun r => (r.1, ⟨r.2, Coupled.soilStep c s (surf c w s p).energyBalance.ground r.2,
            (surf c w s p).energyBalance.ts⟩)) := by
  obtain ⟨g, hg, hok⟩ := compaction_spec h w hp.solid hl
  have hinv := prepared_inv h hw hp hok s.ts
  have hprep : prepare c w s = some (prepared c w s.ts g s.snow) := by
    simp only [prepare, hg, accumulation]
    have : ¬ (w.temp = none ∧ (MultiLayer.compact g s.snow).n = 0 ∧ ∃ x, w.snow = some x ∧ 0 < x) := by
      rintro ⟨h1, -, x, h2, h3⟩
      exact hc.snow x h2 h3 h1
    rw [if_neg this]
    rfl
  obtain ⟨p, hpe⟩ : ∃ x, prepared c w s.ts g s.snow = x := ⟨_, rfl⟩
  obtain ⟨b, hb⟩ : ∃ x, surf c w s p = x := ⟨_, rfl⟩
  have hcond := Coupled.conduction_spec h s b.energyBalance.ground (p0 := ageing c w s.ts
      (MultiLayer.accumulation c.albedo.max (w.temp.getD 0) (Snow.freshSnowDensity w.wetBulb) w.snow
        (MultiLayer.compact g s.snow))) hinv.solid
  have hcond' : ∃ u, Heat.snowHeatConduction (Coupled.boundary c s b.energyBalance.ground) p =
      some (MultiLayer.conduct u p) := by rw [← hpe]; exact hcond
  obtain ⟨u, hu⟩ := hcond'
  have hbm : ∀ m ts' mo, MultiLayer.beforeMelt (mlCfg c) (inputs c w s.ts g u m ts' mo) s.snow =
      MultiLayer.conduct u p := fun m ts' mo => by rw [beforeMelt_eq, hpe]
  rw [hpe] at hprep hinv
  obtain ⟨m, hm, hm0, hmt⟩ := energy_melt h.moisture (w := w) (s := s) hinv
  have hmoist : w.temp = none → b.energyBalance.moist = none := fun ht => by
    rw [← hb]; exact energy_moist hc ht
  refine ⟨p, hprep, hinv, g, m, u, hpe.symm, hm, hm0, hmt, ?_, ?_, hbm _ _ _, ?_⟩
  · exact inputs_ok hw hok u hm0 _ _
  · rw [hb]; exact hu
  · intro hsing
    rw [hb] at hm hsing ⊢
    have hms : massStep c w b.energyBalance.ts m b.energyBalance.moist (MultiLayer.conduct u p) =
        MultiLayer.step (mlCfg c) (inputs c w s.ts g u m b.energyBalance.ts b.energyBalance.moist) s.snow := by
      have hpm : PackOK c.lwcMethod c.minThickness.length (MultiLayer.melt m (MultiLayer.conduct u p)).2 := by
        rw [← hbm m b.energyBalance.ts b.energyBalance.moist]
        exact (MultiLayer.beforeMelt_solid (mlCfg_ok h) (inputs_ok hw hok u hm0 _ _) hp.solid).ok.melt m hm0
      have hguard : ¬ (w.temp = none ∧ (MultiLayer.melt m (MultiLayer.conduct u p)).2.n = 0 ∧
          MultiLayer.sublAmount c.dt b.energyBalance.ts b.energyBalance.moist
            (MultiLayer.melt m (MultiLayer.conduct u p)).2 < 0) := by
        rintro ⟨h1, -, h3⟩
        rw [hmoist h1] at h3
        exact absurd h3 (not_lt.mpr (sublAmount_none fun L hL => (hpm.wf.all L hL).2.1))
      simp only [massStep]
      rw [if_neg hguard, ← hpe]
      simp only [MultiLayer.step, mlCfg, inputs, prepared, ageing]
      cases (MultiLayer.sublimation (K := ℝ) _ _ _ _ _ _ _).2 with
      | none => rfl
      | some r =>
        simp only
        cases MultiLayer.updateLayers c.minThickness (MultiLayer.updateHeatCap
          (MultiLayer.runoff c.lwcMethod c.maxFrac w.rain r).2.2) <;> rfl
    simp only [step, hprep, hb]
    rw [if_neg (by rw [hb]; exact hsing)]
    simp only [hm, hu, hms]
    cases MultiLayer.step (mlCfg c) (inputs c w s.ts g u m b.energyBalance.ts b.energyBalance.moist) s.snow with
    | none => rfl
    | some r => rfl

/-- If the step is defined, its energy balance was not singular. -/
theorem not_singular {c : Site} {w : Weather} {s s' : State} {x : MultiLayer.Fluxes ℝ} {p : Pixel ℝ}
    (hp : prepare c w s = some p) (h : step c w s = some (x, s')) : ¬ (surf c w s p).Singular := by
  intro hs
  simp only [step, hp] at h
  rw [if_pos hs] at h
  simp at h

end Verif.Gaps
