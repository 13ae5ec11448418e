import Verif.Props.Gaps

/-!
# C148: bare ground and the moisture of the soil
-/

set_option linter.unusedSectionVars false

namespace Verif.Gaps

open Verif.MultiLayer (Pixel Layer)
open Verif.Coupled (Site State SiteOK Inv mlCfg mlCfg_ok initial)

section aux

/-- Bare ground under unsaturated air: the availability of moisture is that of the soil. -/
theorem dry_balance {c : Site} (hm : c.moisture ≤ 0) {w : Weather} {s : State} {p : Pixel ℝ}
    (hq : ∀ q, w.specHum = some q → q ≤ w.qsat s.ts) (hs : MultiLayer.swe p ≤ 0) :
    (surf c w s p).avail = none ∧ (∀ t, (surf c w s p).balance t = none) ∧
      ∀ q, (surf c w s p).moistFlux q = none := by
  have ha : (surf c w s p).avail = none := by
    have e1 : ¬ 0 < (surf c w s p).swe := not_lt.mpr hs
    have e2 : ¬ ∃ q, (surf c w s p).w.specHum = some q ∧ (surf c w s p).w.qsat (surf c w s p).ts < q := by
      rintro ⟨q, h1, h2⟩
      exact absurd (hq q h1) (not_le.mpr h2)
    have e3 : (surf c w s p).gs = none := if_neg (not_lt.mpr hm)
    rw [Surf.avail, if_neg e1, if_neg e2, e3]
    rfl
  have hf : ∀ q, (surf c w s p).moistFlux q = none := fun q => by simp [Surf.moistFlux, ha]
  refine ⟨ha, fun t => ?_, hf⟩
  simp only [Surf.balance, Surf.latFlux, hf]
  cases (surf c w s p).netRad t <;> cases (surf c w s p).sensFlux t <;> cases (surf c w s p).latHeat t <;> rfl

theorem swe_bare {c : Site} {p : Pixel ℝ} (hp : Inv c p) (h0 : p.n = 0) : MultiLayer.swe p = 0 :=
  List.sum_eq_zero fun x hx => by
    obtain ⟨L, hL, rfl⟩ := List.mem_map.mp hx
    obtain ⟨-, a, b⟩ := hp.solid.ok.wf.inactive L (by rw [h0]; exact hL)
    rw [a, b, add_zero]

theorem ice_bare {c : Site} {p : Pixel ℝ} (hp : Inv c p) (h0 : p.n = 0) :
    ∀ x ∈ p.layers.map Layer.ice, x = 0 := by
  intro x hx
  obtain ⟨L, hL, rfl⟩ := List.mem_map.mp hx
  exact (hp.solid.ok.wf.inactive L (by rw [h0]; exact hL)).2.1

theorem light_bare (c : Site) (w : Weather) {p : Pixel ℝ} (h0 : p.n = 0) : Light c w p := by
  intro _ q hq L hL
  simp only [compaction, h0, List.take_zero] at hq
  split at hq
  · simp at hq
  · simp only [Option.some.injEq] at hq
    subst hq
    simp [Pixel.setActive, h0] at hL

theorem prepare_bare {c : Site} {w : Weather} {s : State} {p : Pixel ℝ}
    (hsn : w.snow = none ∨ w.snow = some 0) (h0 : s.snow.n = 0) (h : prepare c w s = some p) : p.n = 0 := by
  unfold prepare compaction accumulation at h
  cases hl : compactLayers c w.temp (s.snow.layers.take s.snow.n) with
  | none => simp [hl] at h
  | some Ds =>
    rw [hl] at h
    simp only at h
    split at h
    · simp at h
    · rename_i p1 hp1
      split at hp1
      · simp at hp1
      · simp only [Option.some.injEq] at h hp1
        subst hp1
        subst h
        rcases hsn with hsn | hsn <;>
          simp [MultiLayer.updateHeatCap, ageing, MultiLayer.accumulation, hsn, Pixel.setActive, h0]

end aux

/-- **C148.** False of the code for dry soil: without snow on the ground and unless the air is more humid than the
saturated surface, the surface keeps its temperature, whatever radiation, air temperature, wind and ground are; there is
no evaporation either. -/
theorem C148_dry_false (c : Site) (hm : c.moisture ≤ 0) (w : Weather) (s : State)
    (hq : ∀ q, w.specHum = some q → q ≤ w.qsat s.ts) (p : Pixel ℝ) (hp : prepare c w s = some p)
    (hs : MultiLayer.swe p ≤ 0) (x : MultiLayer.Fluxes ℝ) (s' : State) (hst : step c w s = some (x, s')) :
    s'.ts = s.ts ∧ (surf c w s p).energyBalance.moist = none := by
  obtain ⟨-, h1, h2⟩ := dry_balance (w := w) (s := s) (p := p) hm hq hs
  obtain ⟨hsing, e1, -, -, e4⟩ := energy_none h1
  refine ⟨?_, by rw [e4, h2]⟩
  simp only [step, hp] at hst
  rw [if_neg hsing] at hst
  split at hst
  · simp at hst
  · split at hst
    · simp at hst
    · split at hst
      · simp at hst
      · simp only [Option.some.injEq, Prod.mk.injEq] at hst
        obtain ⟨-, rfl⟩ := hst
        exact e1

/-- One step on bare dry soil is defined. -/
theorem dry_step {c : Site} (hm : c.moisture ≤ 0) (h : SiteOK { c with moisture := c.soil.sat }) {w : Weather}
    (hw : WeatherOK c w) (hc : Coherent w) (hsn : w.snow = none ∨ w.snow = some 0) {s : State}
    (hq : ∀ q, w.specHum = some q → q ≤ w.qsat s.ts) (hp : Inv c s.snow) (h0 : s.snow.n = 0) :
    ∃ x s', step c w s = some (x, s') ∧ s'.ts = s.ts ∧ Inv c s'.snow ∧ s'.snow.n = 0 ∧ x.runoff = w.rain.getD 0 := by
  obtain ⟨C, hC⟩ : ∃ C : Site, C = { c with moisture := c.soil.sat } := ⟨_, rfl⟩
  obtain ⟨W, hW⟩ : ∃ W : Weather, W = { w with specHum := none } := ⟨_, rfl⟩
  have hprep : prepare C W s = prepare c w s := by rw [hC, hW]; rfl
  have hWok : WeatherOK C W := by rw [hC, hW]; exact ⟨hw.1, hw.2, hw.3⟩
  have hWc : Coherent W := by rw [hW]; exact ⟨hc.1, hc.2⟩
  have hI : ∀ q, Inv C q ↔ Inv c q := fun q => by
    rw [hC]; exact ⟨fun k => ⟨k.1, k.2, k.3⟩, fun k => ⟨k.1, k.2, k.3⟩⟩
  obtain ⟨x, s', h1, h2, h3, h4, h5⟩ := gap_step (c := C) (w := W) (by rw [hC]; exact h) hWok hWc
    (by rw [hW]; exact hsn) (Or.inl (by rw [hW])) ((hI _).mpr hp) h0
  have hstep := h1
  simp only [step] at h1
  cases hpr : prepare C W s with
  | none => rw [hpr] at h1; simp at h1
  | some p =>
    have hpn : p.n = 0 := prepare_bare (by rw [hW]; exact hsn) h0 hpr
    obtain ⟨p', k1, k2, -⟩ := step_refines (c := C) (w := W) (by rw [hC]; exact h) hWok hWc ((hI _).mpr hp)
      (light_bare C W h0)
    rw [hpr, Option.some.injEq] at k1
    subst k1
    have hin : Inv c p := (hI _).mp k2
    rw [hpr] at h1
    have hpr' : prepare c w s = some p := by rw [← hprep]; exact hpr
    obtain ⟨-, d1, d2⟩ := dry_balance (c := c) (w := w) (s := s) (p := p) hm hq (swe_bare hin hpn).le
    obtain ⟨e0, e1, -, e3, e4⟩ := energy_none d1
    obtain ⟨f0, f1, -, f3, f4⟩ := energy_gap (b := surf C W s p)
      (Or.inr (Or.inr (Or.inl (show W.specHum = none by rw [hW]))))
    have hmo : (surf C W s p).energyBalance.moist = none := by
      rw [f4]
      unfold Surf.moistFlux
      rw [show (surf C W s p).w.specHum = none by show W.specHum = none; rw [hW]]
      cases (surf C W s p).avail <;> cases (surf C W s p).transfer <;> rfl
    have hcon : ∀ b, Heat.snowHeatConduction b p = some p := fun b => by
      simp [Heat.snowHeatConduction, hpn]
    have hmelt : (surf C W s p).energyBalance.melt = (surf c w s p).energyBalance.melt := by
      rw [f3, e3]; rfl
    have hmass : ∀ m, massStep C W s.ts m none p = massStep c w s.ts m none p := fun m => by rw [hC, hW]; rfl
    simp only [hcon, hmelt, hmo] at h1
    rw [if_neg f0] at h1
    have ets : (surf C W s p).energyBalance.ts = s.ts := f1
    have ets' : (surf c w s p).energyBalance.ts = s.ts := e1
    simp only [ets] at h1
    simp only [step, hpr', hcon, e4, d2, ets']
    rw [if_neg e0]
    cases hme : (surf c w s p).energyBalance.melt with
    | none => rw [hme] at h1; simp at h1
    | some m =>
      rw [hme] at h1
      simp only [hmass] at h1
      simp only
      cases hms : massStep c w s.ts m none p with
      | none => rw [hms] at h1; simp at h1
      | some r =>
        obtain ⟨fl, q⟩ := r
        rw [hms] at h1
        simp only [Option.some.injEq, Prod.mk.injEq] at h1
        obtain ⟨rfl, rfl⟩ := h1
        refine ⟨_, _, rfl, rfl, (hI _).mp h3, h4, ?_⟩
        rw [h5, hW]

/-- **C148.** A run of any length over bare dry soil without snowfall and with air that is not saturated with respect to
the surface: the run is defined, rain runs off and the surface keeps the temperature of the beginning for ever. -/
theorem C148_run_false (c : Site) (hm : c.moisture ≤ 0) (h : SiteOK { c with moisture := c.soil.sat })
    (ws : List Weather) (s : State)
    (hw : ∀ w ∈ ws, WeatherOK c w ∧ Coherent w ∧ (w.snow = none ∨ w.snow = some 0) ∧
      ∀ q, w.specHum = some q → q ≤ w.qsat s.ts)
    (hp : Inv c s.snow) (h0 : s.snow.n = 0) :
    ∃ xs s', run c ws s = some (xs, s') ∧ s'.ts = s.ts ∧ s'.snow.n = 0 ∧
      xs.map MultiLayer.Fluxes.runoff = ws.map fun w => w.rain.getD 0 := by
  induction ws generalizing s with
  | nil => exact ⟨[], s, rfl, rfl, h0, rfl⟩
  | cons w ws ih =>
    obtain ⟨a1, a2, a3, a4⟩ := hw w (by simp)
    obtain ⟨x, s1, b1, b2, b3, b4, b5⟩ := dry_step hm h a1 a2 a3 a4 hp h0
    obtain ⟨xs, s2, d1, d2, d4, d5⟩ := ih s1 (fun w' hw' => by rw [b2]; exact hw w' (by simp [hw'])) b3 b4
    exact ⟨x :: xs, s2, by simp only [run, b1, d1], by rw [d2, b2], d4, by simp [b5, d5]⟩

/-- **C148.** Moist soil: on bare ground the surface warms exactly if it gains energy at its present temperature, and
cools exactly if it loses energy. -/
theorem C148_moist_partial (c : Site) (h : SiteOK c) (f : Coupled.Forcing) (hf : Coupled.ForcingOK c f)
    (hn : Coupled.Natural f) (s : State) (hts : 0 < s.ts) (hp : Inv c s.snow) (h0 : s.snow.n = 0) (hsn : f.snow = 0) :
    ∃ x s' p a, step c (ofForcing f) s = some (x, s') ∧ prepare c (ofForcing f) s = some p ∧ p.n = 0 ∧
      Surface.albedo (Coupled.fraction c p) p.albedo c.soilAlbedo = some a ∧
      (s.ts < s'.ts ↔ 0 < Surface.surplus (Coupled.surfacePixel c f s p a)
        (Coupled.surfacePixel c f s p a).avail ((Coupled.surfacePixel c f s p a).latHeat s.ts) s.ts) ∧
      (s'.ts < s.ts ↔ Surface.surplus (Coupled.surfacePixel c f s p a)
        (Coupled.surfacePixel c f s p a).avail ((Coupled.surfacePixel c f s p a).latHeat s.ts) s.ts < 0) := by
  have hw : WeatherOK c (ofForcing f) := by
    refine ⟨?_, ?_, ?_⟩
    · rintro _ ⟨⟩; exact hf.snow
    · rintro _ ⟨⟩; exact hf.rain
    · rintro hl _ ⟨⟩; exact hf.wetBulb hl
  have hco : Coherent (ofForcing f) := ⟨fun _ _ _ => by simp [ofForcing], fun _ => by simp [ofForcing]⟩
  have hna : Natural (ofForcing f) := by
    refine ⟨?_, ?_, ?_, ?_⟩
    · rintro _ ⟨⟩; exact hn.temp
    · rintro _ ⟨⟩; exact hn.wind
    · rintro _ ⟨⟩; exact hn.density
    · rintro _ ⟨⟩; exact hn.latVap
  obtain ⟨x, s', hst⟩ := C143_bare c h _ hw hco hna s hts (hn.qsat _ hts) hp h0 (Or.inr (by simp [ofForcing, hsn]))
  obtain ⟨p, hprep, hinv, -⟩ := step_refines h hw hco hp (light_bare _ _ h0)
  have hpn : p.n = 0 := prepare_bare (Or.inr (by simp [ofForcing, hsn])) h0 hprep
  obtain ⟨a, ha, hphys, -⟩ := Coupled.C122_energy c h f hn s hts p hinv
  have hst0 := hst
  have hts' : s'.ts = (Coupled.surfacePixel c f s p a).energyBalance.ts := by
    simp only [step, hprep, surf_energy c f s p a h.moisture ha] at hst
    split at hst
    · simp at hst
    · split at hst
      · simp at hst
      · split at hst
        · simp at hst
        · simp only [Option.some.injEq, Prod.mk.injEq] at hst
          obtain ⟨-, rfl⟩ := hst
          rfl
  have hm : ¬ (Coupled.surfacePixel c f s p a).Melts := by
    rintro ⟨-, hi⟩
    have hz := ice_bare hinv hpn
    change 0 < (p.layers.map Layer.ice).headD 0 at hi
    cases hl : p.layers.map Layer.ice with
    | nil => rw [hl] at hi; simp at hi
    | cons y ys =>
      rw [hl] at hi hz
      simp only [List.headD_cons] at hi
      exact hi.ne' (hz y (by simp))
  obtain ⟨-, k1, k2⟩ := Surface.C79_warming _ hphys hm
  exact ⟨x, s', p, a, hst0, hprep, hpn, ha, by rw [hts']; exact k1, by rw [hts']; exact k2⟩

/-- **C148.** Snow on the ground, or air more humid than the saturated surface: the energy balance does not read the
conductance of the soil surface, NaN or not. -/
theorem C148_covered (b : Surf) (h : 0 < b.swe ∨ ∃ q, b.w.specHum = some q ∧ b.w.qsat b.ts < q) (g : Option ℝ) :
    ({ b with gs := g } : Surf).energyBalance = b.energyBalance ∧
    (({ b with gs := g } : Surf).Singular ↔ b.Singular) := by
  have ha : ({ b with gs := g } : Surf).avail = b.avail := by
    by_cases h1 : 0 < b.swe
    · simp only [Surf.avail, if_pos h1]
    · have h2 := h.resolve_left h1
      simp only [Surf.avail, if_neg h1, if_pos h2]
  have hf : ∀ q, ({ b with gs := g } : Surf).moistFlux q = b.moistFlux q := fun q => by
    simp only [Surf.moistFlux, ha]; rfl
  have hb : ∀ t, ({ b with gs := g } : Surf).balance t = b.balance t := fun t => by
    simp only [Surf.balance, Surf.latFlux, hf]; rfl
  have hsl : ({ b with gs := g } : Surf).slope = b.slope := by simp only [Surf.slope, ha]; rfl
  have ht : ∀ m, ({ b with gs := g } : Surf).tempChange m = b.tempChange m := fun m => by
    simp only [Surf.tempChange, hb, hsl]
  have hM : ({ b with gs := g } : Surf).Melts ↔ b.Melts := by simp only [Surf.Melts, ht]; rfl
  have hP : ({ b with gs := g } : Surf).Partially ↔ b.Partially := by
    unfold Surf.Partially
    rw [hM, ht]
  have hg : ∀ m, ({ b with gs := g } : Surf).groundChange m = b.groundChange m := fun m => by
    simp only [Surf.groundChange, ht]
  refine ⟨?_, by simp only [Surf.Singular, hb, hsl]⟩
  unfold Surf.energyBalance
  by_cases k1 : b.Partially
  · rw [if_pos k1, if_pos (hP.mpr k1)]
    simp only [hf, hb]
    rfl
  · rw [if_neg k1, if_neg (fun k => k1 (hP.mp k))]
    by_cases k2 : b.Melts
    · rw [if_pos k2, if_pos (hM.mpr k2)]
      simp only [hf, ht, hg]
      rfl
    · rw [if_neg k2, if_neg (fun k => k2 (hM.mp k))]
      simp only [hf, ht, hg]
      rfl

/-- **C148.** The step of a snow-covered pixel does not depend on the conductance configured for the soil surface. -/
theorem C148_covered_step (c : Site) (w : Weather) (s : State) (p : Pixel ℝ) (hp : prepare c w s = some p)
    (hs : 0 < MultiLayer.swe p) (g : ℝ) : step { c with gsat := g } w s = step c w s := by
  have hp' : prepare { c with gsat := g } w s = some p := hp
  obtain ⟨e1, e2⟩ := C148_covered (surf c w s p) (Or.inl hs) (surf { c with gsat := g } w s p).gs
  have e0 : ({ surf c w s p with gs := (surf { c with gsat := g } w s p).gs } : Surf) =
      surf { c with gsat := g } w s p := rfl
  rw [e0] at e1 e2
  simp only [step, hp, hp', e1]
  by_cases hk : (surf c w s p).Singular
  · rw [if_pos hk, if_pos (e2.mpr hk)]
  · rw [if_neg hk, if_neg (fun k => hk (e2.mp k))]
    rfl

/-! ## Witness -/

/-- `warmSite` with `init_moisture_content: 0`. -/
noncomputable def drySite : Site := { warmSite with moisture := 0 }

theorem drySite_ok : SiteOK { drySite with moisture := drySite.soil.sat } := by
  constructor <;> norm_num [drySite, warmSite, Coupled.meltSite, Coupled.exSite]
  · constructor <;> norm_num
  · constructor <;> norm_num

/-- A calm cloudy night at the temperature of the surface, 1 °C, with saturated air: 400 W/m² arrive. -/
noncomputable def cloudyHour : Coupled.Forcing where
  temp := 27415 / 100
  wetBulb := 27415 / 100
  specHum := 1 / 100
  swIn := 0
  lwIn := 400
  wind := 1
  rain := 0
  snow := 0
  density := 1
  latVap := 2500000
  qsat := fun _ => 1 / 100

theorem initial_inv_dry : Inv drySite (initial drySite).snow := by
  have := Coupled.initial_inv drySite_ok
  exact ⟨this.1, this.2, this.3⟩

theorem cloudyHour_ok : WeatherOK drySite (ofForcing cloudyHour) ∧ Coherent (ofForcing cloudyHour) := by
  refine ⟨⟨?_, ?_, ?_⟩, ⟨?_, ?_⟩⟩ <;> simp [ofForcing, cloudyHour]
  norm_num

/-- **C148.** Witness: the surface gains energy whatever the availability of moisture, and keeps its temperature however
long the weather lasts. -/
theorem C148_witness : ∃ (c : Site) (f : Coupled.Forcing), c.moisture = 0 ∧
    SiteOK { c with moisture := c.soil.sat } ∧ Coupled.ForcingOK c f ∧ Coupled.Natural f ∧
    (∀ p a ψ lat, prepare c (ofForcing f) (initial c) = some p →
      0 < Surface.surplus (Coupled.surfacePixel c f (initial c) p a) ψ lat (initial c).ts) ∧
    ∀ n, ∃ xs s', run c (List.replicate n (ofForcing f)) (initial c) = some (xs, s') ∧ s'.ts = (initial c).ts := by
  have h0 : (initial drySite).snow.n = 0 := rfl
  refine ⟨drySite, cloudyHour, rfl, drySite_ok, ?_, ?_, ?_, fun n => ?_⟩
  · constructor <;> norm_num [cloudyHour]
  · constructor <;> norm_num [cloudyHour]
  · intro p a ψ lat hp
    obtain ⟨p', k1, hin, -⟩ := step_refines (c := { drySite with moisture := drySite.soil.sat }) drySite_ok
      (w := ofForcing cloudyHour) ⟨cloudyHour_ok.1.1, cloudyHour_ok.1.2, cloudyHour_ok.1.3⟩ cloudyHour_ok.2 (s := initial drySite)
      (Coupled.initial_inv drySite_ok) (light_bare _ _ h0)
    have k2 : prepare drySite (ofForcing cloudyHour) (initial drySite) = some p' := k1
    rw [hp, Option.some.injEq] at k2
    subst k2
    have hpn : p.n = 0 := prepare_bare (Or.inr rfl) h0 hp
    have ht : Coupled.top Layer.thick p = 0 := by
      unfold Coupled.top
      cases hl : p.layers with
      | nil => rfl
      | cons L Ls => exact (hin.solid.ok.wf.inactive L (by rw [hpn, hl]; simp)).1
    have hdx : 0 < Coupled.soilDx drySite 0 := by
      have := Coupled.soilDx0_pos drySite_ok
      exact this
    have hlt : (Coupled.surfacePixel drySite cloudyHour (initial drySite) p a).layerTemp = 27415 / 100 := by
      simp only [Coupled.surfacePixel, Surface.layerTemp, ht]
      rw [if_neg (not_lt.mpr hdx.le)]
      simp [initial, drySite, warmSite]
    have hts : (initial drySite).ts = 27415 / 100 := rfl
    rw [hts]
    unfold Surface.surplus
    rw [hlt]
    norm_num [Coupled.surfacePixel, cloudyHour, Surface.sigma]
  · obtain ⟨xs, s', k1, k2, -⟩ := C148_run_false drySite (by norm_num [drySite]) drySite_ok
      (List.replicate n (ofForcing cloudyHour)) (initial drySite) (fun w hw => by
        obtain ⟨-, rfl⟩ := List.mem_replicate.mp hw
        exact ⟨cloudyHour_ok.1, cloudyHour_ok.2, Or.inr rfl, by simp [ofForcing, cloudyHour]⟩) initial_inv_dry h0
    exact ⟨xs, s', k1, k2⟩

/-- `C148_moist_partial` applies: the same weather warms moist ground. -/
example : ∃ x s', step warmSite (ofForcing cloudyHour) (initial warmSite) = some (x, s') ∧
    (initial warmSite).ts < s'.ts := by
  have h0 : (initial warmSite).snow.n = 0 := rfl
  obtain ⟨x, s', p, a, h1, h2, h3, h4, h5, -⟩ := C148_moist_partial warmSite warmSite_ok cloudyHour
    (by constructor <;> norm_num [cloudyHour]) (by constructor <;> norm_num [cloudyHour]) (initial warmSite)
    (by norm_num [initial, warmSite]) (Coupled.initial_inv warmSite_ok) h0 rfl
  refine ⟨x, s', h1, h5.mpr ?_⟩
  obtain ⟨p', k1, hin, -⟩ := step_refines warmSite_ok (w := ofForcing cloudyHour)
    ⟨cloudyHour_ok.1.1, cloudyHour_ok.1.2, cloudyHour_ok.1.3⟩ cloudyHour_ok.2 (s := initial warmSite)
    (Coupled.initial_inv warmSite_ok) (light_bare _ _ h0)
  rw [h2, Option.some.injEq] at k1
  subst k1
  have ht : Coupled.top Layer.thick p = 0 := by
    unfold Coupled.top
    cases hl : p.layers with
    | nil => rfl
    | cons L Ls => exact (hin.solid.ok.wf.inactive L (by rw [h3, hl]; simp)).1
  have hlt : (Coupled.surfacePixel warmSite cloudyHour (initial warmSite) p a).layerTemp = 27415 / 100 := by
    simp only [Coupled.surfacePixel, Surface.layerTemp, ht]
    rw [if_neg (not_lt.mpr (Coupled.soilDx0_pos warmSite_ok).le)]
    simp [initial, warmSite]
  have hts : (initial warmSite).ts = 27415 / 100 := rfl
  rw [hts]
  unfold Surface.surplus
  rw [hlt]
  norm_num [Coupled.surfacePixel, cloudyHour, Surface.sigma]

/-- `C148_covered` applies: a snow-covered pixel over dry soil. -/
example (w : Weather) (s : State) : 0 < (surf drySite w s ⟨1, [⟨1, 100, 0, 270, 0⟩], some 1⟩).swe := by
  norm_num [surf, MultiLayer.swe]

end Verif.Gaps
