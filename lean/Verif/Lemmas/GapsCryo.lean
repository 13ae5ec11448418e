import Verif.Model.GapsCryo
import Verif.Lemmas.CoupledCryo

/-!
# Lemmas for the coupled cryolayer model with missing weather data
-/

namespace Verif.GapsCryo

open Verif.Cryo (CPixel CLayer EndPixel EndLayer EndSnow Tinted InOK)
open Verif.CoupledCryo (Site Forcing SiteOK Inv cryoCfg snowLow snowHigh low palette cryoCfg_ok)

/-- The values that are present are in their physical ranges, as in `CoupledCryo.Weather`. -/
structure WeatherOK (c : Site) (w : Weather) : Prop where
  snow : ∀ x, w.snow = some x → 0 ≤ x
  rain : ∀ x, w.rain = some x → 0 ≤ x
  wind : ∀ x, w.wind = some x → 0 ≤ x
  swIn : ∀ x, w.swIn = some x → 0 ≤ x
  lwIn : ∀ x, w.lwIn = some x → c.heatFlux + 1 ≤ x
  temp : ∀ x, w.temp = some x → Verif.T0 - 65 ≤ x
  wetBulb : ∀ x, w.wetBulb = some x → 1 ≤ x ∧ (c.lwcMethod = .poreVolume → x ≤ 319)
  press : 30000 ≤ w.press
  specHum : ∀ x, w.specHum = some x → 0 ≤ x

/-- With retention in the pore volume, compaction of this step leaves no snow layer denser than ice. -/
def Light (c : Site) (w : Weather) (p : CPixel ℝ) : Prop :=
  c.lwcMethod = .poreVolume → ∀ q, compaction c w.temp p = some q →
    q.new.we ≤ 917 * q.new.thick ∧ q.old.we ≤ 917 * q.old.thick

/-- The balance at the melting point, if known, of a pixel with snow below the freezing point is at most 360 W m-2. -/
def Mild (c : Site) (w : Weather) (s : State) : Prop :=
  c.search = .secant → ∀ x, prep c w s = some x → x.Frosty → ∀ b, x.balance c Atmosphere.T0 = some b → b ≤ 360

theorem getD_nonneg {o : Option ℝ} (h : ∀ x, o = some x → 0 ≤ x) : 0 ≤ o.getD 0 := by
  cases o with
  | none => exact le_rfl
  | some x => exact h x rfl

/-! ## Snow before the energy balance -/

/-- The step inputs of `Model/CryoLayer` that correspond to results of the other parts. -/
noncomputable def inputs (c : Site) (w : Weather) (ts : Option ℝ) (d1 d2 : ℝ) (m : Cryo.MeltIn ℝ)
    (moist : Option ℝ) : Cryo.StepIn ℝ where
  snowfall := w.snow
  rainfall := w.rain
  freshDensity := fresh w
  compNew := fun _ => d1
  compOld := fun _ => d2
  aged := aged c w ts
  melt := m
  moistureFlux := moist
  firnDate := w.firnDate

theorem inputs_ok {c : Site} (h : SiteOK c) {w : Weather} (hw : WeatherOK c w) (ts : Option ℝ) {d1 d2 : ℝ}
    (h1 : 0 < d1) (h2 : 0 < d2) (h3 : c.lwcMethod = .poreVolume → d1 ≤ 917 ∧ d2 ≤ 917) (m : Cryo.MeltIn ℝ)
    (moist : Option ℝ) :
    InOK (c.lwcMethod = .poreVolume) c.albedo.min c.albedo.max (inputs c w ts d1 d2 m moist) where
  snow := getD_nonneg hw.snow
  rain := getD_nonneg hw.rain
  fresh := Coupled.freshDensity_pos w.wetBulb
  fresh1 := fun hm => by
    have : Snow.freshSnowDensity w.wetBulb ≤ 917 := by
      cases hb : w.wetBulb with
      | none => norm_num [Snow.freshSnowDensity]
      | some x => exact Coupled.freshDensity_le ((hw.wetBulb x hb).2 hm)
    simpa [inputs, fresh, iceDensity] using this
  compNew := fun _ => h1
  compNew1 := fun hm _ => by simpa [inputs, iceDensity] using (h3 hm).1
  compOld := fun _ => h2
  compOld1 := fun hm _ => by simpa [inputs, iceDensity] using (h3 hm).2
  aged := fun a hl hu => Snow.C24_albedo_in_range c.albedo h.albedo c.dt h.dt _ _ hw.snow a hl hu

theorem compaction_spec {c : Site} (h : SiteOK c) {w : Weather} (hw : WeatherOK c w) {p : CPixel ℝ} (hp : Inv c p)
    (hl : Light c w p) :
    ∃ d1 d2, 0 < d1 ∧ 0 < d2 ∧ (c.lwcMethod = .poreVolume → d1 ≤ 917 ∧ d2 ≤ 917) ∧
      ∀ ts m moist, compaction c w.temp p = Cryo.compaction (cryoCfg c) (inputs c w ts d1 d2 m moist) p := by
  have hdt : 0 ≤ c.dt / 3600 := div_nonneg h.dt.le (by norm_num)
  obtain ⟨l1, D1, d1, e1, hl1, hd1, c1, z1⟩ := CoupledCryo.anderson_layer hdt w.temp le_rfl p.new
    (CoupledCryo.mass_pos hp.pixel.new.toEndLayer)
  obtain ⟨l2, D2, d2, e2, hl2, hd2, c2, z2⟩ := CoupledCryo.anderson_layer hdt w.temp hl1 p.old
    (CoupledCryo.mass_pos hp.pixel.old.toEndLayer)
  have ha : Snow.anderson c.dt w.temp [CoupledCryo.toD p.new, CoupledCryo.toD p.old] = some [D1, D2] := by
    simp [Snow.anderson, Snow.andersonLoop, e1, e2]
  have heq : ∀ ts m moist,
      compaction c w.temp p = Cryo.compaction (cryoCfg c) (inputs c w ts d1 d2 m moist) p := by
    intro ts m moist
    simp only [compaction, ha, Cryo.compaction, cryoCfg, inputs, ← c1, ← c2]
    cases Cryo.compactFirn c.iceDens c.dt p.firn with
    | none => rfl
    | some x =>
      cases Cryo.compactIce c.iceDens p.ice with
      | none => rfl
      | some y => rfl
  refine ⟨d1, d2, hd1, hd2, fun hpv => ?_, heq⟩
  have hfi : ∃ q, compaction c w.temp p = some q ∧ q.new = Cryo.compactSnow (fun _ => d1) p.new ∧
      q.old = Cryo.compactSnow (fun _ => d2) p.old := by
    have hio := inputs_ok h hw none (d1 := 100) (d2 := 100) (by norm_num) (by norm_num) (fun _ => by norm_num)
      (.energy 0 none) none
    obtain ⟨q, hq, -⟩ := Cryo.compaction_end hp.pixel (cryoCfg_ok h) hio
    simp only [Cryo.compaction, Option.bind_eq_bind, Option.bind_eq_some_iff] at hq
    obtain ⟨x, hx, y, hy, -⟩ := hq
    refine ⟨{ p with new := Cryo.compactSnow (fun _ => d1) p.new, old := Cryo.compactSnow (fun _ => d2) p.old,
                     firn := x, ice := y }, ?_, rfl, rfl⟩
    rw [heq none (.energy 0 none) none]
    simp [Cryo.compaction, hx, hy, inputs]
  obtain ⟨q, hq, qn, qo⟩ := hfi
  obtain ⟨b1, b2⟩ := hl hpv q hq
  have key : ∀ {L : CLayer ℝ} {d : ℝ}, EndLayer L → 0 < d → (¬ 0 < L.thick → d = 100) →
      (Cryo.compactSnow (fun _ => d) L).we ≤ 917 * (Cryo.compactSnow (fun _ => d) L).thick → d ≤ 917 := by
    intro L d hL hd hz hb
    by_cases ht : 0 < L.thick
    · have hm := CoupledCryo.mass_pos hL ht
      simp only [Cryo.compactSnow, ht, if_true, CLayer.we] at hb
      rw [mul_div_assoc', le_div_iff₀ hd] at hb
      nlinarith
    · rw [hz ht]; norm_num
  rw [qn] at b1
  rw [qo] at b2
  exact ⟨key hp.pixel.new.toEndLayer hd1 z1 b1, key hp.pixel.old.toEndLayer hd2 z2 b2⟩

/-- The calls from the melt amounts on, for melt and refreezing and a moisture flux. -/
noncomputable def tail (c : Site) (w : Weather) (p : CPixel ℝ) (mi : Cryo.MeltIn ℝ) (moist : Option ℝ) :
    Option (Cryo.Fluxes ℝ × CPixel ℝ) :=
  let m := Cryo.meltAmount (cryoCfg c) mi p
  let s := Cryo.sublimation c.dt (fresh w) c.albedo.max c.single moist (Cryo.melt m.1 m.2.2)
  let r := Cryo.runoff c.lwcMethod c.maxFrac w.rain s.2
  match Cryo.updateLayers c.oldDensity c.iceDens w.firnDate (Cryo.updateProperties r.2) with
  | none => none
  | some q => some (⟨m.1, m.2.1, s.1, r.1⟩, q)

theorem prepare_spec {c : Site} (h : SiteOK c) {w : Weather} (hw : WeatherOK c w) {s : State} (hs : Inv c s.snow)
    (hl : Light c w s.snow) :
    ∃ p, prepare c w s = some p ∧ Inv c p ∧ p.swe = s.snow.swe + w.snow.getD 0 ∧
      p.iceSum = s.snow.iceSum + w.snow.getD 0 ∧
      (0 < p.depth → ∃ a, p.albedo = some a ∧ snowLow c ≤ a ∧ a ≤ snowHigh c) ∧
      ∀ m moist, ∃ e, InOK (c.lwcMethod = .poreVolume) c.albedo.min c.albedo.max e ∧
        e.snowfall = w.snow ∧ e.rainfall = w.rain ∧
        Cryo.step (cryoCfg c) e s.snow = tail c w p m moist := by
  obtain ⟨d1, d2, hd1, hd2, hd3, heq⟩ := compaction_spec h hw hs hl
  obtain ⟨p0, e0, k⟩ := Cryo.prepared_end (cryoCfg_ok h)
    (inputs_ok h hw s.ts hd1 hd2 hd3 (.energy 0 none) none) hs.pixel
  simp only at k
  obtain ⟨p2, e2⟩ : ∃ x, Cryo.updateProperties (Cryo.albedoAging c.single c.firnAlb c.iceAlb (aged c w s.ts)
      (Cryo.accumulation c.single c.albedo.max (fresh w) w.snow p0)) = x := ⟨_, rfl⟩
  have hk : (Cryo.updateProperties (Cryo.albedoAging (cryoCfg c).single (cryoCfg c).firnAlb (cryoCfg c).iceAlb
      (inputs c w s.ts d1 d2 (.energy 0 none) none).aged
      (Cryo.accumulation (cryoCfg c).single (cryoCfg c).albMax
        (inputs c w s.ts d1 d2 (.energy 0 none) none).freshDensity
        (inputs c w s.ts d1 d2 (.energy 0 none) none).snowfall p0))) = p2 := e2
  rw [hk] at k
  obtain ⟨k1, k2, k3, k4⟩ := k
  obtain ⟨t1, t2⟩ := k4 (snowLow c) (snowHigh c) (palette c) hs.firn hs.ice
  have hinv : Inv c p2 := ⟨k1, t1, t2⟩
  have hpl := palette c
  refine ⟨p2, ?_, hinv, ?_, k2, ?_, ?_⟩
  · have : compaction c w.temp s.snow = some p0 := by rw [heq s.ts (.energy 0 none) none]; exact e0
    simp only [prepare, this, e2]
  · rw [Cryo.swe_eq, Cryo.swe_eq, k2, k3]
    simp only [inputs]
    ring
  · intro hd
    have hsn : ∀ {L : CLayer ℝ}, EndSnow (c.lwcMethod = .poreVolume) c.albedo.min c.albedo.max L →
        Tinted (snowLow c) (snowHigh c) L := fun hL ht => by
      obtain ⟨a, a1, a2, a3⟩ := hL.alb ht
      exact ⟨a, a1, hpl.low.trans a2, a3.trans hpl.high⟩
    have := Cryo.top_albedo (hsn k1.new) (hsn k1.old) t1 t2 ((CoupledCryo.depth_pos_iff k1).1 hd)
    rw [← e2] at this ⊢
    rwa [CoupledCryo.update_update_albedo] at this
  · intro m moist
    refine ⟨inputs c w s.ts d1 d2 m moist, inputs_ok h hw s.ts hd1 hd2 hd3 m moist, rfl, rfl, ?_⟩
    have e0' : Cryo.compaction (cryoCfg c) (inputs c w s.ts d1 d2 m moist) s.snow = some p0 := by
      rw [← heq s.ts m moist, heq s.ts (.energy 0 none) none]; exact e0
    have e2' : (Cryo.updateProperties (Cryo.albedoAging (cryoCfg c).single (cryoCfg c).firnAlb (cryoCfg c).iceAlb
      (inputs c w s.ts d1 d2 m moist).aged
      (Cryo.accumulation (cryoCfg c).single (cryoCfg c).albMax (inputs c w s.ts d1 d2 m moist).freshDensity
        (inputs c w s.ts d1 d2 m moist).snowfall p0))) = p2 := e2
    simp only [Cryo.step, e0', Option.bind_eq_bind, Option.bind_some, e2', tail]
    simp only [cryoCfg, inputs]
    rw [← Option.bind_eq_bind]
    split
    · rename_i hq; simp [hq]
    · rename_i q hq; simp [hq]

/-! ## Surface -/

theorem exchange_none {c : Site} {w : Weather} {ts : Option ℝ} (p : CPixel ℝ)
    (h : w.temp = none ∨ ts = none ∨ w.wind = none) (f : Forcing) :
    exchange c w ts p = CoupledCryo.exchange { c with stab := none } f 0 p := by
  cases hst : c.stab with
  | none =>
    simp only [exchange, hst, CoupledCryo.exchange]
    rfl
  | some b =>
    have : ∀ zt zw z0, Surface.stability b zt zw z0 w.temp ts w.wind = 1 := by
      intro zt zw z0
      simp only [Surface.stability]
      split
      · simp_all
      · rfl
    simp only [exchange, hst, CoupledCryo.exchange, this]
    rfl

/-- Complete weather. -/
def ofForcing (f : Forcing) : Weather where
  temp := some f.temp
  wetBulb := some f.wetBulb
  specHum := some f.specHum
  press := f.press
  swIn := some f.swIn
  lwIn := some f.lwIn
  wind := some f.wind
  rain := some f.rain
  snow := some f.snow
  firnDate := f.firnDate

theorem site_nostab {c : Site} (h : SiteOK c) : SiteOK { c with stab := none } :=
  { h with stab := fun b hb => by simp at hb }

/-- The balance of complete weather is that of a pixel without gaps. -/
theorem balance_complete {c : Site} {f : Forcing} {ts : Option ℝ} {p : CPixel ℝ} {a : ℝ}
    (ha : Surface.albedo (CoupledCryo.fraction c p) p.albedo c.soilAlbedo = some a) {c' : Site} {ts' : ℝ}
    (hf : c'.heatFlux = c.heatFlux) (hd : c'.dt = c.dt)
    (hex : exchange c (ofForcing f) ts p = CoupledCryo.exchange c' f ts' p) (t : ℝ) :
    Prep.balance c ⟨p, surf c (ofForcing f) ts p⟩ t =
      some (CoupledCryo.Prep.balance c' ⟨p, CoupledCryo.surfacePixel c' f ts' p a⟩ t) := by
  simp only [Prep.balance, Gaps.Surf.netRad, surf, ha, Weather.all, ofForcing, Option.bind_some, Option.map_some,
    Gaps.Surf.sensFlux, Gaps.Surf.transfer, Prep.lat, Gaps.Surf.latHeat, Gaps.Surf.advHeat, Gaps.Surf.ice0]
  have hex' := hex
  simp only [ofForcing] at hex'
  rw [hex']
  simp only [CoupledCryo.Prep.balance, SurfaceTemp.remainder, CoupledCryo.Prep.lat, Surface.Pixel.latHeat,
    Surface.Pixel.netRad, Surface.Pixel.sensFlux, Surface.Pixel.advHeat, Surface.Pixel.transfer, Surface.Pixel.ice0,
    CoupledCryo.surfacePixel, hf, hd]
  by_cases hc : 0 < (List.map CLayer.ice (CoupledCryo.layers p)).headD 0 ∨ f.temp < Atmosphere.T0 <;> simp only [hc, if_true, if_false]

/-- Where the balance is known, all values are. -/
theorem complete_of_balance {c : Site} {w : Weather} {ts : Option ℝ} {p : CPixel ℝ} {t : ℝ}
    (h : Prep.balance c ⟨p, surf c w ts p⟩ t ≠ none) :
    (∃ f, w = ofForcing f) ∧ ∃ a, Surface.albedo (CoupledCryo.fraction c p) p.albedo c.soilAlbedo = some a := by
  obtain ⟨temp, wb, q, pr, sw, lw, u, r, sn, fd⟩ := w
  cases ha : Surface.albedo (CoupledCryo.fraction c p) p.albedo c.soilAlbedo with
  | none => simp [Prep.balance, Gaps.Surf.netRad, surf, ha] at h
  | some a =>
    refine ⟨?_, a, rfl⟩
    cases temp with
    | none => simp [Prep.balance, Prep.lat, surf, Weather.all] at h
    | some temp =>
      cases wb with
      | none => simp [Prep.balance, Gaps.Surf.advHeat, surf, Weather.all] at h
      | some wb =>
        cases q with
        | none => simp [Prep.balance, surf, Weather.all] at h
        | some q =>
          cases sw with
          | none => simp [Prep.balance, Gaps.Surf.netRad, surf, Weather.all] at h
          | some sw =>
            cases lw with
            | none => simp [Prep.balance, Gaps.Surf.netRad, surf, Weather.all] at h
            | some lw =>
              cases u with
              | none => simp [Prep.balance, Gaps.Surf.transfer, surf, Weather.all] at h
              | some u =>
                cases r with
                | none => simp [Prep.balance, Gaps.Surf.advHeat, surf, Weather.all] at h
                | some r =>
                  cases sn with
                  | none => simp [Prep.balance, Gaps.Surf.advHeat, surf, Weather.all] at h
                  | some sn => exact ⟨⟨temp, wb, q, pr, sw, lw, u, r, sn, fd⟩, rfl⟩

theorem weather_of {c : Site} {f : Forcing} (h : WeatherOK c (ofForcing f)) : CoupledCryo.Weather c f where
  snow := h.snow _ rfl
  rain := h.rain _ rfl
  wind := h.wind _ rfl
  swIn := h.swIn _ rfl
  lwIn := h.lwIn _ rfl
  temp := h.temp _ rfl
  wetBulb := (h.wetBulb _ rfl).1
  wetBulb_le := (h.wetBulb _ rfl).2
  press := h.press
  specHum := h.specHum _ rfl

/-- Weather of the site without stability correction. -/
theorem weather_nostab {c : Site} {f : Forcing} (h : CoupledCryo.Weather c f) :
    CoupledCryo.Weather { c with stab := none } f := { h with }

/-- Surface albedo of a prepared pixel. -/
theorem surf_albedo {c : Site} (h : SiteOK c) {p : CPixel ℝ} (hp : Inv c p)
    (halb : 0 < p.depth → ∃ a, p.albedo = some a ∧ snowLow c ≤ a ∧ a ≤ snowHigh c) :
    ∃ a, Surface.albedo (CoupledCryo.fraction c p) p.albedo c.soilAlbedo = some a ∧ low c ≤ a ∧ a ≤ 1 := by
  obtain ⟨hf0, hf1, -, hfz, -⟩ := Snow.C27_area_fraction c.depthScale ((CoupledCryo.layers p).map CoupledCryo.toD)
    (by rw [CoupledCryo.depth_eq]; exact CoupledCryo.depth_nonneg hp.pixel)
  have hsoil : low c ≤ c.soilAlbedo := min_le_right _ _
  by_cases hd : 0 < p.depth
  · obtain ⟨al, hal, l, u⟩ := halb hd
    have l := (min_le_left (snowLow c) c.soilAlbedo).trans l
    have u := u.trans (CoupledCryo.snowHigh_le h)
    obtain ⟨⟨a, ha, l', u'⟩, -⟩ := Surface.C77_albedo (CoupledCryo.fraction c p) hf0 hf1 al c.soilAlbedo
    exact ⟨a, by rw [hal]; exact ha, (le_min l hsoil).trans l', u'.trans (max_le u h.albedo_le.2.2.2)⟩
  · have : CoupledCryo.fraction c p = 0 :=
      hfz.mpr (by rw [CoupledCryo.depth_eq]; exact le_antisymm (not_lt.1 hd) (CoupledCryo.depth_nonneg hp.pixel))
    rw [this]
    exact ⟨_, (Surface.C77_albedo 0 le_rfl zero_le_one 0 c.soilAlbedo).2.1 p.albedo, hsoil, h.albedo_le.2.2.2⟩

/-- A known balance of a pixel with frost is a function for which the iteration ends. -/
theorem ends {c : Site} (h : SiteOK c) {w : Weather} (hw : WeatherOK c w) {s : State} (hs : Inv c s.snow)
    (hl : Light c w s.snow) (hm : Mild c w s) (hsec : c.search = .secant) {x : Prep} (hx : prep c w s = some x)
    (hfr : x.Frosty) (hb : x.balance c Atmosphere.T0 ≠ none) :
    SurfaceTemp.Ends (fun t => (x.balance c t).getD 0) (Atmosphere.T0 - 10) Atmosphere.T0 := by
  obtain ⟨p, hp, hi, -, -, halb, -⟩ := prepare_spec h hw hs hl
  have hxp : x = ⟨p, surf c w s.ts p⟩ := by
    simp only [prep, hp, Option.map_some, Option.some.injEq] at hx
    exact hx.symm
  subst hxp
  obtain ⟨⟨f, rfl⟩, -⟩ := complete_of_balance hb
  obtain ⟨a, ha, -, ha1⟩ := surf_albedo h hi halb
  have hwf := weather_of hw
  have hT : CoupledCryo.Site.dt c = c.dt := rfl
  have hfrost : f.temp < Verif.T0 := by
    obtain ⟨-, t, ht, htT⟩ := hfr
    have : f.temp = t := Option.some.inj ht
    rw [this, CoupledCryo.T0_eq]; exact htT
  have main : ∀ (c' : Site) (ts' : ℝ), SiteOK c' → CoupledCryo.Weather c' f → c'.heatFlux = c.heatFlux → c'.dt = c.dt →
      Inv c' p → exchange c (ofForcing f) s.ts p = CoupledCryo.exchange c' f ts' p →
      SurfaceTemp.Ends (fun t => (Prep.balance c ⟨p, surf c (ofForcing f) s.ts p⟩ t).getD 0) (Atmosphere.T0 - 10)
        Atmosphere.T0 := by
    intro c' ts' h' hw' hhf hdt hi' hex
    have hbal := balance_complete (ts := s.ts) (a := a) ha hhf hdt hex
    have h360 := hm hsec _ hx hfr _ (hbal Atmosphere.T0)
    rw [← CoupledCryo.T0_eq] at h360
    have hpos := CoupledCryo.exchange_pos h' hw' ts' hi'
    have := SurfaceTemp.ends_frost (CoupledCryo.frost h'.dt hw' ha1 hpos hfrost h360)
    have heq : (fun t => (Prep.balance c ⟨p, surf c (ofForcing f) s.ts p⟩ t).getD 0) =
        SurfaceTemp.remainder (CoupledCryo.surfacePixel c' f ts' p a) 1
          (CoupledCryo.Prep.lat ⟨p, CoupledCryo.surfacePixel c' f ts' p a⟩) c'.heatFlux := by
      funext t
      rw [hbal t]
      rfl
    rw [heq]
    exact this
  cases hts : s.ts with
  | none =>
    exact hts ▸ main { c with stab := none } 0 (site_nostab h) (weather_nostab hwf) rfl rfl ⟨hi.pixel, hi.firn, hi.ice⟩
      (exchange_none p (Or.inr (Or.inl hts)) f)
  | some ts =>
    refine hts ▸ main c ts h hwf rfl rfl hi ?_
    rw [hts]
    rfl

/-- The balance condition holds if complete weather below the freezing point is not too sunny or humid. -/
theorem mild {c : Site} (h : SiteOK c) {w : Weather} (hw : WeatherOK c w)
    (hsh : ∀ f, w = ofForcing f → CoupledCryo.Shade c f) {s : State} (hs : Inv c s.snow) (hl : Light c w s.snow) :
    Mild c w s := by
  intro _ x hx hfr b hb
  obtain ⟨p, hp, hi, -, -, halb, -⟩ := prepare_spec h hw hs hl
  have hxp : x = ⟨p, surf c w s.ts p⟩ := by
    simp only [prep, hp, Option.map_some, Option.some.injEq] at hx
    exact hx.symm
  subst hxp
  obtain ⟨⟨f, rfl⟩, -⟩ := complete_of_balance (t := Atmosphere.T0) (by rw [hb]; simp)
  obtain ⟨a, ha, ha0, ha1⟩ := surf_albedo h hi halb
  have hwf := weather_of hw
  have hfrost : f.temp < Verif.T0 := by
    obtain ⟨-, t, ht, htT⟩ := hfr
    have : f.temp = t := Option.some.inj ht
    rw [this, CoupledCryo.T0_eq]; exact htT
  have main : ∀ (c' : Site) (ts' : ℝ), SiteOK c' → CoupledCryo.Weather c' f → CoupledCryo.Shade c' f → low c' = low c →
      c'.heatFlux = c.heatFlux → c'.dt = c.dt → Inv c' p →
      exchange c (ofForcing f) s.ts p = CoupledCryo.exchange c' f ts' p → b ≤ 360 := by
    intro c' ts' h' hw' hsh' hlow hhf hdt hi' hex
    have := CoupledCryo.balance_mild (ts := ts') (p := p) (a := a) h' hw' hsh' (hlow ▸ ha0) ha1
      (CoupledCryo.exchange_pos h' hw' ts' hi') hfrost
    rw [balance_complete (ts := s.ts) (a := a) ha hhf hdt hex, Option.some.injEq] at hb
    rw [← hb, ← CoupledCryo.T0_eq]
    exact this
  have hshf := hsh f rfl
  cases hts : s.ts with
  | none =>
    exact main { c with stab := none } 0 (site_nostab h) (weather_nostab hwf) ⟨hshf.humidity, hshf.radiation⟩ rfl rfl rfl
      ⟨hi.pixel, hi.firn, hi.ice⟩ (exchange_none p (Or.inr (Or.inl hts)) f)
  | some ts =>
    refine main c ts h hwf hshf rfl rfl rfl hi ?_
    rw [hts]
    rfl

/-! ## After the search -/

/-- The melt input of a step. -/
noncomputable def meltIn (c : Site) (w : Weather) (x : Prep) : Cryo.MeltIn ℝ :=
  match w.temp with
  | none => .energy Verif.T0 none
  | some t => .energy t (x.balance c Atmosphere.T0)

theorem meltAmount_none (c : Cryo.Cfg ℝ) (t : ℝ) (p : CPixel ℝ) : Cryo.meltAmount c (.energy t none) p = (0, 0, p) := by
  unfold Cryo.meltAmount
  simp only
  split_ifs with h1 h2
  · simp [Cryo.ebMelt, Cryo.ebLayer]
  · simp [Cryo.refreeze, Cryo.refreezeLayer, Cryo.availableCold]
  · rfl

theorem melting_eq (c : Site) (w : Weather) (x : Prep) :
    melting c w x = Cryo.meltAmount (cryoCfg c) (meltIn c w x) x.snow := by
  unfold melting meltIn
  cases w.temp with
  | none => simp only [meltAmount_none]
  | some t => rfl

theorem massStep_tail (c : Site) (w : Weather) (x : Prep) (te : ℝ) :
    massStep c w x te = tail c w x.snow (meltIn c w x) (moisture x te) := by
  simp only [massStep, tail, melting_eq]
  rfl

theorem melting_still {c : Site} {w : Weather} {x : Prep} (h : w.temp = none ∨ x.balance c Atmosphere.T0 = none) :
    melting c w x = (0, 0, x.snow) := by
  unfold melting
  cases ht : w.temp with
  | none => rfl
  | some t =>
    have := h.resolve_left (by simp [ht])
    simp only [this, meltAmount_none]

end Verif.GapsCryo
