import Verif.Lemmas.Gaps

/-!
# C143: gaps in the weather data end with the gap
-/

namespace Verif.Gaps

open Verif.MultiLayer (Pixel Layer LwcMethod)
open Verif.Coupled (Site State SiteOK Inv mlCfg mlCfg_ok AlbedoOK SnowOK ForcingOK initial initial_inv snowOK_iff)

/-- In the course of the run compaction leaves no layer denser than ice (`C143_light`: a matter of configuration for
all options except Anderson compaction with retention in the pore volume). -/
def LightRun (c : Site) : List Weather → State → Prop
  | [], _ => True
  | w :: ws, s => Light c w s.snow ∧ ∀ x s', step c w s = some (x, s') → LightRun c ws s'

/-- Values that are present are in their physical ranges. -/
structure Natural (w : Weather) : Prop where
  temp : ∀ x, w.temp = some x → 0 < x
  wind : ∀ x, w.wind = some x → 0 ≤ x
  density : ∀ x, w.density = some x → 0 ≤ x
  latVap : ∀ x, w.latVap = some x → 0 < x

/-- After heat conduction a layer holds enough heat to melt all its ice. -/
def HotLayer (c : Site) (w : Weather) (s : State) : Prop :=
  ∃ p p2, prepare c w s = some p ∧
    Heat.snowHeatConduction (Coupled.boundary c s (surf c w s p).energyBalance.ground) p = some p2 ∧
    ∃ L ∈ p2.layers.take p2.n, LF * L.ice ≤ (L.temp - T0) * L.heatCap

/-- After melt and sublimation of the step, snow thinner than 1e-6 m remains in a pack with an emptied layer. -/
def Remainder (c : Site) (w : Weather) (s : State) : Prop :=
  ∃ p m p2 r, prepare c w s = some p ∧ (surf c w s p).energyBalance.melt = some m ∧
    Heat.snowHeatConduction (Coupled.boundary c s (surf c w s p).energyBalance.ground) p = some p2 ∧
    (MultiLayer.sublimation c.dt (surf c w s p).energyBalance.ts c.albedo.max (w.temp.getD 0)
      (Snow.freshSnowDensity w.wetBulb) (surf c w s p).energyBalance.moist (MultiLayer.melt m p2).2).2 = some r ∧
    0 < MultiLayer.depth r ∧ MultiLayer.depth r < 1 / 1000000 ∧ ∃ L ∈ r.layers.take r.n, L.thick = 0

section aux

theorem prepare_ofForcing (c : Site) (f : Coupled.Forcing) (s : State) :
    prepare c (ofForcing f) s = Coupled.prepare c f s := by
  have hc : compaction c (some f.temp) s.snow = Coupled.compaction c f.temp s.snow := rfl
  simp only [prepare, Coupled.prepare, ofForcing, hc]
  cases Coupled.compaction c f.temp s.snow with
  | none => rfl
  | some p =>
    simp only [accumulation]
    rw [if_neg (by simp)]
    simp only [ageing, Coupled.ageing, Option.getD_some]
    cases c.ageByAir <;> rfl

theorem step_ofForcing {c : Site} (hmo : 0 < c.moisture) {f : Coupled.Forcing} {s : State}
    (hp : ∀ p, Coupled.prepare c f s = some p → Inv c p) : step c (ofForcing f) s = Coupled.step c f s := by
  simp only [step, Coupled.step, prepare_ofForcing]
  cases hprep : Coupled.prepare c f s with
  | none => rfl
  | some p =>
    obtain ⟨a, ha⟩ := albedo_some (hp p hprep)
    simp only [Coupled.energy, ha]
    by_cases hs : s.ts = 0 ∨ Coupled.denominator (Coupled.surfacePixel c f s p a) = 0
    · rw [if_pos ((surf_singular c f s p a hmo ha).mpr hs), if_pos hs]
    · rw [if_neg (fun h => hs ((surf_singular c f s p a hmo ha).mp h)), if_neg hs, surf_energy c f s p a hmo ha]
      simp only
      cases Heat.snowHeatConduction
        (Coupled.boundary c s (Coupled.surfacePixel c f s p a).energyBalance.ground) p with
      | none => rfl
      | some p2 =>
        simp only [massStep]
        rw [if_neg (by simp [ofForcing])]
        rfl

theorem step_inv {c : Site} (h : SiteOK c) {w : Weather} (hw : WeatherOK c w) (hc : Coherent w) {s s' : State}
    {x : MultiLayer.Fluxes ℝ} (hp : Inv c s.snow) (hl : Light c w s.snow) (hst : step c w s = some (x, s')) :
    Inv c s'.snow ∧ 0 ≤ x.runoff ∧ 0 ≤ x.refreezing ∧ 0 ≤ x.melt ∧ ∃ deleted : ℝ,
      MultiLayer.swe s'.snow =
        MultiLayer.swe s.snow + w.snow.getD 0 + w.rain.getD 0 - x.sublimation - x.runoff - deleted ∧
      0 ≤ deleted ∧ (c.lwcMethod = .poreVolume → deleted < iceDensity / 1000000) ∧
      (deleted ≠ 0 → s'.snow.n = 0) := by
  obtain ⟨p, hprep, hinv, g, m, u, hpg, -, -, -, hin, -, hbm, heq⟩ := step_refines h hw hc hp hl
  rw [heq (not_singular hprep hst)] at hst
  cases hms : MultiLayer.step (mlCfg c)
      (inputs c w s.ts g u m (surf c w s p).energyBalance.ts (surf c w s p).energyBalance.moist) s.snow with
  | none => rw [hms] at hst; simp at hst
  | some r =>
    obtain ⟨fl, q⟩ := r
    rw [hms] at hst
    simp only [Option.map_some, Option.some.injEq, Prod.mk.injEq] at hst
    obtain ⟨rfl, rfl⟩ := hst
    obtain ⟨-, h2, h3, h4, d, h5, h6, h7, h8⟩ :=
      MultiLayer.C18_step_water_balance (mlCfg c) (mlCfg_ok h) _ hin _ _ _ hp.solid.ok hms
    have hsol := MultiLayer.C121_solid (mlCfg c) (mlCfg_ok h) _ hin _ _ _ hp.solid hms
    have halb : AlbedoOK c.albedo.min (mlCfg c).albMax q := by
      refine Coupled.step_albedo (mlCfg_ok h) hin hp.solid h.albedo.range ?_ hms
      rw [hbm]
      exact ⟨hinv.snow, hinv.bare⟩
    exact ⟨⟨hsol, halb.1, halb.2⟩, h2, h3, h4, d, h5, h6, h7, fun hd => (h8 hd).2⟩

theorem not_singular_of_pos {c : Site} (h : SiteOK c) {w : Weather} (hn : Natural w) {s : State} (hs : 0 < s.ts)
    (hq : 0 ≤ w.qsat s.ts) {p : Pixel ℝ} (hp : Inv c p) : ¬ (surf c w s p).Singular := by
  rcases complete_or w with hw | ⟨f, rfl⟩
  · exact (energy_gap (b := surf c w s p) hw).1
  · have hf : Coupled.Natural { f with qsat := fun _ => f.qsat s.ts } :=
      ⟨hn.temp _ rfl, hn.wind _ rfl, hn.density _ rfl, hn.latVap _ rfl, fun _ _ => hq⟩
    obtain ⟨a, ha, -, he⟩ := Coupled.C122_energy c h _ hf s hs p hp
    rw [surf_singular c f s p a h.moisture ha]
    intro hc
    have hc' : s.ts = 0 ∨ Coupled.denominator
        (Coupled.surfacePixel c { f with qsat := fun _ => f.qsat s.ts } s p a) = 0 := hc
    simp only [Coupled.energy, ha] at he
    rw [if_pos hc'] at he
    simp at he

end aux

/-- **C143.** With complete data the model with gaps is the model without: a run of any length gives the same fluxes and
the same state, or NaN in both. -/
theorem C143_complete (c : Site) (h : SiteOK c) (fs : List Coupled.Forcing) (hf : ∀ f ∈ fs, ForcingOK c f)
    (hl : Coupled.LightRun c fs (initial c)) :
    run c (fs.map ofForcing) (initial c) = Coupled.run c fs (initial c) := by
  have key : ∀ (fs : List Coupled.Forcing) (s : State), (∀ f ∈ fs, ForcingOK c f) → Coupled.LightRun c fs s →
      Inv c s.snow → run c (fs.map ofForcing) s = Coupled.run c fs s := by
    intro fs
    induction fs with
    | nil => intro s _ _ _; rfl
    | cons f fs ih =>
      intro s hf hl h0
      have hst : step c (ofForcing f) s = Coupled.step c f s := step_ofForcing h.moisture fun p hp => by
        obtain ⟨p', hp', hinv, -⟩ := Coupled.step_refines h (hf f (by simp)) h0 hl.1
        rw [hp, Option.some.injEq] at hp'
        rw [hp']
        exact hinv
      simp only [List.map_cons, run, Coupled.run, hst]
      cases hs : Coupled.step c f s with
      | none => rfl
      | some r =>
        obtain ⟨x, s'⟩ := r
        simp only
        rw [ih s' (fun f' hf' => hf f' (by simp [hf'])) (hl.2 x s' hs)
          (Coupled.step_inv h (hf f (by simp)) h0 hl.1 hs).1]
        rfl
  exact key fs _ hf hl (initial_inv h)

/-- **C143.** A run of any length from the initial state with any pattern of missing values: contents and thickness of
active layers are positive (liquid water not negative), other slots are empty, an albedo in the configured range is
present exactly where snow lies, and snow water equals precipitation (missing values counted as none) minus sublimation
and runoff, minus remainders thinner than 1e-6 m that are deleted. -/
theorem C143_run (c : Site) (h : SiteOK c) (ws : List Weather) (hw : ∀ w ∈ ws, WeatherOK c w ∧ Coherent w)
    (hl : LightRun c ws (initial c)) (xs : List (MultiLayer.Fluxes ℝ)) (s : State)
    (hr : run c ws (initial c) = some (xs, s)) :
    SnowOK c s.snow ∧ xs.length = ws.length ∧ (∀ x ∈ xs, 0 ≤ x.runoff ∧ 0 ≤ x.refreezing ∧ 0 ≤ x.melt) ∧
    ∃ deleted : List ℝ, deleted.length = ws.length ∧
      (∀ d ∈ deleted, 0 ≤ d ∧ (c.lwcMethod = .poreVolume → d < 917 / 1000000)) ∧
      (s.snow.layers.map fun L => L.ice + L.lwc).sum = (ws.map fun w => w.snow.getD 0 + w.rain.getD 0).sum -
        (xs.map fun x => x.sublimation + x.runoff).sum - deleted.sum := by
  have key : ∀ (ws : List Weather) (s0 : State) (xs : List (MultiLayer.Fluxes ℝ)) (s : State),
      (∀ w ∈ ws, WeatherOK c w ∧ Coherent w) → LightRun c ws s0 → Inv c s0.snow → run c ws s0 = some (xs, s) →
      Inv c s.snow ∧ xs.length = ws.length ∧ (∀ x ∈ xs, 0 ≤ x.runoff ∧ 0 ≤ x.refreezing ∧ 0 ≤ x.melt) ∧
      ∃ deleted : List ℝ, deleted.length = ws.length ∧
        (∀ d ∈ deleted, 0 ≤ d ∧ (c.lwcMethod = .poreVolume → d < 917 / 1000000)) ∧
        MultiLayer.swe s.snow = MultiLayer.swe s0.snow + (ws.map fun w => w.snow.getD 0 + w.rain.getD 0).sum -
          (xs.map fun x => x.sublimation + x.runoff).sum - deleted.sum := by
    intro ws
    induction ws with
    | nil =>
      intro s0 xs s _ _ h0 hr
      simp only [run, Option.some.injEq, Prod.mk.injEq] at hr
      obtain ⟨rfl, rfl⟩ := hr
      exact ⟨h0, rfl, by simp, [], rfl, by simp, by simp⟩
    | cons w ws ih =>
      intro s0 xs s hw hl h0 hr
      simp only [run] at hr
      split at hr
      · simp at hr
      rename_i x s1 hst
      split at hr
      · simp at hr
      rename_i ys s2 hrun
      simp only [Option.some.injEq, Prod.mk.injEq] at hr
      obtain ⟨rfl, rfl⟩ := hr
      obtain ⟨h1, h2, h3, h4, d, h5, h6, h7, -⟩ :=
        step_inv h (hw w (by simp)).1 (hw w (by simp)).2 h0 hl.1 hst
      obtain ⟨k1, k2, k3, ds, k4, k5, k6⟩ := ih s1 ys s2 (fun w' hw' => hw w' (by simp [hw'])) (hl.2 x s1 hst) h1 hrun
      refine ⟨k1, by simp [k2], ?_, d :: ds, by simp [k4], ?_, ?_⟩
      · intro y hy
        rcases List.mem_cons.mp hy with rfl | hy
        · exact ⟨h2, h3, h4⟩
        · exact k3 y hy
      · intro y hy
        rcases List.mem_cons.mp hy with rfl | hy
        · exact ⟨h6, fun hm => by simpa [iceDensity] using h7 hm⟩
        · exact k5 y hy
      · simp only [List.map_cons, List.sum_cons]
        linarith
  obtain ⟨k1, k2, k3, ds, k4, k5, k6⟩ := key ws (initial c) xs s hw hl (initial_inv h) hr
  refine ⟨snowOK_iff k1, k2, k3, ds, k4, k5, ?_⟩
  have h0 : MultiLayer.swe (initial c).snow = 0 := by
    simp [MultiLayer.swe, initial]
  have h1 : MultiLayer.swe s.snow = (s.snow.layers.map fun L => L.ice + L.lwc).sum := rfl
  rw [← h1, k6, h0]
  ring

/-- **C143.** With retention as a mass fraction, or empirical compaction towards at most the density of ice, no
assumption about compaction is needed. -/
theorem C143_light (c : Site) (h : SiteOK c)
    (hm : c.lwcMethod ≠ .poreVolume ∨ ∃ e, c.compaction = .empirical e ∧ e.maxCold ≤ 917 ∧ e.maxMelting ≤ 917)
    (ws : List Weather) (hw : ∀ w ∈ ws, WeatherOK c w ∧ Coherent w) : LightRun c ws (initial c) := by
  have hlight : ∀ w p, Inv c p → Light c w p := by
    intro w p hp hm' q hq
    rcases hm with hm | ⟨e, he, h1, h2⟩
    · exact absurd hm' hm
    · have f : Coupled.Forcing := ⟨0, 0, 0, 0, 0, 0, 0, 0, 0, 0, fun _ => 0⟩
      refine Coupled.light_of_cfg h (Or.inr ⟨e, he, h1, h2⟩) f p hp hm' q ?_
      have : Coupled.compaction c f.temp p = compaction c w.temp p := by
        simp only [Coupled.compaction, compaction, Coupled.compactLayers, compactLayers, he]
        cases ((p.layers.take p.n).map Coupled.toD).mapM (Snow.empiricalLayer e c.dt) <;> rfl
      rw [this, hq]
  have key : ∀ (ws : List Weather) (s : State), (∀ w ∈ ws, WeatherOK c w ∧ Coherent w) → Inv c s.snow →
      LightRun c ws s := by
    intro ws
    induction ws with
    | nil => intro s _ _; trivial
    | cons w ws ih =>
      intro s hw hs
      refine ⟨hlight w _ hs, fun x s' hst => ih s' (fun w' hw' => hw w' (by simp [hw'])) ?_⟩
      exact (step_inv h (hw w (by simp)).1 (hw w (by simp)).2 hs (hlight w _ hs) hst).1
  exact key ws _ hw (initial_inv h)

/-- **C143.** Exactly when a time step with any missing values gives NaN in the snowpack, for a surface above absolute
zero (at which the saturation humidity is not negative) and no layer hot enough to melt by itself: if melt and sublimation leave a remainder thinner than 1e-6 m in a pack
in which a layer was emptied. Missing values by themselves never do. -/
theorem C143_undefined_iff (c : Site) (h : SiteOK c) (w : Weather) (hw : WeatherOK c w) (hc : Coherent w)
    (hn : Natural w) (s : State) (hs : 0 < s.ts) (hq : 0 ≤ w.qsat s.ts) (hp : Inv c s.snow) (hl : Light c w s.snow)
    (hhot : ¬ HotLayer c w s) : step c w s = none ↔ Remainder c w s := by
  obtain ⟨p, hprep, hinv, g, m, u, hpg, hm, hm0, hmt, hin, hcond, hbm, heq⟩ := step_refines h hw hc hp hl
  have hsing := not_singular_of_pos h hn hs hq hinv
  have hmod : MultiLayer.Moderate (mlCfg c)
      (inputs c w s.ts g u m (surf c w s p).energyBalance.ts (surf c w s p).energyBalance.moist) s.snow := by
    refine ⟨?_, hmt⟩
    intro L hL
    rw [hbm] at hL
    by_contra hc
    exact hhot ⟨p, _, hprep, hcond, L, hL, Coupled.hHeat L hc⟩
  have hiff := MultiLayer.C121_undefined_iff (mlCfg c) (mlCfg_ok h) _ hin s.snow hp.solid hmod
  rw [heq hsing, Option.map_eq_none_iff, hiff]
  constructor
  · rintro ⟨r, h1, h2, h3, h4⟩
    rw [hbm] at h1
    exact ⟨p, m, _, r, hprep, hm, hcond, h1, h2, h3, h4⟩
  · rintro ⟨p', m', p2, r, h1, h2, h3, h4, h5, h6, h7⟩
    rw [hprep, Option.some.injEq] at h1
    subst h1
    rw [hm, Option.some.injEq] at h2
    subst h2
    rw [hcond, Option.some.injEq] at h3
    subst h3
    refine ⟨r, ?_, h5, h6, h7⟩
    rw [hbm]
    exact h4

/-- **C143.** If a run with any missing values gives NaN in the snowpack then after some number of steps from the
initial state the surface is at or below absolute zero or so hot that the saturation humidity is negative, or a layer holds enough heat to melt by itself, or a thin
remainder is left – the same situations as without gaps (C122). That ordinary weather excludes them is not
shown. -/
theorem C143_nan_partial (c : Site) (h : SiteOK c) (ws : List Weather)
    (hw : ∀ w ∈ ws, WeatherOK c w ∧ Coherent w ∧ Natural w)
    (hl : LightRun c ws (initial c)) (hr : run c ws (initial c) = none) :
    ∃ (i : ℕ) (w : Weather) (xs : List (MultiLayer.Fluxes ℝ)) (s : State), ws[i]? = some w ∧
      run c (ws.take i) (initial c) = some (xs, s) ∧ SnowOK c s.snow ∧
      (s.ts ≤ 0 ∨ w.qsat s.ts < 0 ∨ HotLayer c w s ∨ Remainder c w s) := by
  have key : ∀ (ws : List Weather) (s0 : State), (∀ w ∈ ws, WeatherOK c w ∧ Coherent w ∧ Natural w) →
      LightRun c ws s0 → Inv c s0.snow → run c ws s0 = none →
      ∃ (i : ℕ) (w : Weather) (xs : List (MultiLayer.Fluxes ℝ)) (s : State), ws[i]? = some w ∧
        run c (ws.take i) s0 = some (xs, s) ∧ SnowOK c s.snow ∧
        (s.ts ≤ 0 ∨ w.qsat s.ts < 0 ∨ HotLayer c w s ∨ Remainder c w s) := by
    intro ws
    induction ws with
    | nil => intro s0 _ _ _ hr; simp [run] at hr
    | cons w ws ih =>
      intro s0 hw hl h0 hr
      obtain ⟨a1, a2, a3⟩ := hw w (by simp)
      cases hst : step c w s0 with
      | none =>
        refine ⟨0, w, [], s0, rfl, rfl, snowOK_iff h0, ?_⟩
        by_contra hc
        push Not at hc
        obtain ⟨h1, hq, h2, h3⟩ := hc
        exact h3 ((C143_undefined_iff c h w a1 a2 a3 s0 h1 hq h0 hl.1 h2).mp hst)
      | some r =>
        obtain ⟨x, s1⟩ := r
        have hrun : run c ws s1 = none := by
          simp only [run, hst] at hr
          cases hr' : run c ws s1 with
          | none => rfl
          | some y => rw [hr'] at hr; simp at hr
        obtain ⟨i, w', xs, s, k1, k2, k3, k4⟩ := ih s1 (fun w' hw' => hw w' (by simp [hw'])) (hl.2 x s1 hst)
          (step_inv h a1 a2 h0 hl.1 hst).1 hrun
        refine ⟨i + 1, w', x :: xs, s, by simpa using k1, ?_, k3, k4⟩
        simp only [List.take_succ_cons, run, hst, k2]
  exact key ws _ hw hl (initial_inv h) hr

/-- **C143.** While any of the ten values is missing the surface keeps its temperature; where it is not above the
melting point the energy balance asks for no melt (if moreover no layer is above the melting point after heat
conduction, none melts); without wind, humidity or air density nothing sublimates and no hoar forms. -/
theorem C143_still (c : Site) (h : SiteOK c) (w : Weather) (hw : WeatherOK c w) (hc : Coherent w)
    (hi : w.temp = none ∨ w.wetBulb = none ∨ w.specHum = none ∨ w.swIn = none ∨ w.lwIn = none ∨ w.wind = none ∨
      w.rain = none ∨ w.snow = none ∨ w.density = none ∨ w.latVap = none)
    (s s' : State) (x : MultiLayer.Fluxes ℝ) (hp : Inv c s.snow) (hl : Light c w s.snow)
    (hst : step c w s = some (x, s')) :
    s'.ts = s.ts ∧
    (s.ts ≤ T0 → ∃ p p2, prepare c w s = some p ∧ (surf c w s p).energyBalance.melt = some 0 ∧
      Heat.snowHeatConduction (Coupled.boundary c s (surf c w s p).energyBalance.ground) p = some p2 ∧
      ((∀ L ∈ p2.layers.take p2.n, L.temp ≤ T0) → x.melt = 0)) ∧
    (w.specHum = none ∨ w.wind = none ∨ w.density = none → x.sublimation = 0) := by
  have hi' : Incomplete w := hi
  obtain ⟨p, hprep, hinv, g, m, u, hpg, hm, hm0, hmt, hin, hcond, hbm, heq⟩ := step_refines h hw hc hp hl
  obtain ⟨hsing, e1, e2, e3, e4⟩ := energy_gap (b := surf c w s p) hi'
  rw [heq hsing] at hst
  cases hms : MultiLayer.step (mlCfg c)
      (inputs c w s.ts g u m (surf c w s p).energyBalance.ts (surf c w s p).energyBalance.moist) s.snow with
  | none => rw [hms] at hst; simp at hst
  | some r =>
    obtain ⟨fl, q⟩ := r
    rw [hms] at hst
    simp only [Option.map_some, Option.some.injEq, Prod.mk.injEq] at hst
    obtain ⟨rfl, rfl⟩ := hst
    have hfl : fl.melt = (MultiLayer.melt m (MultiLayer.conduct u p)).1 ∧
        fl.sublimation = MultiLayer.sublAmount c.dt (surf c w s p).energyBalance.ts
          (surf c w s p).energyBalance.moist (MultiLayer.melt m (MultiLayer.conduct u p)).2 := by
      rw [← hbm]
      simp only [MultiLayer.step] at hms
      split at hms
      · simp at hms
      · split at hms
        · simp at hms
        · simp only [Option.some.injEq, Prod.mk.injEq] at hms
          obtain ⟨rfl, -⟩ := hms
          exact ⟨rfl, rfl⟩
    have hT : (T0 : ℝ) = Atmosphere.T0 := by norm_num [T0, Atmosphere.T0]
    refine ⟨e1, ?_, ?_⟩
    · intro hts
      have hm' : (surf c w s p).energyBalance.melt = some 0 := by
        rw [e3, if_neg]
        rintro ⟨h1, -⟩
        have : (surf c w s p).ts = s.ts := rfl
        rw [this] at h1
        rw [hT] at hts
        linarith
      refine ⟨p, _, hprep, hm', hcond, ?_⟩
      intro hcold
      rw [hm, Option.some.injEq] at hm'
      rw [hfl.1, hm']
      have hloop : ∀ (Ls : List (Layer ℝ)), (∀ L ∈ Ls, L.temp ≤ T0) →
          (∀ L ∈ Ls, 0 ≤ L.heatCap) → (MultiLayer.meltLoop ⟨0, 0⟩ Ls).1 = ⟨0, 0⟩ := by
        intro Ls
        induction Ls with
        | nil => intro _ _; rfl
        | cons L Ls ih =>
          intro h1 h2
          have hcc : ¬ L.heatCap * (T0 - L.temp) < 0 :=
            not_lt.mpr (mul_nonneg (h2 L (by simp)) (sub_nonneg.mpr (h1 L (by simp))))
          have hL : (MultiLayer.meltLayer ⟨0, 0⟩ L).1 = ⟨0, 0⟩ := by
            simp [MultiLayer.meltLayer, hcc]
          simp only [MultiLayer.meltLoop, hL]
          exact ih (fun M hM => h1 M (by simp [hM])) (fun M hM => h2 M (by simp [hM]))
      have hheat : ∀ L ∈ (MultiLayer.conduct u p).layers.take (MultiLayer.conduct u p).n, 0 ≤ L.heatCap := by
        intro L hL
        have hL1 : L ∈ (p.layers.take p.n).mapIdx (fun k (L : Layer ℝ) => { L with temp := u k }) := by
          have hn : (MultiLayer.conduct u p).n = p.n := rfl
          rw [hn] at hL
          unfold MultiLayer.conduct at hL
          rwa [MultiLayer.setActive_take p _ hinv.solid.ok.wf.n_le (by simp) p.n le_rfl,
            List.take_of_length_le (by simp)] at hL
        obtain ⟨k, hk⟩ := List.mem_iff_getElem?.mp hL1
        rw [List.getElem?_mapIdx] at hk
        obtain ⟨M, hM, rfl⟩ := Option.map_eq_some_iff.mp hk
        have hM' : M ∈ p.layers := List.mem_of_mem_take (List.mem_of_getElem? hM)
        have hw := hinv.solid.ok.wf.all M hM'
        show 0 ≤ M.heatCap
        have : M.heatCap = M.ice * cIce + M.lwc * cWater := by
          rw [hpg] at hM'
          obtain ⟨L0, -, rfl⟩ := List.mem_map.mp hM'
          rfl
        rw [this]
        have := cIce_pos (K := ℝ)
        have := cWater_pos (K := ℝ)
        have := hw.2.1
        have := hw.2.2
        positivity
      show (MultiLayer.meltLoop ⟨0, 0⟩ _).1.actual = 0
      rw [hloop _ hcold hheat]
    · intro hmi
      have hmo : (surf c w s p).energyBalance.moist = none := by
        rw [e4]
        unfold Surf.moistFlux Surf.transfer
        have : (surf c w s p).w = w := rfl
        rw [this]
        rcases hmi with h1 | h1 | h1 <;> cases (surf c w s p).avail <;> simp [h1]
      rw [hfl.2, hmo]
      have hpm : MultiLayer.PackOK c.lwcMethod c.minThickness.length
          (MultiLayer.melt m (MultiLayer.conduct u p)).2 := by
        rw [← hbm]
        exact (MultiLayer.beforeMelt_solid (mlCfg_ok h) hin hp.solid).ok.melt m hm0
      have h2 : 0 ≤ MultiLayer.iceSum (MultiLayer.melt m (MultiLayer.conduct u p)).2.layers :=
        List.sum_nonneg fun x hx => by
          obtain ⟨L, hL, rfl⟩ := List.mem_map.mp hx
          exact (hpm.wf.all L hL).2.1
      simp only [MultiLayer.sublAmount, nanToZero, Option.getD_none, Option.map_none]
      split_ifs <;> simp [h2]

/-- **C143.** The step is defined on bare ground without snowfall, whatever is missing. -/
theorem C143_bare (c : Site) (h : SiteOK c) (w : Weather) (hw : WeatherOK c w) (hc : Coherent w) (hn : Natural w)
    (s : State) (hs : 0 < s.ts) (hq : 0 ≤ w.qsat s.ts) (hp : Inv c s.snow) (h0 : s.snow.n = 0)
    (hsn : w.snow = none ∨ w.snow = some 0) : ∃ x s', step c w s = some (x, s') := by
  have hl : Light c w s.snow := by
    intro _ q hq L hL
    simp only [compaction, h0, List.take_zero] at hq
    split at hq
    · simp at hq
    · simp only [Option.some.injEq] at hq
      subst hq
      simp [Pixel.setActive, h0] at hL
  obtain ⟨p, hprep, hinv, g, m, u, hpg, hm, hm0, hmt, hin, hcond, hbm, heq⟩ := step_refines h hw hc hp hl
  have hpn : p.n = 0 := by
    rw [hpg]
    rcases hsn with hsn | hsn <;>
      simp [prepared, MultiLayer.updateHeatCap, ageing, MultiLayer.accumulation, hsn, MultiLayer.compact,
        Pixel.setActive, h0]
  cases hst : step c w s with
  | some r => exact ⟨r.1, r.2, rfl⟩
  | none =>
    exfalso
    rw [Coupled.conduct_zero u hpn] at hcond
    have hhot : ¬ HotLayer c w s := by
      rintro ⟨p', p2, h1, h3, L, hL, -⟩
      rw [hprep, Option.some.injEq] at h1
      subst h1
      rw [hcond, Option.some.injEq] at h3
      subst h3
      rw [hpn] at hL
      simp at hL
    obtain ⟨p', m', p2, r, h1, h2, h3, h4, -, -, L, hL, hL0⟩ :=
      (C143_undefined_iff c h w hw hc hn s hs hq hp hl hhot).mp hst
    rw [hprep, Option.some.injEq] at h1
    subst h1
    rw [hm, Option.some.injEq] at h2
    subst h2
    rw [hcond, Option.some.injEq] at h3
    subst h3
    have hslots : 1 ≤ c.minThickness.length := List.length_pos_iff.mpr h.layers
    have h3ok := hinv.solid.ok.melt m hm0
    have h3n : (MultiLayer.melt m p).2.n = 0 := hpn
    obtain ⟨p3, hp3⟩ : ∃ x, (MultiLayer.melt m p).2 = x := ⟨_, rfl⟩
    obtain ⟨e, hee⟩ : ∃ x, (surf c w s p).energyBalance = x := ⟨_, rfl⟩
    rw [hp3, hee] at h4
    rw [hp3] at h3ok h3n
    simp only [MultiLayer.sublimation] at h4
    split_ifs at h4 with hfrost
    · have hneg : ¬ (0 < max (MultiLayer.sublAmount c.dt e.ts e.moist p3) 0) := by
        intro hc
        rcases lt_max_iff.mp hc with hc | hc
        · rw [min_eq_right hc.le] at hfrost; simp at hfrost
        · exact absurd hc (lt_irrefl 0)
      simp only [MultiLayer.sublKernel, hneg, if_false, Option.pure_def, Option.some.injEq] at h4
      subst h4
      refine (MultiLayer.addSnow_thick h3ok hslots _ _ _ _ (Coupled.freshDensity_pos w.wetBulb) hfrost ?_ L hL).ne' hL0
      intro M hM
      rw [h3n] at hM
      simp at hM
    · have : r.n = 0 := by
        simp only [MultiLayer.sublKernel] at h4
        split_ifs at h4
        · cases hk : MultiLayer.sublLoop (max (MultiLayer.sublAmount c.dt e.ts e.moist p3) 0)
            (List.take p3.n p3.layers) with
          | none => rw [hk] at h4; simp at h4
          | some y => rw [hk] at h4; simp at h4; rw [← h4]; exact h3n
        · simp at h4; rw [← h4]; exact h3n
      rw [this] at hL
      simp at hL

/-- **C143.** Snow on a surface that was above the melting point (snow-free ground in the step before): while any value
is missing, the whole snowpack melts although no energy is known to be available, and the surface keeps its
temperature. -/
theorem C143_warm (c : Site) (h : SiteOK c) (w : Weather) (hw : WeatherOK c w) (hc : Coherent w)
    (hi : w.temp = none ∨ w.wetBulb = none ∨ w.specHum = none ∨ w.swIn = none ∨ w.lwIn = none ∨ w.wind = none ∨
      w.rain = none ∨ w.snow = none ∨ w.density = none ∨ w.latVap = none)
    (s : State) (hs : T0 < s.ts) (hp : Inv c s.snow) (hl : Light c w s.snow) (hhot : ¬ HotLayer c w s)
    (p : Pixel ℝ) (hprep : prepare c w s = some p) (hpn : 0 < p.n) :
    ∃ x s', step c w s = some (x, s') ∧ x.melt = (p.layers.map fun L => L.ice).sum ∧ 0 < x.melt ∧ s'.ts = s.ts := by
  obtain ⟨p', hprep', hinv, g, m, u, hpg, hm, hm0, hmt, hin, hcond, hbm, heq⟩ := step_refines h hw hc hp hl
  rw [hprep, Option.some.injEq] at hprep'
  subst hprep'
  obtain ⟨hsing, e1, e2, e3, e4⟩ := energy_gap (b := surf c w s p) hi
  have hT : (T0 : ℝ) = Atmosphere.T0 := by norm_num [T0, Atmosphere.T0]
  obtain ⟨L, Ls, hls⟩ : ∃ L Ls, p.layers = L :: Ls := by
    cases hl : p.layers with
    | nil => have := hinv.solid.ok.wf.n_le; rw [hl] at this; simp at this; omega
    | cons L Ls => exact ⟨L, Ls, rfl⟩
  have hLmem : L ∈ p.layers.take p.n := by
    rw [hls]
    obtain ⟨k, hk⟩ : ∃ k, p.n = k + 1 := ⟨p.n - 1, by omega⟩
    rw [hk]; simp
  have hice0 : 0 < L.ice := hinv.solid.ok.ice_pos hLmem (hinv.solid.thick L hLmem)
  have hsum : 0 < (p.layers.map Layer.ice).sum := by
    have hrest : 0 ≤ (Ls.map Layer.ice).sum := List.sum_nonneg fun x hx => by
      obtain ⟨M, hM, rfl⟩ := List.mem_map.mp hx
      exact (hinv.solid.ok.wf.all M (by rw [hls]; simp [hM])).2.1
    rw [hls]
    simp only [List.map_cons, List.sum_cons]
    linarith
  have hmm : m = (p.layers.map Layer.ice).sum := by
    rw [hm, Option.some.injEq] at e3
    rw [e3, if_pos]
    · rfl
    · refine ⟨by rw [← hT]; exact hs, ?_⟩
      show 0 < (p.layers.map Layer.ice).headD 0
      rw [hls]
      simpa using hice0
  have hlay : (MultiLayer.conduct u p).layers.map Layer.ice = p.layers.map Layer.ice := by
    simp only [MultiLayer.conduct, Pixel.setActive, List.map_append, List.map_drop]
    have : ((p.layers.take p.n).mapIdx fun k (L : Layer ℝ) => { L with temp := u k }).map Layer.ice =
        (p.layers.map Layer.ice).take p.n := by
      apply List.ext_getElem
      · simp
      · intro i h1 h2
        simp
    rw [this, List.take_append_drop]
  have hmod : MultiLayer.Moderate (mlCfg c)
      (inputs c w s.ts g u m (surf c w s p).energyBalance.ts (surf c w s p).energyBalance.moist) s.snow := by
    refine ⟨?_, hmt⟩
    intro L hL
    rw [hbm] at hL
    by_contra hc
    exact hhot ⟨p, _, hprep, hcond, L, hL, Coupled.hHeat L hc⟩
  obtain ⟨fl, q, hst⟩ := MultiLayer.C121_full_melt (mlCfg c) (mlCfg_ok h) _ hin s.snow hp.solid hmod
    (by show 0 < m; rw [hmm]; exact hsum) (by
      rw [hbm, MultiLayer.totalIce, hlay]; exact hmm.ge)
  have hfl : fl.melt = m := by
    have h2 := MultiLayer.beforeMelt_solid (mlCfg_ok h) hin hp.solid
    rw [hbm] at h2
    have h3 : fl.melt = (MultiLayer.melt m (MultiLayer.conduct u p)).1 := by
      rw [← hbm]
      simp only [MultiLayer.step] at hst
      split at hst
      · simp at hst
      · split at hst
        · simp at hst
        · simp only [Option.some.injEq, Prod.mk.injEq] at hst
          obtain ⟨rfl, -⟩ := hst
          rfl
    have hact : (((MultiLayer.conduct u p).layers.take (MultiLayer.conduct u p).n).map Layer.ice).sum = m := by
      rw [h2.ok.wf.sum_active (f := Layer.ice) (fun L h => h.2.1), hlay, hmm]
    have hz := MultiLayer.meltLoop_all ((MultiLayer.conduct u p).layers.take (MultiLayer.conduct u p).n) ⟨m, 0⟩
      (fun L hL => h2.ok.ice_pos hL (h2.thick L hL)) hm0 hact.le
    have hsp := (MultiLayer.meltLoop_spec ((MultiLayer.conduct u p).layers.take (MultiLayer.conduct u p).n) ⟨m, 0⟩
      hm0 (fun L hL => (h2.ok.ice_pos hL (h2.thick L hL)).le)).2.1
    have hz' : ((MultiLayer.meltLoop ⟨m, 0⟩
        ((MultiLayer.conduct u p).layers.take (MultiLayer.conduct u p).n)).2.map Layer.ice).sum = 0 :=
      List.sum_eq_zero fun x hx => by
        obtain ⟨M, hM, rfl⟩ := List.mem_map.mp hx
        exact (hz M hM).2
    rw [h3]
    simp only [hz', hact, sub_zero, zero_add] at hsp
    exact hsp
  refine ⟨fl, _, by rw [heq hsing, hst]; rfl, by rw [hfl, hmm], by rw [hfl, hmm]; exact hsum, e1⟩

/-- One step of a gap on snow-free ground. -/
theorem gap_step {c : Site} (h : SiteOK c) {w : Weather} (hw : WeatherOK c w) (hc : Coherent w)
    (hsn : w.snow = none ∨ w.snow = some 0) (hmi : w.specHum = none ∨ w.wind = none ∨ w.density = none)
    {s : State} (hp : Inv c s.snow) (h0 : s.snow.n = 0) :
    ∃ x s', step c w s = some (x, s') ∧ s'.ts = s.ts ∧ Inv c s'.snow ∧ s'.snow.n = 0 ∧ x.runoff = w.rain.getD 0 := by
  have hl : Light c w s.snow := by
    intro _ q hq L hL
    simp only [compaction, h0, List.take_zero] at hq
    split at hq
    · simp at hq
    · simp only [Option.some.injEq] at hq
      subst hq
      simp [Pixel.setActive, h0] at hL
  have hi : Incomplete w := by
    unfold Incomplete
    rcases hmi with h1 | h1 | h1 <;> simp [h1]
  obtain ⟨p, hprep, hinv, g, m, u, hpg, hm, hm0, hmt, hin, hcond, hbm, heq⟩ := step_refines h hw hc hp hl
  have hpn : p.n = 0 := by
    rw [hpg]
    rcases hsn with hsn | hsn <;>
      simp [prepared, MultiLayer.updateHeatCap, ageing, MultiLayer.accumulation, hsn, MultiLayer.compact,
        Pixel.setActive, h0]
  obtain ⟨hsing, e1, e2, e3, e4⟩ := energy_gap (b := surf c w s p) hi
  have hmo : (surf c w s p).energyBalance.moist = none := by
    rw [e4]
    unfold Surf.moistFlux Surf.transfer
    have : (surf c w s p).w = w := rfl
    rw [this]
    rcases hmi with h1 | h1 | h1 <;> cases (surf c w s p).avail <;> simp [h1]
  rw [hmo, e1] at heq hin hbm
  rw [Coupled.conduct_zero u hpn] at hbm
  have hts : (surf c w s p).ts = s.ts := rfl
  rw [hts] at heq hin hbm
  have hmelt : MultiLayer.melt m p = (0, p) := by
    obtain ⟨n, ls, al⟩ := p
    simp only at hpn
    subst hpn
    simp [MultiLayer.melt, MultiLayer.meltLoop, Pixel.setActive]
  have hzero : ∀ L ∈ p.layers, L.ice = 0 := fun L hL =>
    (hinv.solid.ok.wf.inactive L (by rw [hpn]; exact hL)).2.1
  have hsub : MultiLayer.sublimation c.dt s.ts c.albedo.max (w.temp.getD 0) (Snow.freshSnowDensity w.wetBulb) none p =
      (0, some p) := by
    have hsum : MultiLayer.iceSum p.layers = 0 := List.sum_eq_zero fun x hx => by
      obtain ⟨L, hL, rfl⟩ := List.mem_map.mp hx
      exact hzero L hL
    have : MultiLayer.sublAmount c.dt s.ts none p = 0 := by
      simp only [MultiLayer.sublAmount, nanToZero, Option.getD_none, Option.map_none, hsum]
      split_ifs <;> simp
    simp [MultiLayer.sublimation, this, MultiLayer.sublKernel]
  have hmod : MultiLayer.Moderate (mlCfg c) (inputs c w s.ts g u m s.ts none) s.snow := by
    refine ⟨?_, by rw [e1, hts] at hmt; exact hmt⟩
    intro L hL
    rw [hbm, hpn] at hL
    simp at hL
  have hdef : ∃ fl q, MultiLayer.step (mlCfg c) (inputs c w s.ts g u m s.ts none) s.snow = some (fl, q) := by
    cases hms : MultiLayer.step (mlCfg c) (inputs c w s.ts g u m s.ts none) s.snow with
    | some r => exact ⟨r.1, r.2, rfl⟩
    | none =>
      exfalso
      obtain ⟨r, h1, -, -, L, hL, -⟩ :=
        (MultiLayer.C121_undefined_iff (mlCfg c) (mlCfg_ok h) _ hin s.snow hp.solid hmod).mp hms
      have h1' : (MultiLayer.sublimation c.dt s.ts c.albedo.max (w.temp.getD 0) (Snow.freshSnowDensity w.wetBulb) none
        (MultiLayer.melt m p).2).2 = some r := by rw [← hbm]; exact h1
      rw [hmelt, hsub, Option.some.injEq] at h1'
      subst h1'
      rw [hpn] at hL
      simp at hL
  obtain ⟨fl, q, hms⟩ := hdef
  have hst : step c w s = some (fl, ⟨q, Coupled.soilStep c s (surf c w s p).energyBalance.ground q, s.ts⟩) := by
    rw [heq hsing, hms]
    rfl
  have hfl : fl.runoff = w.rain.getD 0 ∧ fl.sublimation = 0 := by
    have hb : MultiLayer.conduct u (MultiLayer.updateHeatCap
        { MultiLayer.accumulation c.albedo.max (w.temp.getD 0) (Snow.freshSnowDensity w.wetBulb) w.snow
            (MultiLayer.compact g s.snow) with
          albedo := Snow.albedo c.albedo c.dt (if c.ageByAir then w.temp else some s.ts) w.snow
            (MultiLayer.accumulation c.albedo.max (w.temp.getD 0) (Snow.freshSnowDensity w.wetBulb) w.snow
              (MultiLayer.compact g s.snow)).albedo }) = p := hbm
    simp only [MultiLayer.step, inputs, mlCfg, hb, hmelt, hsub] at hms
    split at hms
    · simp at hms
    · simp only [Option.some.injEq, Prod.mk.injEq] at hms
      obtain ⟨rfl, -⟩ := hms
      simp [MultiLayer.runoff, hpn, MultiLayer.runoffLoop, nanToZero]
  obtain ⟨k1, -, -, -, d, k2, k3, -, -⟩ := step_inv h hw hc hp hl hst
  refine ⟨fl, _, hst, rfl, k1, ?_, hfl.1⟩
  by_contra hne
  have hqn : 0 < q.n := Nat.pos_of_ne_zero hne
  have hswe0 : MultiLayer.swe s.snow = 0 := List.sum_eq_zero fun x hx => by
    obtain ⟨L, hL, rfl⟩ := List.mem_map.mp hx
    obtain ⟨-, a, b⟩ := hp.solid.ok.wf.inactive L (by rw [h0]; exact hL)
    rw [a, b, add_zero]
  have hsn0 : w.snow.getD 0 = 0 := by rcases hsn with h1 | h1 <;> simp [h1]
  have hle : MultiLayer.swe q ≤ 0 := by
    have : MultiLayer.swe q = MultiLayer.swe s.snow + w.snow.getD 0 + w.rain.getD 0 - fl.sublimation - fl.runoff - d := k2
    rw [this, hswe0, hsn0, hfl.1, hfl.2]
    linarith
  have hpos : 0 < MultiLayer.swe q := by
    cases hls : q.layers with
    | nil => have := k1.solid.ok.wf.n_le; simp only [hls, List.length_nil] at this; omega
    | cons L Ls =>
      have hLm : L ∈ q.layers.take q.n := by
        rw [hls]
        obtain ⟨k, hk⟩ : ∃ k, q.n = k + 1 := ⟨q.n - 1, by omega⟩
        rw [hk]; simp
      have h1 : 0 < L.ice := k1.solid.ok.ice_pos hLm (k1.solid.thick L hLm)
      have h2 := (k1.solid.ok.wf.all L (by rw [hls]; simp)).2.2
      have hrest : 0 ≤ (Ls.map fun L => L.ice + L.lwc).sum := List.sum_nonneg fun x hx => by
        obtain ⟨M, hM, rfl⟩ := List.mem_map.mp hx
        have := k1.solid.ok.wf.all M (by rw [hls]; simp [hM])
        linarith [this.2.1, this.2.2]
      simp only [MultiLayer.swe, hls, List.map_cons, List.sum_cons]
      linarith
  linarith

/-- **C143.** A gap of any length on snow-free ground without snowfall, with wind, humidity or air density missing in
every step: the run is defined, the ground stays snow-free, the surface keeps its temperature and rain runs off. -/
theorem C143_gap (c : Site) (h : SiteOK c) (ws : List Weather) (hw : ∀ w ∈ ws, WeatherOK c w ∧ Coherent w ∧
      (w.snow = none ∨ w.snow = some 0) ∧ (w.specHum = none ∨ w.wind = none ∨ w.density = none))
    (s : State) (hp : Inv c s.snow) (h0 : s.snow.n = 0) :
    ∃ xs s', run c ws s = some (xs, s') ∧ s'.ts = s.ts ∧ SnowOK c s'.snow ∧ s'.snow.n = 0 ∧
      xs.map MultiLayer.Fluxes.runoff = ws.map fun w => w.rain.getD 0 := by
  induction ws generalizing s with
  | nil => exact ⟨[], s, rfl, rfl, snowOK_iff hp, h0, rfl⟩
  | cons w ws ih =>
    obtain ⟨a1, a2, a3, a4⟩ := hw w (by simp)
    obtain ⟨x, s1, b1, b2, b3, b4, b5⟩ := gap_step h a1 a2 a3 a4 hp h0
    obtain ⟨xs, s2, d1, d2, d3, d4, d5⟩ := ih (fun w' hw' => hw w' (by simp [hw'])) s1 b3 b4
    exact ⟨x :: xs, s2, by simp only [run, b1, d1], by rw [d2, b2], d3, d4, by simp [b5, d5]⟩

/-! ## Witnesses -/

/-- `Coupled.meltSite` with soil and surface at 1 °C. -/
noncomputable def warmSite : Site := { Coupled.meltSite with initTemp := 27415 / 100 }

theorem warmSite_ok : SiteOK warmSite := by
  constructor <;> norm_num [warmSite, Coupled.meltSite, Coupled.exSite]
  · constructor <;> norm_num
  · constructor <;> norm_num

/-- Two millimetres of snowfall at 0 °C, everything else missing. -/
noncomputable def gapHour : Weather where
  temp := some (27315 / 100)
  wetBulb := none
  specHum := none
  swIn := none
  lwIn := none
  wind := none
  rain := none
  snow := some 2
  density := none
  latVap := none
  qsat := fun _ => 1 / 100

theorem gapHour_ok : WeatherOK warmSite gapHour ∧ Coherent gapHour ∧ Natural gapHour := by
  refine ⟨⟨?_, ?_, ?_⟩, ⟨?_, ?_⟩, ⟨?_, ?_, ?_, ?_⟩⟩ <;> simp [gapHour]

/-- The fresh snow does not melt by its own heat. -/
theorem gapHour_cold : ¬ HotLayer warmSite gapHour (initial warmSite) ∧
    ∃ p, prepare warmSite gapHour (initial warmSite) = some p ∧ p.n = 1 ∧
      p.layers = [⟨1 / 50, 2, 0, T0, 4200⟩] := by
  have hcomp : compaction warmSite gapHour.temp (initial warmSite).snow = some (initial warmSite).snow := by
    simp [compaction, compactLayers, warmSite, Coupled.meltSite, initial, Pixel.setActive]
  obtain ⟨p, hp⟩ : ∃ p, p = MultiLayer.updateHeatCap (ageing warmSite gapHour (initial warmSite).ts
    (MultiLayer.accumulation warmSite.albedo.max (gapHour.temp.getD 0) (Snow.freshSnowDensity gapHour.wetBulb)
      gapHour.snow (initial warmSite).snow)) := ⟨_, rfl⟩
  have hprep : prepare warmSite gapHour (initial warmSite) = some p := by
    rw [hp]
    simp only [prepare, hcomp, accumulation]
    rw [if_neg (by simp [gapHour])]
  have hn1 : p.n = 1 := by
    rw [hp]
    simp [MultiLayer.updateHeatCap, ageing, MultiLayer.accumulation, gapHour, initial, MultiLayer.addSnow, nanToZero,
      warmSite, Coupled.meltSite]
  have hlay : p.layers = [⟨1 / 50, 2, 0, T0, 4200⟩] := by
    rw [hp]
    norm_num [MultiLayer.updateHeatCap, ageing, MultiLayer.accumulation, gapHour, initial, MultiLayer.addSnow, nanToZero,
      warmSite, Coupled.meltSite, Snow.freshSnowDensity, T0, cIce]
  refine ⟨?_, p, hprep, hn1, hlay⟩
  rintro ⟨p', p2, h1, h3, L, hL, hL0⟩
  rw [hprep, Option.some.injEq] at h1
  subst h1
  obtain ⟨G, hG⟩ : ∃ x, (surf warmSite gapHour (initial warmSite) p).energyBalance.ground = x := ⟨_, rfl⟩
  have hg : G = 24 := by
    obtain ⟨-, -, e2, -, -⟩ := energy_gap (b := surf warmSite gapHour (initial warmSite) p) (Or.inr (Or.inl rfl))
    rw [← hG, e2]
    norm_num [Surf.groundFlux, surf, Surface.layerCond, Surface.layerTemp, Surface.layerThickness, Coupled.top, hlay,
      Coupled.soilDx, warmSite, Coupled.meltSite, Coupled.exSite, initial, T0]
  rw [hG, hg] at h3
  have hcol : Heat.Physical (Heat.snowColumn (Coupled.boundary warmSite (initial warmSite) 24) p) := by
    refine ⟨by rw [Heat.snowColumn]; simp [hn1],
      by norm_num [Heat.snowColumn, Coupled.boundary, warmSite, Coupled.meltSite, Coupled.exSite], ?_, ?_, ?_, ?_, ?_⟩
    · intro k hk
      have : k = 0 := by simp only [Heat.snowColumn, hn1] at hk; omega
      subst this; norm_num [Heat.snowColumn, hlay]
    · intro k _
      exact warmSite_ok.snowCond
    · intro k hk
      have : k = 0 := by simp only [Heat.snowColumn, hn1] at hk; omega
      subst this; norm_num [Heat.snowColumn, hlay]
    · exact Coupled.soilDx0_pos warmSite_ok
    · exact Coupled.soilLam_pos warmSite_ok (initial warmSite) 0
  obtain ⟨x, hx, -, hbal⟩ := Heat.C21_layer_energy_balance _ hcol
  have hb := hbal 0 (by simp [Heat.snowColumn, hn1])
  obtain ⟨x0, hx0⟩ : ∃ y, x.getD 0 0 = y := ⟨_, rfl⟩
  have hx0' : x[0]?.getD 0 = x0 := by rw [← hx0]; simp
  obtain ⟨R, hRe⟩ : ∃ y, Heat.halfResistance (Heat.snowColumn (Coupled.boundary warmSite (initial warmSite) 24) p) 0 +
      Heat.halfResistance (Heat.snowColumn (Coupled.boundary warmSite (initial warmSite) 24) p) 1 = y := ⟨_, rfl⟩
  have hR : 1 / 24 ≤ R := by
    have h5 := Coupled.soilDx0_pos warmSite_ok
    have h6 := Coupled.soilLam_pos warmSite_ok (initial warmSite) 0
    have h7 : warmSite.snowCond = 6 / 25 := by norm_num [warmSite, Coupled.meltSite, Coupled.exSite]
    rw [← hRe]
    simp only [Heat.halfResistance, Heat.snowColumn, hn1, hlay, Coupled.boundary, h7]
    generalize Coupled.soilDx warmSite 0 = a at h5 ⊢
    generalize Coupled.soilLam warmSite (initial warmSite) 0 = b at h6 ⊢
    norm_num
    positivity
  have hb' : 4200 * x0 = 3600 * (24 - x0 / R) := by
    have e1 : (Heat.snowColumn (Coupled.boundary warmSite (initial warmSite) 24) p).hc 0 = 4200 := by
      simp [Heat.snowColumn, hlay]
    have e2 : (Heat.snowColumn (Coupled.boundary warmSite (initial warmSite) 24) p).dt = 3600 := by
      simp [Heat.snowColumn, Coupled.boundary, warmSite, Coupled.meltSite, Coupled.exSite]
    rw [e1, e2, hx0] at hb
    rw [hb]
    simp only [Heat.fluxAbove, Heat.fluxBelow, if_true, hRe]
    have e3 : (Heat.snowColumn (Coupled.boundary warmSite (initial warmSite) 24) p).flux = 24 := rfl
    rw [e3]
    norm_num [Heat.withBottom, Heat.snowColumn, hn1, Heat.newTemp, hlay, hx0', Coupled.boundary, initial, warmSite, T0]
  have hRp : 0 < R := by linarith
  have hxle : 4200 * x0 ≤ 3600 * 48 := by
    by_cases hc : x0 ≤ 1
    · linarith
    · push Not at hc
      have : 0 ≤ x0 / R := div_nonneg (by linarith) hRp.le
      linarith
  have hp2 : p2.layers.take p2.n = [⟨1 / 50, 2, 0, T0 + x0, 4200⟩] := by
    simp only [Heat.snowHeatConduction, hn1, Nat.one_pos, if_true, hx, Option.some.injEq] at h3
    subst h3
    simp [Pixel.setActive, hn1, hlay, hx0']
  rw [hp2] at hL
  simp only [List.mem_singleton] at hL
  subst hL
  simp only [LF] at hL0
  linarith

/-- **C143, false in general:** snow that falls on ground at 1 °C melts completely in a time step in which radiation,
wind and humidity are missing, although the air is not above the melting point. -/
theorem C143_melt_false : ∃ (c : Site) (w : Weather) (x : MultiLayer.Fluxes ℝ) (s : State), SiteOK c ∧ WeatherOK c w ∧
    Coherent w ∧ Natural w ∧ w.swIn = none ∧ w.lwIn = none ∧ w.wind = none ∧ w.temp = some T0 ∧
    run c [w] (initial c) = some ([x], s) ∧ x.melt = 2 ∧ w.snow = some 2 := by
  obtain ⟨hcold, p, hprep, hn, hlay⟩ := gapHour_cold
  obtain ⟨hw, hc, hn'⟩ := gapHour_ok
  have hl : Light warmSite gapHour (initial warmSite).snow := fun h => by simp [warmSite, Coupled.meltSite] at h
  obtain ⟨x, s, h1, h2, -, -⟩ := C143_warm warmSite warmSite_ok gapHour hw hc (Or.inr (Or.inl rfl)) (initial warmSite)
    (by norm_num [initial, warmSite, T0]) (initial_inv warmSite_ok) hl hcold p hprep (by omega)
  refine ⟨warmSite, gapHour, x, s, warmSite_ok, hw, hc, hn', rfl, rfl, rfl, by norm_num [gapHour, T0],
    by simp only [run, h1], ?_, rfl⟩
  rw [h2, hlay]
  norm_num
/-- The hypotheses of `C143_gap` and `C143_run` are met by a gap in which everything is missing. -/
example (n : ℕ) : ∃ xs s, run warmSite (List.replicate n { gapHour with temp := none, snow := none }) (initial warmSite) =
    some (xs, s) ∧ SnowOK warmSite s.snow ∧ s.ts = 27415 / 100 := by
  have hok : WeatherOK warmSite { gapHour with temp := none, snow := none } ∧
      Coherent { gapHour with temp := none, snow := none } := by
    refine ⟨⟨?_, ?_, ?_⟩, ⟨?_, ?_⟩⟩ <;> simp [gapHour]
  obtain ⟨xs, s, h1, h2, h3, -⟩ := C143_gap warmSite warmSite_ok
    (List.replicate n { gapHour with temp := none, snow := none }) (fun w hw => by
      rw [(List.mem_replicate.mp hw).2]; exact ⟨hok.1, hok.2, Or.inl rfl, Or.inl rfl⟩)
    (initial warmSite) (initial_inv warmSite_ok) rfl
  exact ⟨xs, s, h1, h3, h2⟩

/-- The hypotheses of `C143_complete` and `C143_bare` are met. -/
example : (∀ f ∈ [Coupled.exDay], ForcingOK Coupled.exSite f) ∧ WeatherOK Coupled.exSite (ofForcing Coupled.exDay) ∧
    Coherent (ofForcing Coupled.exDay) ∧ Natural (ofForcing Coupled.exDay) := by
  refine ⟨by simpa using Coupled.exDay_ok.1, ⟨?_, ?_, ?_⟩, ⟨?_, ?_⟩, ⟨?_, ?_, ?_, ?_⟩⟩ <;>
    norm_num [ofForcing, Coupled.exDay, Coupled.exSite]
  simp

end Verif.Gaps
