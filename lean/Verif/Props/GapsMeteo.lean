import Verif.Model.GapsMeteo
import Verif.Props.Gaps
import Verif.Props.Meteorology
import Verif.Props.SecantHumidity

/-!
# C143: from station data with gaps to the multilayer snowpack
-/

namespace Verif.GapsMeteo

open Verif.MeteoFields (Station Fields interpolateData C104_ranges)
open Verif.Meteorology (Setup SetupOK Met blank C129_step)
open Verif.Gaps (Weather WeatherOK Coherent Natural)

variable {ι : Type*} [DecidableEq ι]

/-- Specification: the interpolated fields of a time step exist, and known temperatures are between -50 and 50 °C (with
retention in the pore volume, at most 45 °C at the pixel). -/
def Usable (s : Setup ι) (c : Coupled.Site) (i : ι) (d : Hour) (f : Fields ι) : Prop :=
  interpolateData s.interp s.px s.roi d.stations blank = some f ∧
    (∀ j ∈ s.roi, ∀ t, f.temp j = some t → Atmosphere.T0 - 50 ≤ t ∧ t ≤ Atmosphere.T0 + 50) ∧
    (c.lwcMethod = .poreVolume → ∀ t, f.temp i = some t → t ≤ Atmosphere.T0 + 45)

section aux

theorem satHumidity_nonneg {p t : ℝ} (hp : 30000 ≤ p) (h1 : 1 ≤ t) (h2 : t ≤ Atmosphere.T0 + 90) :
    0 ≤ (SurfaceTemp.satHumidity p t).getD 0 := by
  rcases lt_or_ge t Atmosphere.T0 with h | h
  · rw [SurfaceTemp.satHumidity_ice hp h1 h]
    exact (SatHumidity.Q_nonneg (SurfaceTemp.range_cold hp) ⟨h1, h.le⟩).le
  · rw [SurfaceTemp.satHumidity_water hp h h2]
    exact (SatHumidity.Q_nonneg (SurfaceTemp.range_warm hp) ⟨h, h2⟩).le

/-- The inputs of one time step. -/
theorem weather_spec {s : Setup ι} (hs : SetupOK s) {fuel : ℕ} (hfuel : 70 ≤ fuel) {c : Coupled.Site} {i : ι}
    (hi : i ∈ s.roi) {d : Hour} {f : Fields ι} (hd : Usable s c i d f) :
    ∃ w, ((Meteorology.step s fuel d.stations blank).bind fun m => weather m i d.sw d.lw) = some w ∧
      WeatherOK c w ∧ Coherent w ∧ Natural w ∧ w.temp = f.temp i ∧ w.wind = f.windSpeed i ∧
      w.swIn = d.sw ∧ w.lwIn = d.lw ∧ w.snow.getD 0 + w.rain.getD 0 = (f.precip i).getD 0 ∧
      ∀ t, 1 ≤ t → t ≤ Atmosphere.T0 + 90 → 0 ≤ w.qsat t := by
  obtain ⟨hf, hrange, hmax⟩ := hd
  obtain ⟨m, hm, h⟩ := C129_step s fuel hfuel d.stations blank f hf hs.range hs.elev hrange
  obtain ⟨h1, h2, h3, h4, h5, h6⟩ := h i hi
  have hT : Atmosphere.T0 = 27315 / 100 := rfl
  obtain ⟨p, e, g, q, j1, j2, -⟩ := Meteorology.derived (z := (s.px i).z) (t := Atmosphere.T0) (h := 50) (hs.elev i hi)
    (by linarith) (by linarith) (by norm_num) (by norm_num)
  have hpress : m.press i = some p := by
    simp only [Meteorology.step, hf, Option.bind_some, Option.bind_eq_some_iff, Option.map_eq_some_iff] at hm
    obtain ⟨w, -, o, -, rfl⟩ := hm
    exact j1
  refine ⟨_, by simp only [hm, Option.bind_some, weather, hpress, Option.map_some]; rfl, ?_, ?_, ?_, h1, h2, rfl, rfl, ?_,
    fun t ht1 ht2 => satHumidity_nonneg (p := p) (by linarith) ht1 ht2⟩
  · refine ⟨?_, ?_, ?_⟩
    · intro x hx
      cases hp : f.precip i with
      | none => simp only [(h6 hp).1] at hx; simp at hx
      | some y =>
        obtain ⟨n, r, a1, a2, a3, a4, a5, -⟩ := h5 y hp
        simp only [a5 hs.srf, Option.some.injEq] at hx
        linarith
    · intro x hx
      cases hp : f.precip i with
      | none => simp only [(h6 hp).2] at hx; simp at hx
      | some y =>
        obtain ⟨n, r, a1, a2, a3, a4, a5, -⟩ := h5 y hp
        simp only [a4, Option.some.injEq] at hx
        linarith
    · intro hpv x hx
      have hx' : m.wet i = some x := hx
      cases ht : f.temp i with
      | none => rw [h4 (Or.inl ht)] at hx'; simp at hx'
      | some t =>
        cases hh : f.relHum i with
        | none => rw [h4 (Or.inr hh)] at hx'; simp at hx'
        | some y =>
          obtain ⟨w, q, p, a1, a2, a3, -⟩ := h3 t y ht hh
          have := hmax hpv t ht
          rw [a1, Option.some.injEq] at hx'
          rw [hT] at this
          linarith
  · refine ⟨?_, ?_⟩
    · intro x hx hpos htn
      have htn' : f.temp i = none := by rw [← h1]; exact htn
      have hx' : m.snow i = some x := hx
      cases hp : f.precip i with
      | none => rw [(h6 hp).1] at hx'; simp at hx'
      | some y =>
        obtain ⟨n, r, a1, a2, a3, a4, a5, -, a6⟩ := h5 y hp
        rw [a5 hs.srf, a6 htn', Option.some.injEq] at hx'
        linarith
    · intro hd htn
      have : m.temp i = none := htn
      simp [this] at hd
  · have htr : ∀ t, m.temp i = some t → Atmosphere.T0 - 50 ≤ t ∧ t ≤ Atmosphere.T0 + 50 := fun t ht => by
      rw [h1] at ht; exact hrange i hi t ht
    refine ⟨?_, ?_, ?_, ?_⟩
    · intro x hx
      have := (htr x hx).1
      rw [hT] at this
      linarith
    · intro x hx
      have hx' : m.wind i = some x := hx
      rw [h2] at hx'
      have := (C104_ranges s.interp s.px s.roi d.stations blank f hf i hi x).2.2.2 hx'
      linarith
    · intro x hx
      obtain ⟨t, ht, rfl⟩ := Option.map_eq_some_iff.mp hx
      have := (htr t ht).1
      rw [hT] at this
      have hr : 0 < Atmosphere.rDry := by norm_num [Atmosphere.rDry]
      exact div_nonneg (by linarith) (mul_nonneg hr.le (by linarith))
    · intro x hx
      obtain ⟨t, ht, rfl⟩ := Option.map_eq_some_iff.mp hx
      have := (htr t ht).2
      unfold Atmosphere.latentHeat
      linarith
  · cases hp : f.precip i with
    | none => simp [(h6 hp).1, (h6 hp).2]
    | some y =>
      obtain ⟨n, r, a1, a2, a3, a4, a5, -⟩ := h5 y hp
      simp [a4, a5 hs.srf, a3]

end aux

/-- **C143.** From station records with any pattern of gaps, interpolated to a pixel, to its multilayer snowpack: every
time step has inputs (temperature and wind as interpolated, missing where they are), and a run from snow-free ground
keeps the water balance, with interpolated precipitation counted as none where it is missing. If the run ends in NaN the
cause is a surface below 1 K or above 90 °C, a layer that melts by its own heat, or a thin remainder – not the gap. -/
theorem C143_stations (s : Setup ι) (hs : SetupOK s) (fuel : ℕ) (hfuel : 70 ≤ fuel) (c : Coupled.Site)
    (hc : Coupled.SiteOK c) (hm : c.lwcMethod ≠ .poreVolume ∨
      ∃ e, c.compaction = .empirical e ∧ e.maxCold ≤ 917 ∧ e.maxMelting ≤ 917)
    (i : ι) (hi : i ∈ s.roi) (hours : List Hour) (fs : List (Fields ι))
    (hu : List.Forall₂ (Usable s c i) hours fs) :
    ∃ ws, weathers s fuel i hours = some ws ∧
      List.Forall₂ (fun w (f : Fields ι) => w.temp = f.temp i ∧ w.wind = f.windSpeed i) ws fs ∧
      (∀ xs st, Gaps.run c ws (Coupled.initial c) = some (xs, st) →
        Coupled.SnowOK c st.snow ∧ (∀ x ∈ xs, 0 ≤ x.runoff ∧ 0 ≤ x.refreezing ∧ 0 ≤ x.melt) ∧
        ∃ deleted : List ℝ, deleted.length = hours.length ∧
          (∀ d ∈ deleted, 0 ≤ d ∧ (c.lwcMethod = .poreVolume → d < 917 / 1000000)) ∧
          (st.snow.layers.map fun L => L.ice + L.lwc).sum = (fs.map fun f => (f.precip i).getD 0).sum -
            (xs.map fun x => x.sublimation + x.runoff).sum - deleted.sum) ∧
      (Gaps.run c ws (Coupled.initial c) = none →
        ∃ (k : ℕ) (w : Weather) (xs : List (MultiLayer.Fluxes ℝ)) (st : Coupled.State), ws[k]? = some w ∧
          Gaps.run c (ws.take k) (Coupled.initial c) = some (xs, st) ∧ Coupled.SnowOK c st.snow ∧
          (st.ts < 1 ∨ Atmosphere.T0 + 90 < st.ts ∨ Gaps.HotLayer c w st ∨ Gaps.Remainder c w st)) := by
  have key : ∀ (hours : List Hour) (fs : List (Fields ι)), List.Forall₂ (Usable s c i) hours fs →
      ∃ ws, weathers s fuel i hours = some ws ∧ ws.length = hours.length ∧
        List.Forall₂ (fun w (f : Fields ι) => w.temp = f.temp i ∧ w.wind = f.windSpeed i) ws fs ∧
        (∀ w ∈ ws, WeatherOK c w ∧ Coherent w ∧ Natural w ∧ ∀ t, 1 ≤ t → t ≤ Atmosphere.T0 + 90 → 0 ≤ w.qsat t) ∧
        ws.map (fun w => w.snow.getD 0 + w.rain.getD 0) = fs.map fun f => (f.precip i).getD 0 := by
    intro hours fs hu
    induction hu with
    | nil => exact ⟨[], rfl, rfl, .nil, by simp, rfl⟩
    | cons hd _ ih =>
      obtain ⟨ws, e1, e2, e3, e4, e5⟩ := ih
      obtain ⟨w, a1, a2, a3, a4, a5, a6, -, -, a7, a8⟩ := weather_spec hs hfuel hi hd
      refine ⟨w :: ws, ?_, by simp [e2], .cons ⟨a5, a6⟩ e3, ?_, by simp [a7, e5]⟩
      · unfold weathers at e1 ⊢
        rw [List.mapM_cons, a1, e1]
        rfl
      · intro w' hw'
        rcases List.mem_cons.mp hw' with rfl | hw'
        · exact ⟨a2, a3, a4, a8⟩
        · exact e4 w' hw'
  obtain ⟨ws, e1, e2, e3, e4, e5⟩ := key hours fs hu
  have hl := Gaps.C143_light c hc hm ws fun w hw => ⟨(e4 w hw).1, (e4 w hw).2.1⟩
  refine ⟨ws, e1, e3, ?_, ?_⟩
  · intro xs st hr
    obtain ⟨k1, k2, k3, ds, k4, k5, k6⟩ :=
      Gaps.C143_run c hc ws (fun w hw => ⟨(e4 w hw).1, (e4 w hw).2.1⟩) hl xs st hr
    exact ⟨k1, k3, ds, by rw [k4, e2], k5, by rw [k6, e5]⟩
  · intro hr
    obtain ⟨k, w, xs, st, k1, k2, k3, k4⟩ :=
      Gaps.C143_nan_partial c hc ws (fun w hw => ⟨(e4 w hw).1, (e4 w hw).2.1, (e4 w hw).2.2.1⟩) hl hr
    refine ⟨k, w, xs, st, k1, k2, k3, ?_⟩
    rcases k4 with k4 | k4 | k4 | k4
    · exact Or.inl (by linarith)
    · by_contra hcon
      push Not at hcon
      exact absurd k4 (not_lt.mpr ((e4 w (List.mem_of_getElem? k1)).2.2.2 _ hcon.1 hcon.2.1))
    · exact Or.inr (Or.inr (Or.inl k4))
    · exact Or.inr (Or.inr (Or.inr k4))

/-! ## Witness -/

/-- Station records without humidity and wind, and unknown radiation. -/
noncomputable def exHour : Hour where
  stations := [⟨some 100, some 100, some 2000, some 268, some 5, none, none, none, none⟩]
  sw := none
  lw := none

theorem exHour_usable : ∃ f, Usable Meteorology.exSetup Coupled.exSite 0 exHour f ∧ f.temp 0 = some 268 ∧
    f.precip 0 = some 5 := by
  have hex : ∃ f, interpolateData Meteorology.exSetup.interp Meteorology.exSetup.px Meteorology.exSetup.roi
      exHour.stations blank = some f := by
    simp [Meteorology.exSetup, exHour, interpolateData, MeteoFields.interpRoi, MeteoInterp.interpolate,
      MeteoFields.stationData, MeteoFields.stationRec, MeteoInterp.trended]
  obtain ⟨f, hf⟩ := hex
  obtain ⟨h1, h2, h3⟩ := MeteoFields.C104_station Meteorology.exSetup.interp Meteorology.exSetup.px
    Meteorology.exSetup.roi [] [] ⟨some 100, some 100, some 2000, some 268, some 5, none, none, none, none⟩ blank f hf 0
    (by simp [Meteorology.exSetup]) rfl rfl rfl (by simp)
  obtain ⟨t1, -⟩ := h1 268 rfl (by norm_num) (MeteoFields.exact_of_lapse _ _ (Or.inl rfl))
  have t4 := h2 5 rfl (by norm_num) (MeteoFields.exact_of_lapse _ _ (Or.inr rfl))
  refine ⟨f, ⟨hf, fun i hi t ht => ?_, fun _ t ht => ?_⟩, t1, t4⟩
  · obtain rfl : i = 0 := by simpa [Meteorology.exSetup] using hi
    rw [t1, Option.some.injEq] at ht
    rw [← ht]
    norm_num [Atmosphere.T0]
  · rw [t1, Option.some.injEq] at ht
    rw [← ht]
    norm_num [Atmosphere.T0]

/-- The conditions of `C143_stations` are met by any number of such hours, with snowfall in every one of them. -/
example (n : ℕ) : Meteorology.SetupOK Meteorology.exSetup ∧ Coupled.SiteOK Coupled.meltSite ∧
    ∃ fs, List.Forall₂ (Usable Meteorology.exSetup Coupled.meltSite 0) (List.replicate n exHour) fs := by
  refine ⟨Meteorology.exSetup_ok, Coupled.meltSite_ok, ?_⟩
  obtain ⟨f, ⟨h1, h2, -⟩, -⟩ := exHour_usable
  refine ⟨List.replicate n f, ?_⟩
  induction n with
  | zero => exact .nil
  | succ n ih => exact .cons ⟨h1, h2, fun h => by simp [Coupled.meltSite] at h⟩ ih

end Verif.GapsMeteo
