import Verif.Model.Meteorology
import Verif.Props.WetBulb
import Verif.Props.MeteoFields
import Verif.Props.Precip
import Verif.Props.Coupled
import Verif.Props.CoupledCryo

/-!
# C129: from station data to the snow cover
-/

namespace Verif.Meteorology

open Verif.MeteoFields Verif.WetBulb

variable {ι : Type*} [DecidableEq ι]

theorem forall₂_get {α β : Type*} {R : α → β → Prop} {l : List α} {l' : List β} (h : List.Forall₂ R l l') :
    ∀ (k : ℕ) (a : α) (b : β), l[k]? = some a → l'[k]? = some b → R a b := by
  induction h with
  | nil => intro k a b h; simp at h
  | cons h1 _ ih =>
    intro k a b ha hb
    cases k with
    | zero =>
      simp only [List.getElem?_cons_zero, Option.some.injEq] at ha hb
      subst ha; subst hb
      exact h1
    | succ k =>
      simp only [List.getElem?_cons_succ] at ha hb
      exact ih k a b ha hb

/-- Derived variables of a pixel with usual values. -/
theorem derived {z t h : ℝ} (hz : z ≤ 5000) (h1 : Atmosphere.T0 - 50 ≤ t) (h2 : t ≤ Atmosphere.T0 + 50) (h3 : 0 ≤ h)
    (h4 : h ≤ 100) : ∃ p e g q, Atmosphere.pressure z = some p ∧ 51000 < p ∧
      (DerivedMeteo.process 0 z t h).vap = some e ∧ (DerivedMeteo.process 0 z t h).psych = some g ∧
      (DerivedMeteo.process 0 z t h).spec = some q ∧ Usual ⟨t, e, g⟩ ∧ 0 ≤ q ∧
      ∀ qs, SurfaceTemp.satHumidity p t = some qs → q ≤ qs := by
  have hT : Atmosphere.T0 = 27315 / 100 := rfl
  obtain ⟨p, s, e, q, c, l, g, x, r, k1, k2, k3, k4, -, -, k7, -, -, k10, k11, k12, -, -, k13, -⟩ :=
    DerivedMeteo.C105_consistent 69 z t h (by linarith) (by linarith) h2 h3 h4
  obtain ⟨⟨e', g', w, j1, j2, j3, -⟩, -⟩ := C128_pixel 69 le_rfl z t h hz h1 h2 h3 h4
  obtain ⟨p', hp', hp⟩ := pressure_5000 z hz
  have e1 : p' = p := Option.some.inj (hp'.symm.trans k1)
  have e2 : g' = g := Option.some.inj (j2.symm.trans k7)
  rw [e1] at hp
  rw [e2] at j3
  have hs : Atmosphere.svp t = some s := k2
  refine ⟨p, e, g, q, k1, hp, k3, k7, k4, ⟨h1, h2, j3, k10, s, hs, k11⟩, k13, fun qs hqs => ?_⟩
  obtain ⟨q1, r1, z1, z2, z3, z4, -⟩ := Atmosphere.C60_specific p e s (by linarith) k10 k11 k12.le
  have hq : Atmosphere.specificHumidity p e = some q := by
    have e3 : (DerivedMeteo.process 69 z t h).spec = (DerivedMeteo.process 69 z t h).press.bind fun p =>
      (DerivedMeteo.process 69 z t h).vap.bind fun e => Atmosphere.specificHumidity p e := rfl
    rw [e3, k1, k3] at k4
    exact k4
  simp only [SurfaceTemp.satHumidity, hs, Option.bind_some] at hqs
  rw [z1] at hq
  rw [z2] at hqs
  rw [← Option.some.inj hq, ← Option.some.inj hqs]
  exact z4

/-- **C129 (step).** If interpolation succeeds, with temperatures between -50 and 50 °C wherever they are known, the
step ends, and the fields at a pixel are those described: complete where temperature and humidity are known, with snow
and rain that add up to the interpolated precipitation (all of it rain where the temperature is missing). -/
theorem C129_step (s : Setup ι) (fuel : ℕ) (hfuel : 70 ≤ fuel) (st : List Station) (old f : Fields ι)
    (hf : interpolateData s.interp s.px s.roi st old = some f) (hr : 0 ≤ s.phase.range)
    (hz : ∀ i ∈ s.roi, (s.px i).z ≤ 5000)
    (ht : ∀ i ∈ s.roi, ∀ t, f.temp i = some t → Atmosphere.T0 - 50 ≤ t ∧ t ≤ Atmosphere.T0 + 50) :
    ∃ m, step s fuel st old = some m ∧ ∀ i ∈ s.roi,
      m.temp i = f.temp i ∧ m.wind i = f.windSpeed i ∧
      (∀ t h, f.temp i = some t → f.relHum i = some h → ∃ w q p, m.wet i = some w ∧ Atmosphere.T0 - 72 ≤ w ∧
        w ≤ t + 15 / 100 ∧ m.spec i = some q ∧ 0 ≤ q ∧ (∀ qs, SurfaceTemp.satHumidity p t = some qs → q ≤ qs) ∧
        m.press i = some p ∧ 51000 < p) ∧
      (f.temp i = none ∨ f.relHum i = none → m.wet i = none) ∧
      (∀ x, f.precip i = some x → ∃ n r, 0 ≤ n ∧ 0 ≤ r ∧ n + r = x ∧ m.rain i = some r ∧
        (s.phase.hasSrf = false → m.snow i = some n) ∧
        (s.phase.hasSrf = true → ∀ k, s.srf i = some k → m.snow i = some (n * k)) ∧ (f.temp i = none → n = 0)) ∧
      (f.precip i = none → m.snow i = none ∧ m.rain i = none) := by
  have hrng := fun i hi x => C104_ranges s.interp s.px s.roi st old f hf i hi x
  have hcell : ∀ i ∈ s.roi, ∀ c, cell s f i = some c → Usual c := by
    intro i hi c hc
    simp only [cell, Option.bind_eq_some_iff, Option.map_eq_some_iff] at hc
    obtain ⟨t, e1, h, e2, e, e3, g, e4, rfl⟩ := hc
    obtain ⟨h1, h2⟩ := ht i hi t e1
    obtain ⟨h3, h4⟩ := (hrng i hi h).2.2.1 e2
    obtain ⟨p, e', g', q, -, -, k1, k2, -, k3, -⟩ := derived (hz i hi) h1 h2 h3 h4
    rw [e3] at k1
    rw [e4] at k2
    rw [Option.some.inj k1, Option.some.inj k2]
    exact k3
  obtain ⟨w, hw, hsol⟩ := C128_grid (s.roi.map (cell s f)) (by
    intro c hc
    obtain ⟨i, hi, e⟩ := List.mem_map.mp hc
    exact hcell i hi c e) fuel hfuel
  have hlen : w.length = s.roi.length := by rw [← hsol.length_eq, List.length_map]
  have hproc : Precip.process s.phase (s.roi.map (phasePx s f (assign s.roi w fun _ => none))) =
      some ((s.roi.map (phasePx s f (assign s.roi w fun _ => none))).map fun p =>
        Precip.partition s.phase p (Precip.enforced s.phase
          (s.roi.map (phasePx s f (assign s.roi w fun _ => none))) p)) := by
    unfold Precip.process
    rw [if_neg (not_lt.mpr hr)]
  refine ⟨_, by simp only [step, hf, hw, hproc, Option.bind_some, Option.map_some]; rfl, fun i hi => ?_⟩
  obtain ⟨k, v, hk1, hk2, hk3⟩ := assign_inside s.roi w hlen i hi
  have hsolv : Solves (cell s f i) v := forall₂_get hsol k _ _ (by rw [List.getElem?_map, hk1]; rfl) hk2
  have hwn : f.temp i = none ∨ f.relHum i = none → assign s.roi w (fun _ => none) i = none := by
    intro hn
    have ec : cell s f i = none := by
      rcases hn with e | e
      · simp [cell, e]
      · cases h : f.temp i <;> simp [cell, e, h]
    rw [ec] at hsolv
    rw [hk3, hsolv]
  have get : ∀ (P : List (Precip.Px ℝ)), s.roi.map (phasePx s f (assign s.roi w fun _ => none)) = P →
      ∀ g : Precip.Out ℝ → Option ℝ, assign s.roi ((P.map fun p =>
        Precip.partition s.phase p (Precip.enforced s.phase P p)).map g) (fun _ => none) i =
        g (Precip.partition s.phase (phasePx s f (assign s.roi w fun _ => none) i)
          (Precip.enforced s.phase P (phasePx s f (assign s.roi w fun _ => none) i))) := by
    intro P hP g
    obtain ⟨k, v, a1, a2, a3⟩ := assign_inside s.roi ((P.map fun p =>
      Precip.partition s.phase p (Precip.enforced s.phase P p)).map g) (by simp [← hP]) i hi
    rw [a3]
    have hPk : P[k]? = some (phasePx s f (assign s.roi w fun _ => none) i) := by
      rw [← hP, List.getElem?_map, a1, Option.map_some]
    simp only [List.getElem?_map, hPk, Option.map_some, Option.some.injEq] at a2
    exact a2.symm
  refine ⟨rfl, rfl, ?_, hwn, ?_, ?_⟩
  · intro t h e1 e2
    obtain ⟨h1, h2⟩ := ht i hi t e1
    obtain ⟨h3, h4⟩ := (hrng i hi h).2.2.1 e2
    obtain ⟨p, e, g, q, j1, j2, j3, j4, j5, -, j6, j7⟩ := derived (hz i hi) h1 h2 h3 h4
    have ec : cell s f i = some ⟨t, e, g⟩ := by simp [cell, e1, e2, j3, j4]
    rw [ec] at hsolv
    obtain ⟨r, rfl, r1, r2, -⟩ := hsolv
    exact ⟨r, q, p, hk3 _, r1, r2, by simp [e1, e2, j5], j6, j7, j1, j2⟩
  · intro x hx
    have hx0 := (hrng i hi x).2.1 hx
    obtain ⟨P, hP⟩ : ∃ P, s.roi.map (phasePx s f (assign s.roi w fun _ => none)) = P := ⟨_, rfl⟩
    obtain ⟨q, hq⟩ : ∃ q, phasePx s f (assign s.roi w fun _ => none) i = q := ⟨_, rfl⟩
    have hqx : q.precip = some x := by rw [← hq]; exact hx
    obtain ⟨-, f0, f1⟩ := Precip.enforced_spec s.phase hr P q
    rw [hP]
    simp only [get P hP, hq]
    refine ⟨Precip.enforced s.phase P q * x, (1 - Precip.enforced s.phase P q) * x, mul_nonneg f0 hx0,
      mul_nonneg (by linarith) hx0, by ring, ?_, ?_, ?_, ?_⟩
    · unfold Precip.partition
      cases s.phase.hasSrf <;> simp [hqx]
    · intro hs
      simp [Precip.partition, hs, hqx]
    · intro hs k hk
      have : q.srf = some k := by rw [← hq]; exact hk
      simp [Precip.partition, hs, hqx, this, Precip.op2]
    · intro htn
      have hqt : q.temp = none := by
        rw [← hq]
        simp only [phasePx, htn, hwn (Or.inl htn), ite_self]
      have hfr : Precip.frac s.phase q = 0 := by
        simp only [Precip.frac, Precip.phase, hqt]
        by_cases h0 : s.phase.range = 0 <;> simp [h0, not_lt.mpr hr]
      have : Precip.enforced s.phase P q = 0 := by
        simp only [Precip.enforced]
        split_ifs
        · split
          · split_ifs <;> simp [hfr]
          · exact hfr
        · exact hfr
      rw [this, zero_mul]
  · intro hx
    obtain ⟨P, hP⟩ : ∃ P, s.roi.map (phasePx s f (assign s.roi w fun _ => none)) = P := ⟨_, rfl⟩
    obtain ⟨q, hq⟩ : ∃ q, phasePx s f (assign s.roi w fun _ => none) i = q := ⟨_, rfl⟩
    have hqx : q.precip = none := by rw [← hq]; exact hx
    rw [hP]
    simp only [get P hP, hq]
    unfold Precip.partition
    cases s.phase.hasSrf <;> simp [hqx, Precip.op2]

/-- Interpolation of a time step gives numbers within the ranges at a pixel: temperature `t`, humidity, precipitation
`x`, wind speed. -/
def Known (s : Setup ι) (d : Day ι) (i : ι) (t x : ℝ) : Prop :=
  ∃ f, interpolateData s.interp s.px s.roi d.stations blank = some f ∧ f.temp i = some t ∧ f.precip i = some x ∧
    f.relHum i ≠ none ∧ f.windSpeed i ≠ none

/-- Interpolation of a time step succeeds, and known temperatures are between -50 and 50 °C. -/
def Usable (s : Setup ι) (d : Day ι) : Prop :=
  ∃ f, interpolateData s.interp s.px s.roi d.stations blank = some f ∧
    ∀ i ∈ s.roi, ∀ t, f.temp i = some t → Atmosphere.T0 - 50 ≤ t ∧ t ≤ Atmosphere.T0 + 50

/-- Settings without snow redistribution for pixels up to 5000 m. -/
structure SetupOK (s : Setup ι) : Prop where
  range : 0 ≤ s.phase.range
  srf : s.phase.hasSrf = false
  elev : ∀ i ∈ s.roi, (s.px i).z ≤ 5000

/-- Values of a pixel after the step. -/
theorem known {s : Setup ι} (hs : SetupOK s) {fuel : ℕ} (hfuel : 70 ≤ fuel) {d : Day ι} (hd : Usable s d) {i : ι}
    (hi : i ∈ s.roi) {t x : ℝ} (hk : Known s d i t x) : ∃ m, step s fuel d.stations blank = some m ∧
      ∃ w q p u n r, m.temp i = some t ∧ m.wet i = some w ∧ m.spec i = some q ∧ m.press i = some p ∧ m.wind i = some u ∧
        m.rain i = some r ∧ m.snow i = some n ∧ Atmosphere.T0 - 50 ≤ t ∧ t ≤ Atmosphere.T0 + 50 ∧
        Atmosphere.T0 - 72 ≤ w ∧ w ≤ t + 15 / 100 ∧ 0 ≤ q ∧ (∀ qs, SurfaceTemp.satHumidity p t = some qs → q ≤ qs) ∧
        51000 < p ∧ 0 ≤ u ∧ 0 ≤ n ∧ 0 ≤ r ∧ n + r = x := by
  obtain ⟨f, hf, hrange⟩ := hd
  obtain ⟨f', hf', k1, k2, k3, k4⟩ := hk
  obtain rfl : f = f' := Option.some.inj (hf.symm.trans hf')
  obtain ⟨m, hm, h⟩ := C129_step s fuel hfuel d.stations blank f hf hs.range hs.elev hrange
  obtain ⟨h', hh'⟩ := Option.ne_none_iff_exists'.mp k3
  obtain ⟨u, hu⟩ := Option.ne_none_iff_exists'.mp k4
  obtain ⟨h1, h2, h3, -, h5, -⟩ := h i hi
  obtain ⟨w, q, p, z1, z2, z3, z4, z5, z6, z7, z8⟩ := h3 t h' k1 hh'
  obtain ⟨n, r, y1, y2, y3, y4, y5, -⟩ := h5 x k2
  have hu0 := (C104_ranges s.interp s.px s.roi d.stations blank f hf i hi u).2.2.2 hu
  exact ⟨m, hm, w, q, p, u, n, r, by rw [h1, k1], z1, z4, z7, by rw [h2, hu], y4, y5 hs.srf, (hrange i hi t k1).1,
    (hrange i hi t k1).2, z2, z3, z5, z6, z8, by linarith, y1, y2, y3⟩

/-- **C129 (multilayer model).** For every series of station data and of incoming radiation that makes the values at a
pixel known, the pixel gets complete inputs in every step, and a run from snow-free ground keeps the water balance: water
of the snow layers = interpolated precipitation - sublimation - runoff - deleted thin remainders. -/
theorem C129_multilayer (s : Setup ι) (hs : SetupOK s) (fuel : ℕ) (hfuel : 70 ≤ fuel) (c : Coupled.Site)
    (hc : Coupled.SiteOK c) (hm : c.lwcMethod ≠ .poreVolume ∨
      ∃ e, c.compaction = .empirical e ∧ e.maxCold ≤ 917 ∧ e.maxMelting ≤ 917)
    (i : ι) (hi : i ∈ s.roi) (days : List (Day ι)) (temps precips : List ℝ) (hu : ∀ d ∈ days, Usable s d)
    (hk : List.Forall₂ (fun d (v : ℝ × ℝ) => Known s d i v.1 v.2) days (temps.zip precips))
    (hl : precips.length = temps.length) (hmax : c.lwcMethod = .poreVolume → ∀ t ∈ temps, t ≤ Atmosphere.T0 + 45) :
    ∃ fs, forcings s fuel i days = some fs ∧ fs.map (fun f => f.temp) = temps ∧ fs.length = days.length ∧
      ∀ xs st, Coupled.run c fs (Coupled.initial c) = some (xs, st) →
        Coupled.SnowOK c st.snow ∧ (∀ x ∈ xs, 0 ≤ x.runoff ∧ 0 ≤ x.refreezing ∧ 0 ≤ x.melt) ∧
        ∃ deleted : List ℝ, deleted.length = days.length ∧
          (∀ d ∈ deleted, 0 ≤ d ∧ (c.lwcMethod = .poreVolume → d < 917 / 1000000)) ∧
          (st.snow.layers.map fun L => L.ice + L.lwc).sum = precips.sum -
            (xs.map fun x => x.sublimation + x.runoff).sum - deleted.sum := by
  have hT : Atmosphere.T0 = 27315 / 100 := rfl
  have key : ∀ (days : List (Day ι)) (temps precips : List ℝ), (∀ d ∈ days, Usable s d) →
      List.Forall₂ (fun d (v : ℝ × ℝ) => Known s d i v.1 v.2) days (temps.zip precips) →
      precips.length = temps.length → (c.lwcMethod = .poreVolume → ∀ t ∈ temps, t ≤ Atmosphere.T0 + 45) →
      ∃ fs, forcings s fuel i days = some fs ∧ fs.map (fun f => f.temp) = temps ∧ fs.length = days.length ∧
        (∀ f ∈ fs, Coupled.ForcingOK c f) ∧ fs.map (fun f => f.snow + f.rain) = precips := by
    intro days
    induction days with
    | nil =>
      intro temps precips _ hk hl _
      have h0 := hk.length_eq
      rw [List.length_zip, hl, min_self, List.length_nil] at h0
      have e1 := List.length_eq_zero_iff.mp h0.symm
      rw [e1, List.length_nil] at hl
      have e2 := List.length_eq_zero_iff.mp hl
      exact ⟨[], rfl, by simp [e1], rfl, by simp, by simp [e2]⟩
    | cons d days ih =>
      intro temps precips hu hk hl hmax
      cases temps with
      | nil => simp at hk
      | cons t temps =>
      cases precips with
      | nil => simp at hk
      | cons x precips =>
      rw [List.zip_cons_cons, List.forall₂_cons] at hk
      obtain ⟨fs, e1, e2, e3, e4, e5⟩ := ih temps precips (fun d hd => hu d (by simp [hd])) hk.2 (by simpa using hl)
        fun h t ht => hmax h t (by simp [ht])
      obtain ⟨m, hm, w, q, p, u, n, r, a1, a2, a3, a4, a5, a6, a7, b1, b2, b3, b4, b5, b6, b7, b8, b9, b10, b11⟩ :=
        known hs hfuel (hu d (by simp)) hi hk.1
      have hF : ((step s fuel d.stations blank).bind fun m => forcing m i (d.sw i) (d.lw i)) =
          some ⟨t, w, q, d.sw i, d.lw i, u, r, n, Atmosphere.modelDensity t p, Atmosphere.latentHeat t,
            fun x => (SurfaceTemp.satHumidity p x).getD 0⟩ := by
        simp [hm, forcing, a1, a2, a3, a4, a5, a6, a7]
      refine ⟨(⟨t, w, q, d.sw i, d.lw i, u, r, n, Atmosphere.modelDensity t p, Atmosphere.latentHeat t,
        fun x => (SurfaceTemp.satHumidity p x).getD 0⟩ : Coupled.Forcing) :: fs, ?_, ?_, by simp only [List.length_cons, e3], ?_, ?_⟩
      rotate_left
      · rw [List.map_cons, e2]
      · intro f hf
        rcases List.mem_cons.mp hf with rfl | hf
        · refine ⟨b9, b10, fun hpv => ?_⟩
          have := hmax hpv t (by simp)
          show w ≤ 319
          rw [hT] at this
          linarith
        · exact e4 f hf
      · rw [List.map_cons, e5]
        simp only [b11]
      · unfold forcings at e1 ⊢
        rw [List.mapM_cons, hF, e1]
        rfl
  obtain ⟨fs, e1, e2, e3, e4, e5⟩ := key days temps precips hu hk hl hmax
  refine ⟨fs, e1, e2, e3, fun xs st hr => ?_⟩
  obtain ⟨k1, k2, k3, del, k4, k5, k6⟩ := Coupled.C122_run c hc fs e4 (Coupled.C122_light c hc hm fs e4) xs st hr
  exact ⟨k1, k3, del, by rw [k4, e3], k5, by rw [k6, e5]⟩

/-- Radiation and precipitation of a time step of the cryolayer model are moderate: incoming longwave radiation exceeds
the configured surface heat flux; below the freezing point, absorbed radiation is at most 649 W m-2 above it; at most 240
mm of precipitation per hour. -/
structure Moderate (c : CoupledCryo.Site) (sw lw t x : ℝ) : Prop where
  short : 0 ≤ sw
  long : c.heatFlux + 1 ≤ lw
  absorbed : t < T0 → (1 - CoupledCryo.low c) * sw + lw ≤ 649 + c.heatFlux
  intensity : 15 * x ≤ c.dt

/-- **C129 (cryolayer model).** For every series of station data and of incoming radiation that makes the values at all
pixels of the region of interest known and moderate, all stages of all steps end, no NaN arises at any pixel, and over the
run the snow water equivalent of every pixel is the interpolated precipitation minus sublimation minus runoff. -/
theorem C129_cryo (s : Setup ℕ) (hs : SetupOK s) (hroi : s.roi.Nodup) (fuel : ℕ) (hfuel : 70 ≤ fuel)
    (c : CoupledCryo.Site) (hc : CoupledCryo.SiteOK c) (hm : c.lwcMethod ≠ .poreVolume) (days : List (Day ℕ))
    (hu : ∀ d ∈ days, Usable s d) (precips : ℕ → List ℝ)
    (hk : ∀ i ∈ s.roi, List.Forall₂ (fun d x => ∃ t, Known s d i t x ∧ Moderate c (d.sw i) (d.lw i) t x) days (precips i)) :
    ∃ fs, cryoForcings s fuel days = some fs ∧ fs.length = days.length ∧
      ∃ xs q, CoupledCryo.run c s.roi fs (CoupledCryo.start c s.roi) = some (xs, q) ∧
        ∀ i ∈ s.roi, ∃ (st : CoupledCryo.State) (ys : List (Cryo.Fluxes ℝ)), q i = some st ∧
          xs.map (fun x => x i) = ys.map some ∧ ys.length = days.length ∧
          (∀ L ∈ CoupledCryo.layers st.snow, CoupledCryo.LayerOK c L) ∧
          st.snow.swe = (precips i).sum - (ys.map fun y => y.sublimation + y.runoff).sum := by
  have hT : Atmosphere.T0 = 27315 / 100 := rfl
  have hT' : (T0 : ℝ) = 27315 / 100 := by norm_num [T0]
  have hdt := hc.dt
  have key : ∀ (days : List (Day ℕ)) (precips : ℕ → List ℝ), (∀ d ∈ days, Usable s d) →
      (∀ i ∈ s.roi, List.Forall₂ (fun d x => ∃ t, Known s d i t x ∧ Moderate c (d.sw i) (d.lw i) t x) days (precips i)) →
      ∃ fs, cryoForcings s fuel days = some fs ∧ fs.length = days.length ∧
        (∀ f ∈ fs, ∀ i ∈ s.roi, CoupledCryo.Weather c (f i) ∧ CoupledCryo.Shade c (f i)) ∧
        ∀ i ∈ s.roi, fs.map (fun f => (f i).snow + (f i).rain) = precips i := by
    intro days
    induction days with
    | nil =>
      intro precips _ hk
      refine ⟨[], rfl, rfl, by simp, fun i hi => ?_⟩
      have := hk i hi
      rw [List.forall₂_nil_left_iff] at this
      rw [this]; rfl
    | cons d days ih =>
      intro precips hu hk
      obtain ⟨fs, e1, e2, e3, e4⟩ := ih (fun i => (precips i).tail) (fun d hd => hu d (by simp [hd])) fun i hi => by
        obtain ⟨x, l, -, h2, h3⟩ := List.forall₂_cons_left_iff.mp (hk i hi)
        rw [h3]; exact h2
      obtain ⟨f, hf, hrange⟩ := hu d (by simp)
      obtain ⟨m, hm', -⟩ := C129_step s fuel hfuel d.stations blank f hf hs.range hs.elev hrange
      have hpix : ∀ i ∈ s.roi, ∃ F, cryoForcing m i (d.sw i) (d.lw i) d.firnDate = some F ∧
          CoupledCryo.Weather c F ∧ CoupledCryo.Shade c F ∧ precips i = (F.snow + F.rain) :: (precips i).tail := by
        intro i hi
        obtain ⟨x, l, ⟨t, hkn, hmod⟩, -, h3⟩ := List.forall₂_cons_left_iff.mp (hk i hi)
        obtain ⟨m', hm'', w, q, p, u, n, r, a1, a2, a3, a4, a5, a6, a7, b1, b2, b3, b4, b5, b6, b7, b8, b9, b10, b11⟩ :=
          known hs hfuel (hu d (by simp)) hi hkn
        obtain rfl : m = m' := Option.some.inj (hm'.symm.trans hm'')
        refine ⟨⟨t, w, q, p, d.sw i, d.lw i, u, r, n, d.firnDate⟩, by simp [cryoForcing, a1, a2, a3, a4, a5, a6, a7],
          ⟨b9, b10, b8, hmod.short, hmod.long, ?_, ?_, fun h => absurd h hm, ?_, b5⟩, ⟨?_, ?_⟩, ?_⟩
        · show T0 - 65 ≤ t
          linarith
        · show 1 ≤ w
          linarith
        · show 30000 ≤ p
          linarith
        · intro _ qs hqs
          exact b6 qs hqs
        · intro ht
          have h1 := hmod.absorbed ht
          have h2 := hmod.intensity
          have h4 : max 0 (w - T0) ≤ 15 / 100 := by
            refine max_le (by norm_num) ?_
            have : t < T0 := ht
            linarith
          have h5 : 0 ≤ max 0 (w - T0) := le_max_left _ _
          show (1 - CoupledCryo.low c) * d.sw i + d.lw i + 2100 * max 0 (w - T0) * n / c.dt ≤ 670 + c.heatFlux
          have h6 : 2100 * max 0 (w - T0) * n / c.dt ≤ 21 := by
            rw [div_le_iff₀ hdt]
            have : max 0 (w - T0) * n ≤ 15 / 100 * n := mul_le_mul_of_nonneg_right h4 b9
            nlinarith
          linarith
        · rw [h3]
          simp only [List.tail_cons, b11]
      haveI : Inhabited CoupledCryo.Forcing := ⟨⟨0, 0, 0, 0, 0, 0, 0, 0, 0, false⟩⟩
      choose! F hF1 hF2 hF3 hF4 using hpix
      have hmap : s.roi.mapM (fun i => cryoForcing m i (d.sw i) (d.lw i) d.firnDate) = some (s.roi.map F) := by
        have : ∀ l : List ℕ, (∀ i ∈ l, i ∈ s.roi) →
            l.mapM (fun i => cryoForcing m i (d.sw i) (d.lw i) d.firnDate) = some (l.map F) := by
          intro l
          induction l with
          | nil => intro _; rfl
          | cons a l ih =>
            intro hl
            rw [List.mapM_cons, hF1 a (hl a (by simp)), ih fun i hi => hl i (by simp [hi])]
            rfl
        exact this s.roi fun _ h => h
      have hlook : ∀ i ∈ s.roi, (s.roi.zip (s.roi.map F)).lookup i = some (F i) := by
        have : ∀ l : List ℕ, ∀ i ∈ l, (l.zip (l.map F)).lookup i = some (F i) := by
          intro l
          induction l with
          | nil => intro i hi; simp at hi
          | cons a l ih =>
            intro i hi
            rw [List.map_cons, List.zip_cons_cons, List.lookup_cons]
            by_cases hia : i = a
            · subst hia; simp
            · rw [show (i == a) = false by simpa using hia]
              exact ih i (by simpa [hia] using hi)
        exact this s.roi
      obtain ⟨g, hg⟩ : ∃ g : ℕ → CoupledCryo.Forcing, g = fun i =>
        ((s.roi.zip (s.roi.map F)).lookup i).getD ⟨0, 0, 0, 0, 0, 0, 0, 0, 0, false⟩ := ⟨_, rfl⟩
      have hgi : ∀ i ∈ s.roi, g i = F i := fun i hi => by rw [hg]; simp only [hlook i hi, Option.getD_some]
      refine ⟨g :: fs, ?_, by simp [e2], ?_, ?_⟩
      · unfold cryoForcings at e1 ⊢
        rw [List.mapM_cons, hm', Option.bind_some, hmap, e1, hg]
        rfl
      · intro f' hf' i hi
        rcases List.mem_cons.mp hf' with rfl | hf'
        · rw [hgi i hi]
          exact ⟨hF2 i hi, hF3 i hi⟩
        · exact e3 f' hf' i hi
      · intro i hi
        rw [List.map_cons, e4 i hi, hgi i hi]
        exact (hF4 i hi).symm
  obtain ⟨fs, e1, e2, e3, e4⟩ := key days precips hu hk
  obtain ⟨xs, q, h1, h2⟩ := CoupledCryo.C124_run c hc s.roi hroi fs (fun f hf i hi => (e3 f hf i hi).1)
    (CoupledCryo.C124_fair c hc hm s.roi hroi fs fun f hf i hi => ⟨(e3 f hf i hi).1, fun _ => (e3 f hf i hi).2⟩)
  refine ⟨fs, e1, e2, xs, q, h1, fun i hi => ?_⟩
  obtain ⟨st, ys, k1, k2, k3, -, k5, k6⟩ := h2 i hi
  exact ⟨st, ys, k1, k2, by rw [k3, e2], k5, by rw [k6, e4 i hi]⟩

/-! ## Non-vacuity -/

/-- One station at one pixel, interpolation with fixed lapse rates. -/
noncomputable def exSetup : Setup ℕ where
  interp := ⟨⟨.fixed, 0, true⟩, ⟨.fractional, 0, true⟩, ⟨.fixed, 0, true⟩, ⟨.fixed, 0, true⟩, .idw, false⟩
  px := fun _ => ⟨100, 100, 2000, 0, 0, 0⟩
  roi := [0]
  phase := ⟨27365 / 100, 2, false, false⟩
  byWetBulb := true
  srf := fun _ => none

/-- A day with -5 °C, 5 mm of precipitation, 80 % humidity and a wind speed of 3 m/s. -/
noncomputable def exDay : Day ℕ where
  stations := [⟨some 100, some 100, some 2000, some 268, some 5, some 80, some 3, none, none⟩]
  sw := fun _ => 100
  lw := fun _ => 250
  firnDate := false

theorem exSetup_ok : SetupOK exSetup :=
  ⟨by norm_num [exSetup], rfl, fun i _ => by norm_num [exSetup]⟩

theorem exDay_known : Known exSetup exDay 0 268 5 ∧ Usable exSetup exDay := by
  have hex : ∃ f, interpolateData exSetup.interp exSetup.px exSetup.roi exDay.stations blank = some f := by
    simp [exSetup, exDay, interpolateData, interpRoi, MeteoInterp.interpolate, stationData, stationRec,
      MeteoInterp.trended]
  obtain ⟨f, hf⟩ := hex
  obtain ⟨h1, h2, h3⟩ := C104_station exSetup.interp exSetup.px exSetup.roi [] []
    ⟨some 100, some 100, some 2000, some 268, some 5, some 80, some 3, none, none⟩ blank f hf 0 (by simp [exSetup])
    rfl rfl rfl (by simp)
  obtain ⟨t1, t2⟩ := h1 268 rfl (by norm_num) (exact_of_lapse _ _ (Or.inl rfl))
  have t3 := t2 80 rfl (by norm_num) (by norm_num) (by norm_num [Atmosphere.T0]) rfl (exact_of_lapse _ _ (Or.inl rfl))
  have t4 := h2 5 rfl (by norm_num) (exact_of_lapse _ _ (Or.inr rfl))
  have t5 := (h3 rfl).1 3 rfl (by norm_num) (exact_of_lapse _ _ (Or.inl rfl))
  refine ⟨⟨f, hf, t1, t4, by simp [t3], by simp [t5]⟩, f, hf, fun i hi t ht => ?_⟩
  obtain rfl : i = 0 := by simpa [exSetup] using hi
  rw [t1, Option.some.injEq] at ht
  rw [← ht]
  norm_num [Atmosphere.T0]

/-- Any number of such days meets the conditions of `C129_cryo`. -/
example (n : ℕ) (fuel : ℕ) (hf : 70 ≤ fuel) :
    ∃ fs, cryoForcings exSetup fuel (List.replicate n exDay) = some fs ∧
      ∃ xs q, CoupledCryo.run CoupledCryo.exSite [0] fs (CoupledCryo.start CoupledCryo.exSite [0]) = some (xs, q) ∧
        ∃ (st : CoupledCryo.State) (ys : List (Cryo.Fluxes ℝ)), q 0 = some st ∧
          st.snow.swe = n * 5 - (ys.map fun y => y.sublimation + y.runoff).sum := by
  obtain ⟨fs, h1, -, xs, q, h2, h3⟩ := C129_cryo exSetup exSetup_ok (by simp [exSetup]) fuel hf CoupledCryo.exSite
    CoupledCryo.exSite_ok (by simp [CoupledCryo.exSite]) (List.replicate n exDay)
    (fun d hd => by rw [(List.mem_replicate.mp hd).2]; exact exDay_known.2) (fun _ => List.replicate n 5) (by
      intro i hi
      obtain rfl : i = 0 := by simpa [exSetup] using hi
      have hday : ∃ t, Known exSetup exDay 0 t 5 ∧ Moderate CoupledCryo.exSite (exDay.sw 0) (exDay.lw 0) t 5 :=
        ⟨268, exDay_known.1, by norm_num [exDay], by norm_num [exDay, CoupledCryo.exSite],
          fun _ => by rw [CoupledCryo.low_exSite]; norm_num [exDay, CoupledCryo.exSite], by norm_num [CoupledCryo.exSite]⟩
      induction n with
      | zero => exact .nil
      | succ n ih => exact .cons hday ih)
  obtain ⟨st, ys, k1, -, -, -, k2⟩ := h3 0 (by simp [exSetup])
  exact ⟨fs, h1, xs, q, h2, st, ys, k1, by simpa using k2⟩

/-- Any number of such days meets the conditions of `C129_multilayer`. -/
example (n : ℕ) : (∀ d ∈ List.replicate n exDay, Usable exSetup d) ∧
    List.Forall₂ (fun d (v : ℝ × ℝ) => Known exSetup d 0 v.1 v.2) (List.replicate n exDay)
      ((List.replicate n 268).zip (List.replicate n 5)) := by
  refine ⟨fun d hd => by rw [(List.mem_replicate.mp hd).2]; exact exDay_known.2, ?_⟩
  induction n with
  | zero => exact .nil
  | succ n ih => exact .cons exDay_known.1 ih

end Verif.Meteorology
