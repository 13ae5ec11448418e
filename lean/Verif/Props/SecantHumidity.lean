import Verif.Props.SurfaceTemp
import Verif.Lemmas.SecantHumidity

/-!
# C80: the secant iteration with the saturation humidity of the program

The formula for saturation vapor pressure changes from ice to water at the melting point. It has a jump and a kink
there, and a pole where the vapor pressure approaches the air pressure.
-/

namespace Verif.SurfaceTemp

open Verif.Atmosphere (T0 cp Over svp svpOver specificHumidity)
open Verif.Surface (Pixel sigma)
open Verif.SatHumidity

/-- A snow covered pixel: humidity as computed by the program for the air pressure `press`, physical ranges, and a
balance that is not negative at 1 K and at most 360 W m-2 at the melting point. -/
structure Frost (p : Pixel) (press lat g : ℝ) : Prop where
  press_ge : 30000 ≤ press
  qsat : ∀ t, 1 ≤ t → t ≤ T0 + 90 → satHumidity press t = some (p.qsat t)
  lat_nonneg : 0 ≤ lat
  lat_le : lat ≤ 3000000
  density : 0 ≤ p.density
  exch : 0 ≤ p.exch
  wind : 0 ≤ p.wind
  dt : 0 < p.dt
  rain : 0 ≤ p.rain
  snow : 0 ≤ p.snow
  cold : 0 ≤ remainder p 1 lat g 1
  warm : remainder p 1 lat g T0 ≤ 360

section aux
variable {p : Pixel} {press lat g : ℝ}

theorem satHumidity_ice {t : ℝ} (hp : 30000 ≤ press) (h1 : 1 ≤ t) (h2 : t < T0) :
    satHumidity press t = some (Q .ice press t) := by
  have hr := range_cold hp
  have hb := below hr ⟨h1, h2.le⟩
  have hc : Over.ice.c + (t - T0) ≠ 0 := by have := hr.low; exact (by linarith : 0 < Over.ice.c + (t - T0)).ne'
  have hs : svp t = some (E .ice t) := by
    unfold svp
    rw [if_neg (by linarith : ¬ 0 ≤ t - T0)]
    simp only [svpOver, E]
    rw [if_neg hc]
  unfold satHumidity
  rw [hs, Option.bind_some]
  unfold specificHumidity
  simp only
  rw [if_neg hb.ne']
  rfl

theorem satHumidity_water {t : ℝ} (hp : 30000 ≤ press) (h1 : T0 ≤ t) (h2 : t ≤ T0 + 90) :
    satHumidity press t = some (Q .water press t) := by
  have hr := range_warm hp
  have hb := below hr ⟨h1, h2⟩
  have hc : Over.water.c + (t - T0) ≠ 0 := by have := hr.low; exact (by linarith : 0 < Over.water.c + (t - T0)).ne'
  have hs : svp t = some (E .water t) := by
    unfold svp
    rw [if_pos (by linarith : 0 ≤ t - T0)]
    simp only [svpOver, E]
    rw [if_neg hc]
  unfold satHumidity
  rw [hs, Option.bind_some]
  unfold specificHumidity
  simp only
  rw [if_neg hb.ne']
  rfl

theorem humid (h : Frost p press lat g) : Humid p.qsat press where
  press := h.press_ge
  ice := fun t h1 h2 => by
    have := h.qsat t h1 (by linarith)
    rw [satHumidity_ice h.press_ge h1 h2] at this
    exact (Option.some.inj this).symm
  water := fun t h1 h2 => by
    have hT : T0 = 273.15 := by norm_num [T0]
    have := h.qsat t (by linarith) h2
    rw [satHumidity_water h.press_ge h1 h2] at this
    exact (Option.some.inj this).symm

theorem ends_frost (h : Frost p press lat g) : Ends (remainder p 1 lat g) (T0 - 10) T0 := by
  have hcp : (0 : ℝ) < cp := by norm_num [cp]
  have hT : T0 = 273.15 := by norm_num [T0]
  have hsg : (0 : ℝ) < 99 / 100 * sigma := by norm_num [sigma]
  have hw' : (0 : ℝ) ≤ Verif.Surface.cWater := by norm_num [Verif.Surface.cWater]
  have hi' : (0 : ℝ) ≤ Verif.Surface.cIce := by norm_num [Verif.Surface.cIce]
  have ht : 0 ≤ p.transfer := by
    unfold Pixel.transfer
    exact mul_nonneg (mul_nonneg h.density h.exch) h.wind
  have hp := h.press_ge
  have hp0 : 0 < press := by linarith
  obtain ⟨C, hC⟩ : ∃ C, (Verif.Surface.cWater * p.rain + Verif.Surface.cIce * p.snow) / p.dt = C := ⟨_, rfl⟩
  have hC0 : 0 ≤ C := by
    rw [← hC]
    exact div_nonneg (add_nonneg (mul_nonneg hw' h.rain) (mul_nonneg hi' h.snow)) h.dt.le
  have hB0 : 0 ≤ cp * p.transfer + C := by positivity
  have hW0 : 0 ≤ lat * p.transfer := mul_nonneg h.lat_nonneg ht
  have hform : Form (remainder p 1 lat g) p.qsat
      (p.swIn - p.albedo * p.swIn + p.lwIn + cp * p.transfer * p.temp + lat * p.transfer * p.specHum +
        (Verif.Surface.cWater * p.temp * p.rain + Verif.Surface.cIce * p.wetBulb * p.snow) / p.dt - g)
      (cp * p.transfer + C) (99 / 100 * sigma) (lat * p.transfer) := by
    constructor
    intro t
    simp only [remainder, Pixel.netRad, Pixel.sensFlux, Pixel.advHeat, ← hC]
    ring
  have hhigh : remainder p 1 lat g T0 ≤ 9 * (remainder p 1 lat g (T0 - 10) - remainder p 1 lat g T0) := by
    have hq := q_mono_cold (humid h) (⟨by rw [hT]; norm_num, by linarith⟩ : T0 - 10 ∈ Set.Icc 1 T0)
      (Set.right_mem_Icc.2 (by rw [hT]; norm_num)) (by linarith)
    have hd := hdiff hform (T0 - 10) T0
    have h1 : 0 ≤ (cp * p.transfer + C) * (T0 - (T0 - 10)) := mul_nonneg hB0 (by linarith)
    have h2 : 0 ≤ lat * p.transfer * (p.qsat T0 - p.qsat (T0 - 10)) := mul_nonneg hW0 (by linarith)
    have h3 : 40 ≤ 99 / 100 * sigma * (T0 ^ 4 - (T0 - 10) ^ 4) := by rw [hT]; norm_num [sigma]
    have := h.warm
    linarith
  refine ends_pixel hform (humid h) hsg hB0 hW0 ?_ h.cold hhigh
  rw [div_le_iff₀ hp0]
  have h1 : lat * p.transfer ≤ 3000000 * p.transfer := mul_le_mul_of_nonneg_right h.lat_le ht
  have h2 : 30000 * (cp * p.transfer + C) ≤ press * (cp * p.transfer + C) := mul_le_mul_of_nonneg_right hp hB0
  have h3 : 1000 * p.transfer ≤ cp * p.transfer := mul_le_mul_of_nonneg_right (by norm_num [cp]) ht
  linarith

end aux

/-- **C80.** With the saturation humidity of the program, whose formula changes at the melting point, the secant loop
ends for every set of snow covered pixels whose balance is not negative at 1 K and at most 360 W m-2 at the melting
point. -/
theorem C80_secant_terminates_humidity (px : ℕ → Pixel) (press lat g : ℕ → ℝ) (idxs : List ℕ) (hn : idxs.Nodup)
    (θ : ℕ → ℝ) (h : ∀ i ∈ idxs, Frost (px i) (press i) (lat i) (g i)) :
    ∃ n, ∀ m ≥ n, (secant (fun i => remainder (px i) 1 (lat i) (g i)) idxs θ m).2.2 = true := by
  have hex : ∀ l : List ℕ, (∀ i ∈ l, i ∈ idxs) →
      ∃ n, ∀ m ≥ n, ∀ i ∈ l, (pixRun (remainder (px i) 1 (lat i) (g i)) m (T0 - 10) T0).2.2 = true := by
    intro l
    induction l with
    | nil => exact fun _ => ⟨0, fun m _ i hi => by simp at hi⟩
    | cons j l ih =>
      intro hl
      obtain ⟨n, hn'⟩ := ih fun i hi => hl i (List.mem_cons_of_mem _ hi)
      obtain ⟨k, hk⟩ := ends_frost (h j (hl j List.mem_cons_self))
      refine ⟨max n k, fun m hm i hi => ?_⟩
      rcases List.mem_cons.1 hi with rfl | hi'
      · rw [pixRun_mono ((le_max_right n k).trans hm) hk]; exact hk
      · exact hn' m ((le_max_left n k).trans hm) i hi'
  obtain ⟨n, hn'⟩ := hex idxs fun i hi => hi
  exact ⟨n, fun m hm => (secant_eq (bal := fun i => remainder (px i) 1 (lat i) (g i)) hn θ m).2.2.2 (hn' m hm)⟩

/-- Around the melting point the saturation humidity of the program is not convex, at any pressure from 300 hPa on.
`C80_secant_terminates` therefore does not apply to it. -/
theorem C80_humidity_convex_false {press : ℝ} (hp : 30000 ≤ press) : ¬ ConvexOn ℝ (Set.Icc (T0 - 1) (T0 + 1))
    (fun t => (satHumidity press t).getD 0) := by
  intro hc
  have hT : T0 = 273.15 := by norm_num [T0]
  have hJ : 0 < Q .water press T0 - Q .ice press T0 := by
    have h1 : 0 < press - 378 / 1000 * Over.water.a := by norm_num [Over.a]; linarith
    have h2 : 0 < press - 378 / 1000 * Over.ice.a := by norm_num [Over.a]; linarith
    rw [sub_pos]
    unfold Q
    rw [E_T0, E_T0, div_lt_div_iff₀ h2 h1]
    norm_num [Over.a]
    linarith
  have hD : 0 ≤ Q .water press (T0 + 1) - Q .water press T0 := by
    have hr := range_warm hp
    refine le_trans ?_ (Q_slope hr ⟨le_rfl, by linarith⟩ (⟨by linarith, by linarith⟩ : T0 + 1 ∈ Set.Icc T0 (T0 + 90))
      (by linarith)).1
    exact mul_nonneg (dQ_pos hr ⟨le_rfl, by linarith⟩).le (by linarith)
  obtain ⟨J, hJe⟩ : ∃ J, Q .water press T0 - Q .ice press T0 = J := ⟨_, rfl⟩
  obtain ⟨D, hDe⟩ : ∃ D, Q .water press (T0 + 1) - Q .water press T0 = D := ⟨_, rfl⟩
  rw [hJe] at hJ
  rw [hDe] at hD
  obtain ⟨e, he⟩ : ∃ e, min 1 (J / (D + 1)) = e := ⟨_, rfl⟩
  have he0 : 0 < e := by rw [← he]; exact lt_min one_pos (by positivity)
  have he1 : e ≤ 1 := by rw [← he]; exact min_le_left _ _
  have heJ : e * (D + 1) ≤ J := by
    rw [← le_div_iff₀ (by linarith : 0 < D + 1), ← he]; exact min_le_right _ _
  have hs := hc.slope_mono_adjacent (x := T0 - e) (y := T0) (z := T0 + 1) ⟨by linarith, by linarith⟩
    ⟨by linarith, le_rfl⟩ (by linarith) (by linarith)
  simp only [satHumidity_ice hp (by linarith : 1 ≤ T0 - e) (by linarith : T0 - e < T0),
    satHumidity_water hp le_rfl (by linarith : T0 ≤ T0 + 90),
    satHumidity_water hp (by linarith : T0 ≤ T0 + 1) (by linarith : T0 + 1 ≤ T0 + 90), Option.getD_some] at hs
  rw [hDe, show T0 - (T0 - e) = e by ring, show T0 + 1 - T0 = (1 : ℝ) by ring, div_one, div_le_iff₀ he0] at hs
  have hi : Q .ice press (T0 - e) ≤ Q .ice press T0 := by
    have hr := range_cold hp
    have h1 := (Q_slope hr (⟨by linarith, by linarith⟩ : T0 - e ∈ Set.Icc 1 T0) ⟨by linarith, le_rfl⟩ (by linarith)).1
    have h2 : 0 ≤ dQ .ice press 1 * (T0 - (T0 - e)) :=
      mul_nonneg (dQ_pos hr ⟨le_rfl, by linarith⟩).le (by linarith)
    linarith
  nlinarith

/-- A cloudy winter day at 2500 m. -/
noncomputable def winterDay : Pixel where
  dt := 3600
  swIn := 300
  lwIn := 250
  albedo := 8 / 10
  temp := 268
  wetBulb := 267
  specHum := 2 / 1000
  rain := 0
  snow := 1
  wind := 3
  density := 1
  exch := 1 / 400
  latVap := 2510000
  gs := 0
  swe := 100
  ice := [100]
  ts := 268
  layerTemp := 268
  layerCond := 1
  layerThick := 1
  qsat := fun t => (satHumidity 75000 t).getD 0

/-- Non-vacuity of `C80_secant_terminates_humidity`. -/
example : Frost winterDay 75000 2844000 2 where
  press_ge := by norm_num
  qsat := by
    intro t h1 h2
    rcases lt_or_ge t T0 with h | h
    · simp [winterDay, satHumidity_ice (by norm_num : (30000 : ℝ) ≤ 75000) h1 h]
    · simp [winterDay, satHumidity_water (by norm_num : (30000 : ℝ) ≤ 75000) h h2]
  lat_nonneg := by norm_num
  lat_le := by norm_num
  density := by norm_num [winterDay]
  exch := by norm_num [winterDay]
  wind := by norm_num [winterDay]
  dt := by norm_num [winterDay]
  rain := by norm_num [winterDay]
  snow := by norm_num [winterDay]
  cold := by
    have hp : (30000 : ℝ) ≤ 75000 := by norm_num
    have hT : T0 = 273.15 := by norm_num [T0]
    have e : winterDay.qsat 1 = Q .ice 75000 1 := by
      simp [winterDay, satHumidity_ice hp le_rfl (by rw [hT]; norm_num)]
    have hs := (Q_slope (range_cold hp) (Set.left_mem_Icc.2 (by rw [hT]; norm_num))
      (Set.right_mem_Icc.2 (by rw [hT]; norm_num)) (by rw [hT]; norm_num : (1 : ℝ) ≤ T0)).1
    have hd := dQ_pos (range_cold hp) (Set.left_mem_Icc.2 (by rw [hT]; norm_num))
    have hq : winterDay.qsat 1 ≤ 1 / 100 := by
      rw [e]
      have h1 := (jump hp).1
      have h2 := Q_water_T0 hp
      have h3 : 0 ≤ dQ .ice 75000 1 * (T0 - 1) := mul_nonneg hd.le (by rw [hT]; norm_num)
      norm_num at h2 ⊢
      linarith
    simp only [remainder, Pixel.netRad, Pixel.sensFlux, Pixel.advHeat, Pixel.transfer]
    obtain ⟨x, hx⟩ : ∃ x, winterDay.qsat 1 = x := ⟨_, rfl⟩
    rw [hx] at hq ⊢
    simp only [winterDay]
    norm_num [sigma, cp, Verif.Surface.cWater, Verif.Surface.cIce]
    linarith
  warm := by
    have hp : (30000 : ℝ) ≤ 75000 := by norm_num
    have hT : T0 = 273.15 := by norm_num [T0]
    have e : winterDay.qsat T0 = Q .water 75000 T0 := by
      simp [winterDay, satHumidity_water hp le_rfl (by linarith)]
    have hq : 0 < winterDay.qsat T0 := by
      rw [e]; exact Q_nonneg (range_warm hp) ⟨le_rfl, by linarith⟩
    simp only [remainder, Pixel.netRad, Pixel.sensFlux, Pixel.advHeat, Pixel.transfer]
    obtain ⟨x, hx⟩ : ∃ x, winterDay.qsat T0 = x := ⟨_, rfl⟩
    rw [hx] at hq ⊢
    rw [hT]
    simp only [winterDay]
    norm_num [sigma, cp, Verif.Surface.cWater, Verif.Surface.cIce]
    linarith

end Verif.SurfaceTemp
