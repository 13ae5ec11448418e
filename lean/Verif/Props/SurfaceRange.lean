import Verif.Props.Coupled
import Verif.Props.SecantHumidity

/-!
# C126: the range of the surface temperature

One linearised step of the multilayer energy balance from a temperature between `m` and `M` ends between `m` and `M`.
-/

namespace Verif.Surface

open Verif.Atmosphere (cp rv)
open Verif.Atmosphere (Over)
open Verif.SatHumidity (E Q E_pos)
open Pixel

/-- Specification: radiation absorbed by the surface plus heat brought by precipitation at the present temperature. -/
noncomputable def gained (p : Pixel) : ℝ :=
  (1 - p.albedo) * p.swIn + p.lwIn +
    (cWater * (p.temp - p.ts) * p.rain + cIce * (p.wetBulb - p.ts) * p.snow) / p.dt

/-- Specification: conditions under which a surface is neither cooled below `m` nor heated above `M`. -/
structure Mild (p : Pixel) (m M : ℝ) : Prop where
  m_ge : 150 ≤ m
  m_le : m ≤ 270
  M_ge : 300 ≤ M
  M_le : M ≤ 400
  lat_ge : 2300000 ≤ p.latVap
  lat_le : p.latVap ≤ 2700000
  air : m ≤ p.temp
  /-- The air can supply the evaporation of a surface that is at most 20 K warmer than `m`. -/
  dry : ∀ t, m ≤ t → t ≤ m + 20 → 3034000 * p.qsat t ≤ 1004 * (p.temp - m)
  /-- The condensation of all vapor does not heat the air above `M`. -/
  humid : 3034000 * p.specHum ≤ 1004 * (M - p.temp)
  hum0 : 0 ≤ p.specHum
  layer_ge : m ≤ p.layerTemp
  layer_le : p.layerTemp ≤ M
  /-- The surface gains at least the emission at `m`. -/
  dim : 99 / 100 * sigma * m ^ 4 ≤ gained p
  /-- It gains at most what emission (linearised at `m`) and conduction remove at `M`. -/
  bright : gained p ≤ sigma * m ^ 3 * (4 * M - 301 / 100 * m) +
    2 * p.layerCond * (M - p.layerTemp) / p.layerThick

namespace SurfaceRange

/-- Emission and its linearisation, lower bound. -/
theorem emission_low {m t : ℝ} (hm : 0 ≤ m) (ht : m ≤ t) :
    -(99 / 100 * m ^ 4) ≤ -(99 / 100 * t ^ 4) + 4 * t ^ 3 * (t - m) := by
  have h1 : 0 ≤ t := hm.trans ht
  have h2 : 0 ≤ (t - m) ^ 2 * (3 * t ^ 2 + 2 * t * m + m ^ 2) := by positivity
  have h3 : m ^ 4 ≤ t ^ 4 := pow_le_pow_left₀ hm ht 4
  nlinarith [h2, h3]

/-- Emission and its linearisation, upper bound. -/
theorem emission_high {m M t : ℝ} (hm : 0 ≤ m) (ht : m ≤ t) (hM : t ≤ M) (h : 301 * m ≤ 297 * M) :
    m ^ 3 * (4 * M - 301 / 100 * m) ≤ t ^ 3 * (4 * M - 301 / 100 * t) := by
  have h1 : 0 ≤ t := hm.trans ht
  have hM0 : 0 ≤ M := h1.trans hM
  have e : t ^ 3 * (4 * M - 301 / 100 * t) - m ^ 3 * (4 * M - 301 / 100 * m) =
      (t - m) * (301 / 100 * ((M - t) * (t ^ 2 + t * m + m ^ 2)) +
        (99 / 100 * M * (t ^ 2 + t * m + m ^ 2) - 301 / 100 * m ^ 3)) := by ring
  have h2 : 3 * m ^ 2 ≤ t ^ 2 + t * m + m ^ 2 := by nlinarith
  have h3 : 301 / 100 * m ^ 3 ≤ 99 / 100 * M * (t ^ 2 + t * m + m ^ 2) := by
    have : 99 / 100 * M * (3 * m ^ 2) ≤ 99 / 100 * M * (t ^ 2 + t * m + m ^ 2) :=
      mul_le_mul_of_nonneg_left h2 (by positivity)
    have h4 : 301 / 100 * m * m ^ 2 ≤ 297 / 100 * M * m ^ 2 := mul_le_mul_of_nonneg_right (by linarith) (by positivity)
    nlinarith
  have h5 : 0 ≤ (M - t) * (t ^ 2 + t * m + m ^ 2) := mul_nonneg (by linarith) (by positivity)
  have h6 := mul_nonneg (sub_nonneg.2 ht) (by linarith : (0 : ℝ) ≤ 301 / 100 * ((M - t) * (t ^ 2 + t * m + m ^ 2)) +
        (99 / 100 * M * (t ^ 2 + t * m + m ^ 2) - 301 / 100 * m ^ 3))
  linarith

/-- Balance at the bound `x` of the linearisation at the present temperature. -/
noncomputable def atBound (p : Pixel) (x : ℝ) : ℝ :=
  surplus p p.avail (p.latHeat p.ts) p.ts + slope p p.avail (p.latHeat p.ts) p.ts * (p.ts - x)

theorem atBound_eq (p : Pixel) (x : ℝ) (hth : p.layerThick ≠ 0) :
    atBound p x = gained p + sigma * (-(99 / 100 * p.ts ^ 4) + 4 * p.ts ^ 3 * (p.ts - x)) +
      (p.density * p.exch * p.wind) * (cp * (p.temp - x) + p.latHeat p.ts * p.avail * (p.specHum - p.qsat p.ts +
        p.latHeat p.ts * p.qsat p.ts / (rv * p.ts ^ 2) * (p.ts - x))) +
      2 * p.layerCond / p.layerThick * (p.layerTemp - x) := by
  simp only [atBound, surplus, slope, gained]
  field_simp
  ring

theorem lat_range {p : Pixel} {m M : ℝ} (hm : Mild p m M) :
    2300000 ≤ p.latHeat p.ts ∧ p.latHeat p.ts ≤ 3034000 := by
  have := hm.lat_ge; have := hm.lat_le
  unfold latHeat lf
  split_ifs <;> constructor <;> linarith

theorem avail_range {p : Pixel} (h : Physical p) : 0 ≤ p.avail ∧ p.avail ≤ 1 :=
  ⟨(C79_availability p h).1, (C79_availability p h).2.1⟩

theorem low {p : Pixel} (h : Physical p) {m M : ℝ} (hm : Mild p m M) (h1 : m ≤ p.ts) (h2 : p.ts ≤ M) :
    0 ≤ atBound p m := by
  rw [atBound_eq p m h.layerThick.ne']
  have hm0 : 0 ≤ m := by linarith [hm.m_ge]
  have hs : (0 : ℝ) < sigma := by norm_num [sigma]
  have hr : (0 : ℝ) < rv := by norm_num [rv]
  have hts := h.ts
  obtain ⟨l1, l2⟩ := lat_range hm
  obtain ⟨a1, a2⟩ := avail_range h
  have e1 := mul_le_mul_of_nonneg_left (emission_low hm0 h1) hs.le
  have e2 := hm.dim
  have e3 : 0 ≤ 2 * p.layerCond / p.layerThick * (p.layerTemp - m) := by
    have := h.layerCond; have := h.layerThick; have := sub_nonneg.2 hm.layer_ge
    positivity
  have hT : 0 ≤ p.density * p.exch * p.wind := transfer_nonneg h
  have e4 : 0 ≤ cp * (p.temp - m) + p.latHeat p.ts * p.avail * (p.specHum - p.qsat p.ts +
        p.latHeat p.ts * p.qsat p.ts / (rv * p.ts ^ 2) * (p.ts - m)) := by
    have hq := h.qsat
    have hq0 := hm.hum0
    have hair : 0 ≤ p.temp - m := sub_nonneg.2 hm.air
    have hcp : (1004 : ℝ) ≤ cp := by norm_num [cp]
    have hla : 0 ≤ p.latHeat p.ts * p.avail := mul_nonneg (by linarith) a1
    by_cases hc : p.ts ≤ m + 20
    · have h3 := hm.dry p.ts h1 hc
      have h4 : p.latHeat p.ts * p.avail * p.qsat p.ts ≤ 3034000 * p.qsat p.ts := by
        apply mul_le_mul_of_nonneg_right _ hq
        calc p.latHeat p.ts * p.avail ≤ p.latHeat p.ts * 1 := mul_le_mul_of_nonneg_left a2 (by linarith)
          _ ≤ 3034000 := by linarith
      have h5 : 0 ≤ p.latHeat p.ts * p.qsat p.ts / (rv * p.ts ^ 2) * (p.ts - m) :=
        mul_nonneg (div_nonneg (mul_nonneg (by linarith) hq) (by positivity)) (by linarith)
      have h6 := mul_nonneg hla h5
      have h7 := mul_nonneg hla hq0
      have h8 : 1004 * (p.temp - m) ≤ cp * (p.temp - m) := mul_le_mul_of_nonneg_right hcp hair
      nlinarith
    · push Not at hc
      have h3 : rv * p.ts ^ 2 ≤ p.latHeat p.ts * (p.ts - m) := by
        have h4 : 2300000 * (p.ts - m) ≤ p.latHeat p.ts * (p.ts - m) :=
          mul_le_mul_of_nonneg_right l1 (by linarith)
        have h5 : rv * p.ts ^ 2 ≤ 2300000 * (p.ts - m) := by
          have := hm.m_le; have := hm.M_le
          norm_num [rv]
          nlinarith
        linarith
      have h4 : p.qsat p.ts ≤ p.latHeat p.ts * p.qsat p.ts / (rv * p.ts ^ 2) * (p.ts - m) := by
        rw [div_mul_eq_mul_div, le_div_iff₀ (by positivity)]
        nlinarith [mul_le_mul_of_nonneg_left h3 hq]
      have h5 := mul_nonneg hla (by linarith : (0 : ℝ) ≤ p.specHum - p.qsat p.ts +
        p.latHeat p.ts * p.qsat p.ts / (rv * p.ts ^ 2) * (p.ts - m))
      have h6 : 0 ≤ cp * (p.temp - m) := mul_nonneg (by linarith) hair
      linarith
  have e5 := mul_nonneg hT e4
  nlinarith

theorem high {p : Pixel} (h : Physical p) {m M : ℝ} (hm : Mild p m M) (h1 : m ≤ p.ts) (h2 : p.ts ≤ M) :
    atBound p M ≤ 0 := by
  rw [atBound_eq p M h.layerThick.ne']
  have hm0 : 0 ≤ m := by linarith [hm.m_ge]
  have hs : (0 : ℝ) < sigma := by norm_num [sigma]
  have hr : (0 : ℝ) < rv := by norm_num [rv]
  have hts := h.ts
  obtain ⟨l1, l2⟩ := lat_range hm
  obtain ⟨a1, a2⟩ := avail_range h
  have e1 := mul_le_mul_of_nonneg_left (emission_high hm0 h1 h2 (by linarith [hm.m_le, hm.M_ge])) hs.le
  have e2 := hm.bright
  have hT : 0 ≤ p.density * p.exch * p.wind := transfer_nonneg h
  have e4 : cp * (p.temp - M) + p.latHeat p.ts * p.avail * (p.specHum - p.qsat p.ts +
        p.latHeat p.ts * p.qsat p.ts / (rv * p.ts ^ 2) * (p.ts - M)) ≤ 0 := by
    have hq := h.qsat
    have hq0 := hm.hum0
    have h3 := hm.humid
    have hcp : (1004 : ℝ) ≤ cp := by norm_num [cp]
    have hla : 0 ≤ p.latHeat p.ts * p.avail := mul_nonneg (by linarith) a1
    have hla' : p.latHeat p.ts * p.avail ≤ 3034000 :=
      calc p.latHeat p.ts * p.avail ≤ p.latHeat p.ts * 1 := mul_le_mul_of_nonneg_left a2 (by linarith)
          _ ≤ 3034000 := by linarith
    have h5 : 0 ≤ p.latHeat p.ts * p.qsat p.ts / (rv * p.ts ^ 2) * (M - p.ts) :=
      mul_nonneg (div_nonneg (mul_nonneg (by linarith) hq) (by positivity)) (by linarith)
    have h6 := mul_nonneg hla h5
    have h7 := mul_nonneg hla hq
    have h8 := mul_le_mul_of_nonneg_right hla' hq0
    have h9 : 1004 * (M - p.temp) ≤ cp * (M - p.temp) := mul_le_mul_of_nonneg_right hcp (by linarith)
    nlinarith
  have e5 := mul_nonneg hT (neg_nonneg.2 e4)
  have e6 : 2 * p.layerCond * (M - p.layerTemp) / p.layerThick = -(2 * p.layerCond / p.layerThick * (p.layerTemp - M)) := by
    ring
  nlinarith

end SurfaceRange

open SurfaceRange

/-- **C126.** A surface temperature between `m` and `M` stays there, with and without melt. -/
theorem C126_range (p : Pixel) (h : Physical p) (m M : ℝ) (hm : Mild p m M) (h1 : m ≤ p.ts) (h2 : p.ts ≤ M) :
    m ≤ p.energyBalance.ts ∧ p.energyBalance.ts ≤ M := by
  have hs := slope_pos h
  have hl := low h hm h1 h2
  have hh := high h hm h1 h2
  simp only [atBound] at hl hh
  have hT : m ≤ Atmosphere.T0 ∧ Atmosphere.T0 ≤ M := by
    have := hm.m_le; have := hm.M_ge
    norm_num [Atmosphere.T0]
    constructor <;> linarith
  have hd : p.ts + p.dry.ts ≤ M := by
    have : p.dry.ts ≤ M - p.ts := by
      rw [Pixel.dry, solve_eq, div_le_iff₀ hs, mul_zero, zero_div]
      nlinarith
    linarith
  by_cases hp : p.Partially
  · have : p.energyBalance.ts = Atmosphere.T0 := (C79_partial_melt p h hp).1
    rw [this]; exact hT
  · by_cases hmm : p.Melts
    · obtain ⟨-, k1, k2⟩ := C79_full_melt p h hmm hp
      refine ⟨hT.1.trans k1, ?_⟩
      have hi : 0 ≤ lf * p.ice.sum / p.dt := by
        have := h.dt
        have := Pixel.sum_nonneg_of _ h.ice
        unfold lf
        positivity
      by_contra hc
      push Not at hc
      have := mul_pos hs (sub_pos.2 hc)
      nlinarith
    · have e : p.energyBalance.ts = p.ts + p.dry.ts := by
        simp only [energyBalance, if_neg hp, if_neg hmm]; rfl
      rw [e]
      refine ⟨?_, hd⟩
      have : m - p.ts ≤ p.dry.ts := by
        rw [Pixel.dry, solve_eq, le_div_iff₀ hs, mul_zero, zero_div]
        nlinarith
      linarith

/-- **C126.** With the saturation humidity of the program, at pressures above 300 hPa, the condition on evaporation
holds for every `m` up to 230 K if the air is at least 6 K warmer than `m`. -/
theorem C126_humidity (p : Pixel) (press m : ℝ) (hp : 30000 ≤ press)
    (hq : ∀ t, 1 ≤ t → t ≤ Atmosphere.T0 → SurfaceTemp.satHumidity press t = some (p.qsat t)) (hm : 150 ≤ m) (hm' : m ≤ 230)
    (hair : m + 6 ≤ p.temp) : ∀ t, m ≤ t → t ≤ m + 20 → 3034000 * p.qsat t ≤ 1004 * (p.temp - m) := by
  intro t h1 h2
  have hT : Atmosphere.T0 = 273.15 := by norm_num [Atmosphere.T0]
  have h3 := hq t (by linarith) (by rw [hT]; linarith)
  rw [SurfaceTemp.satHumidity_ice hp (by linarith) (by rw [hT]; linarith)] at h3
  rw [← Option.some.inj h3]
  have hx : Real.exp (Over.ice.b * (t - Atmosphere.T0) / (Over.ice.c + (t - Atmosphere.T0))) ≤ 17 / 125 := by
    have h4 : Over.ice.b * (t - Atmosphere.T0) / (Over.ice.c + (t - Atmosphere.T0)) ≤ -2 := by
      have hc : 0 < Over.ice.c + (t - Atmosphere.T0) := by rw [hT]; norm_num [Over.c]; linarith
      rw [div_le_iff₀ hc, hT]
      norm_num [Over.b, Over.c]
      linarith
    have h5 : Real.exp (-2) ≤ 17 / 125 := by
      rw [show (-2 : ℝ) = -(1 + 1) by norm_num, Real.exp_neg, Real.exp_add]
      rw [inv_le_comm₀ (by positivity) (by norm_num)]
      nlinarith [Real.exp_one_gt_d9]
    exact (Real.exp_le_exp.2 h4).trans h5
  have he : E .ice t ≤ 84 := by
    unfold E
    have : Over.ice.a = 61071 / 100 := rfl
    rw [this]
    linarith
  have he0 : 0 < E .ice t := E_pos _ _
  have : Q .ice press t ≤ 19 / 10000 := by
    unfold Q
    rw [div_le_iff₀ (by linarith)]
    linarith
  linarith

end Verif.Surface

namespace Verif.Coupled

open Verif.MultiLayer (Pixel Layer LwcMethod)

/-- The conditions of C126 hold in a time step. -/
def MildStep (c : Site) (m M : ℝ) (f : Forcing) (s : State) : Prop :=
  ∀ p a, prepare c f s = some p → Surface.albedo (fraction c p) p.albedo c.soilAlbedo = some a →
    Surface.Mild (surfacePixel c f s p a) m M

/-- The conditions of C126 hold in all time steps of a run. -/
def MildRun (c : Site) (m M : ℝ) : List Forcing → State → Prop
  | [], _ => True
  | f :: fs, s => MildStep c m M f s ∧ ∀ x s', step c f s = some (x, s') → MildRun c m M fs s'

theorem mild_step {c : Site} (h : SiteOK c) {f : Forcing} (hf : ForcingOK c f) (hn : Natural f) {s : State}
    (hp : Inv c s.snow) (hl : Light c f s.snow) {m M : ℝ} (hm0 : 0 < m) (hm : MildStep c m M f s) (h1 : m ≤ s.ts)
    (h2 : s.ts ≤ M) {x : MultiLayer.Fluxes ℝ} {s' : State} (hst : step c f s = some (x, s')) :
    m ≤ s'.ts ∧ s'.ts ≤ M := by
  obtain ⟨p, hprep, hinv, g, hpg, href⟩ := step_refines h hf hp hl
  obtain ⟨a, ha, hphys, he⟩ := C122_energy c h f hn s (lt_of_lt_of_le hm0 h1) p hinv
  obtain ⟨u, -, -, -, heq⟩ := href _ he
  rw [heq, Option.map_eq_some_iff] at hst
  obtain ⟨r, -, hr⟩ := hst
  have : s'.ts = (surfacePixel c f s p a).energyBalance.ts := by
    have := congrArg Prod.snd hr
    simp only at this
    rw [← this]
  rw [this]
  exact Surface.C126_range _ hphys m M (hm p a hprep ha) h1 h2

/-- **C126.** In a run under these conditions the surface temperature always lies between `m` and `M`. -/
theorem C126_run (c : Site) (h : SiteOK c) (fs : List Forcing) (hf : ∀ f ∈ fs, ForcingOK c f ∧ Natural f)
    (hl : LightRun c fs (initial c)) (m M : ℝ) (hm0 : 0 < m) (hm : MildRun c m M fs (initial c)) (h1 : m ≤ c.initTemp)
    (h2 : c.initTemp ≤ M) (xs : List (MultiLayer.Fluxes ℝ)) (s : State) (hr : run c fs (initial c) = some (xs, s)) :
    m ≤ s.ts ∧ s.ts ≤ M := by
  have key : ∀ (fs : List Forcing) (s0 : State) (xs : List (MultiLayer.Fluxes ℝ)), (∀ f ∈ fs, ForcingOK c f ∧ Natural f) →
      LightRun c fs s0 → Inv c s0.snow → MildRun c m M fs s0 → m ≤ s0.ts → s0.ts ≤ M → run c fs s0 = some (xs, s) →
      m ≤ s.ts ∧ s.ts ≤ M := by
    intro fs
    induction fs with
    | nil =>
      intro s0 xs _ _ _ _ h1 h2 hr
      simp only [run, Option.some.injEq, Prod.mk.injEq] at hr
      rw [← hr.2]
      exact ⟨h1, h2⟩
    | cons f fs ih =>
      intro s0 xs hf hl h0 hm h1 h2 hr
      obtain ⟨hf1, hf2⟩ := hf f (by simp)
      cases hst : step c f s0 with
      | none => simp [run, hst] at hr
      | some r =>
        obtain ⟨x, s1⟩ := r
        simp only [run, hst] at hr
        cases hr' : run c fs s1 with
        | none => rw [hr'] at hr; simp at hr
        | some y =>
          rw [hr'] at hr
          simp only [Option.some.injEq, Prod.mk.injEq] at hr
          obtain ⟨k1, k2⟩ := mild_step h hf1 hf2 h0 hl.1 hm0 hm.1 h1 h2 hst
          refine ih s1 y.1 (fun f' hf' => hf f' (by simp [hf'])) (hl.2 x s1 hst) (step_inv h hf1 h0 hl.1 hst).1
            (hm.2 x s1 hst) k1 k2 ?_
          rw [hr', ← hr.2]
  exact key fs _ xs hf hl (initial_inv h) hm h1 h2 hr

/-- **C126.** Under these conditions a run gives NaN only where a layer holds enough heat to melt by itself or a thin
remainder is left. -/
theorem C126_nan (c : Site) (h : SiteOK c) (fs : List Forcing) (hf : ∀ f ∈ fs, ForcingOK c f ∧ Natural f)
    (hl : LightRun c fs (initial c)) (m M : ℝ) (hm0 : 0 < m) (hm : MildRun c m M fs (initial c)) (h1 : m ≤ c.initTemp)
    (h2 : c.initTemp ≤ M) (hr : run c fs (initial c) = none) :
    ∃ (i : ℕ) (f : Forcing) (xs : List (MultiLayer.Fluxes ℝ)) (s : State), fs[i]? = some f ∧
      run c (fs.take i) (initial c) = some (xs, s) ∧ (HotLayer c f s ∨ Remainder c f s) := by
  obtain ⟨i, f, xs, s, k1, k2, -, k3⟩ := C122_nan_partial c h fs hf hl hr
  refine ⟨i, f, xs, s, k1, k2, ?_⟩
  rcases k3 with k3 | k3
  · exfalso
    have hsub : ∀ f ∈ fs.take i, ForcingOK c f ∧ Natural f := fun f hf' => hf f (List.mem_of_mem_take hf')
    have hl' : ∀ (fs : List Forcing) (i : ℕ) (s : State), LightRun c fs s → LightRun c (fs.take i) s := by
      intro fs
      induction fs with
      | nil => intro i s _; simp [LightRun]
      | cons f fs ih =>
        intro i s hl
        cases i with
        | zero => trivial
        | succ i => exact ⟨hl.1, fun x s' hs => ih i s' (hl.2 x s' hs)⟩
    have hm' : ∀ (fs : List Forcing) (i : ℕ) (s : State), MildRun c m M fs s → MildRun c m M (fs.take i) s := by
      intro fs
      induction fs with
      | nil => intro i s _; simp [MildRun]
      | cons f fs ih =>
        intro i s hl
        cases i with
        | zero => trivial
        | succ i => exact ⟨hl.1, fun x s' hs => ih i s' (hl.2 x s' hs)⟩
    have := (C126_run c h (fs.take i) hsub (hl' fs i _ hl) m M hm0 (hm' fs i _ hm) h1 h2 xs s k2).1
    linarith
  · exact k3

/-! ## Witnesses -/

theorem exDay_mild : MildStep exSite 240 350 exDay (initial exSite) := by
  intro p a hprep ha
  have hl : Light exSite exDay (initial exSite).snow := by
    intro _ q hq L hL
    simp only [compaction, initial, List.take_zero] at hq
    split at hq
    · simp at hq
    · simp only [Option.some.injEq] at hq
      subst hq
      simp [Pixel.setActive] at hL
  obtain ⟨p', hprep', hinv, g, hpg, -⟩ := step_refines exSite_ok exDay_ok.1 (initial_inv exSite_ok) hl
  rw [hprep, Option.some.injEq] at hprep'
  subst hprep'
  have hpn : p.n = 0 := by
    rw [hpg]
    simp [prepared, MultiLayer.updateHeatCap, ageing, MultiLayer.accumulation, exDay, MultiLayer.compact,
      Pixel.setActive, initial]
  have hdep : fraction exSite p = 0 := by
    have hdepth : Snow.depth (p.layers.map toD) = MultiLayer.depth p := by
      simp [Snow.depth, MultiLayer.depth, toD, Function.comp_def]
    have hd := wf_depth_zero hinv.solid.ok.wf hpn
    obtain ⟨-, -, -, hfz, -⟩ := Snow.C27_area_fraction exSite.depthScale (p.layers.map toD)
      (by rw [hdepth, hd])
    exact hfz.mpr (by rw [hdepth, hd])
  have hal : a = 1 / 5 := by
    rw [hdep, (Surface.C77_albedo 0 le_rfl zero_le_one 0 exSite.soilAlbedo).2.1 p.albedo] at ha
    exact (Option.some.inj ha).symm
  have htop : top Layer.thick p = 0 := by
    unfold top
    cases hlay : p.layers with
    | nil => rfl
    | cons L Ls => exact (hinv.solid.ok.wf.inactive L (by rw [hpn, hlay]; simp)).1
  have hlt : (surfacePixel exSite exDay (initial exSite) p a).layerTemp = 280 := by
    simp only [surfacePixel, htop]
    exact (Surface.C77_layer_temp 0 (soilDx exSite 0) _ _ le_rfl (by norm_num [soilDx, exSite])).2.2.1
  have hcond : 0 ≤ 2 * (surfacePixel exSite exDay (initial exSite) p a).layerCond * (350 - 280) /
      (surfacePixel exSite exDay (initial exSite) p a).layerThick := by
    obtain ⟨a', ha', hphys, -⟩ := C122_energy exSite exSite_ok exDay exDay_ok.2 (initial exSite)
      (by norm_num [initial, exSite]) p hinv
    rw [ha, Option.some.injEq] at ha'
    subst ha'
    have := hphys.layerCond; have := hphys.layerThick
    positivity
  subst hal
  refine ⟨by norm_num, by norm_num, by norm_num, by norm_num, ?_, ?_, ?_, ?_, ?_, ?_, by rw [hlt]; norm_num,
    by rw [hlt]; norm_num, ?_, ?_⟩
  · norm_num [surfacePixel, exDay]
  · norm_num [surfacePixel, exDay]
  · norm_num [surfacePixel, exDay]
  · intro t _ _; norm_num [surfacePixel, exDay]
  · norm_num [surfacePixel, exDay]
  · norm_num [surfacePixel, exDay]
  · norm_num [Surface.gained, surfacePixel, exDay, exSite, initial, Surface.sigma, Surface.cWater, Surface.cIce]
  · rw [hlt]
    refine le_add_of_le_of_nonneg ?_ hcond
    norm_num [Surface.gained, surfacePixel, exDay, exSite, initial, Surface.sigma, Surface.cWater, Surface.cIce]

/-- The conditions of C126 are met by a day with sunshine and rain on bare ground, from the initial state. -/
example : (∀ f ∈ [exDay], ForcingOK exSite f ∧ Natural f) ∧ MildRun exSite 240 350 [exDay] (initial exSite) ∧
    240 ≤ exSite.initTemp ∧ exSite.initTemp ≤ 350 :=
  ⟨by simpa using exDay_ok, ⟨exDay_mild, fun _ _ _ => trivial⟩, by norm_num [exSite], by norm_num [exSite]⟩

end Verif.Coupled
