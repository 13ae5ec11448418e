import Verif.Model.Snow
import Verif.Lemmas.ListSum
import Mathlib.Analysis.SpecialFunctions.Trigonometric.DerivHyp

/-!
# C24–C27: albedo ageing, compaction, fresh snow density, bulk snow properties
-/

namespace Verif.Snow

open Real

/-! ## C24: ageing and refresh of the albedo -/

/-- Admissible albedo configuration. -/
structure AlbedoCfg.OK (c : AlbedoCfg) : Prop where
  range : c.min ≤ c.max
  cold : 0 < c.coldTimescale
  melting : 0 < c.meltingTimescale
  refresh : 0 < c.refreshSnowfall

theorem decayTimescale_pos {c : AlbedoCfg} (h : c.OK) (temp : Option ℝ) :
    0 < decayTimescale c temp := by
  have := h.cold
  have := h.melting
  unfold decayTimescale
  split
  · positivity
  · split_ifs <;> positivity

theorem decay_bounds {c : AlbedoCfg} (h : c.OK) {dt : ℝ} (hdt : 0 ≤ dt) (temp : Option ℝ) {a : ℝ}
    (ha : c.min ≤ a) : c.min ≤ decay c dt temp a ∧ decay c dt temp a ≤ a := by
  have hτ := decayTimescale_pos h temp
  have he : exp (-1 / decayTimescale c temp * dt) ≤ 1 := by
    apply exp_le_one_iff.mpr
    have : 0 ≤ 1 / decayTimescale c temp * dt := by positivity
    have e : -1 / decayTimescale c temp * dt = -(1 / decayTimescale c temp * dt) := by ring
    linarith
  have hp := exp_pos (-1 / decayTimescale c temp * dt)
  unfold decay
  constructor
  · nlinarith [mul_nonneg (sub_nonneg.mpr ha) hp.le]
  · nlinarith [mul_nonneg (sub_nonneg.mpr ha) (sub_nonneg.mpr he)]

/-- **C24.** Ageing and refresh keep an albedo within its configured range, for every temperature
and snowfall (also missing ones) and every time step. -/
theorem C24_albedo_in_range (c : AlbedoCfg) (h : c.OK) (dt : ℝ) (hdt : 0 < dt)
    (temp snowfall : Option ℝ) (hs : ∀ x, snowfall = some x → 0 ≤ x) (a : ℝ) (hlo : c.min ≤ a)
    (hhi : a ≤ c.max) :
    ∃ a', albedo c dt temp snowfall (some a) = some a' ∧ c.min ≤ a' ∧ a' ≤ c.max := by
  obtain ⟨d1, d2⟩ := decay_bounds h hdt.le temp hlo
  have hr := h.refresh
  have hrate : 0 ≤ nanToZero (snowfall.map (· / dt)) := by
    cases snowfall with
    | none => simp [nanToZero]
    | some x => simpa [nanToZero] using div_nonneg (hs x rfl) hdt.le
  unfold albedo
  simp only
  cases c.refresh with
  | binary =>
    simp only
    split_ifs
    · exact ⟨_, rfl, h.range, le_refl _⟩
    · exact ⟨_, rfl, d1, by linarith⟩
  | continuous =>
    have hne : ¬ c.refreshSnowfall / 3600 = 0 := by positivity
    simp only [hne, false_and, if_false]
    have hf0 : 0 ≤ min 1 (nanToZero (snowfall.map (· / dt)) / (c.refreshSnowfall / 3600)) :=
      le_min (by norm_num) (by positivity)
    have hf1 : min 1 (nanToZero (snowfall.map (· / dt)) / (c.refreshSnowfall / 3600)) ≤ 1 :=
      min_le_left _ _
    refine ⟨_, rfl, ?_, ?_⟩
    · nlinarith
    · nlinarith

/-- **C24.** Without snowfall (zero or missing) ageing never raises the albedo, and lowers it
strictly if it is above the minimum. -/
theorem C24_ageing_lowers (c : AlbedoCfg) (h : c.OK) (dt : ℝ) (hdt : 0 < dt)
    (temp snowfall : Option ℝ) (hs : snowfall = none ∨ snowfall = some 0) (a : ℝ)
    (hlo : c.min ≤ a) :
    ∃ a', albedo c dt temp snowfall (some a) = some a' ∧ a' ≤ a ∧ (c.min < a → a' < a) := by
  have hr := h.refresh
  have hrate : nanToZero (snowfall.map (· / dt)) = 0 := by
    rcases hs with rfl | rfl <;> simp [nanToZero]
  have hdec : decay c dt temp a ≤ a := (decay_bounds h hdt.le temp hlo).2
  have hstrict : c.min < a → decay c dt temp a < a := by
    intro hl
    have hτ := decayTimescale_pos h temp
    have he : exp (-1 / decayTimescale c temp * dt) < 1 := by
      apply exp_lt_one_iff.mpr
      have : 0 < 1 / decayTimescale c temp * dt := by positivity
      have e : -1 / decayTimescale c temp * dt = -(1 / decayTimescale c temp * dt) := by ring
      linarith
    unfold decay
    nlinarith [mul_pos (sub_pos.mpr hl) (sub_pos.mpr he)]
  have hne : ¬ c.refreshSnowfall / 3600 = 0 := by positivity
  have hn : ¬ c.refreshSnowfall / 3600 ≤ 0 := by rw [not_le]; positivity
  unfold albedo
  simp only [hrate]
  cases c.refresh with
  | binary =>
    simp only [hn, if_false]
    exact ⟨_, rfl, hdec, hstrict⟩
  | continuous =>
    simp only [hne, false_and, if_false]
    exact ⟨_, rfl, by simpa using hdec, by simpa using hstrict⟩

/-- **C24.** Ageing over two steps at the same temperature equals ageing over one step of the
summed length. -/
theorem C24_ageing_semigroup (c : AlbedoCfg) (dt1 dt2 : ℝ) (temp : Option ℝ) (a : ℝ) :
    decay c dt2 temp (decay c dt1 temp a) = decay c (dt1 + dt2) temp a := by
  simp only [decay, mul_add, exp_add]
  ring

/-- **C24.** Snowfall at or above the refresh rate restores the maximum albedo with both methods. -/
theorem C24_full_refresh (c : AlbedoCfg) (h : c.OK) (dt : ℝ) (hdt : 0 < dt) (temp : Option ℝ)
    (x a : ℝ) (hx : c.refreshSnowfall / 3600 * dt ≤ x) :
    albedo c dt temp (some x) (some a) = some c.max := by
  have hr := h.refresh
  have h1 : c.refreshSnowfall / 3600 ≤ x / dt := by rwa [le_div_iff₀ hdt]
  have hne : ¬ c.refreshSnowfall / 3600 = 0 := by positivity
  have hone : 1 ≤ x / dt / (c.refreshSnowfall / 3600) := by
    rw [le_div_iff₀ (by positivity)]; linarith
  unfold albedo
  cases c.refresh with
  | binary => simp [nanToZero, h1]
  | continuous => simp only [hne, false_and, if_false, nanToZero]; simp [min_eq_left hone]

/-- The default configuration is admissible. -/
noncomputable def exAlbedo : AlbedoCfg :=
  { min := 55 / 100, max := 85 / 100, coldTimescale := 480, meltingTimescale := 200,
    refreshSnowfall := 1 / 2, refresh := .binary }

example : exAlbedo.OK := by constructor <;> norm_num [exAlbedo]

/-- With a refresh rate of zero the continuous method yields NaN without snowfall. -/
theorem C24_zero_refresh_witness :
    albedo { exAlbedo with refresh := .continuous, refreshSnowfall := 0 } 3600 none (some 0)
      (some (7 / 10)) = none := by
  simp [albedo, nanToZero]

/-! ## C25: compaction -/

/-- Specification of compaction of one layer: contents and temperature are kept; density
times thickness is the mass; density did not fall, thickness did not rise. -/
structure Compacted (L L' : DLayer) : Prop where
  ice : L'.ice = L.ice
  lwc : L'.lwc = L.lwc
  temp : L'.temp = L.temp
  thick_le : L'.thick ≤ L.thick
  thick_pos : 0 < L.thick → 0 < L'.thick
  density : 0 < L.thick → ∃ d, L'.dens = some d ∧ d * L'.thick = L.ice + L.lwc ∧
    (L.ice + L.lwc) / L.thick ≤ d

theorem andersonRate_nonneg (airTemp : Option ℝ) {load rho : ℝ} (lwc : ℝ) (hl : 0 ≤ load)
    (hr : 0 ≤ rho) : 0 ≤ andersonRate airTemp load rho lwc := by
  unfold andersonRate
  split
  · exact le_refl _
  · rename_i T
    have h4 : (0 : ℝ) ≤ if 0 < lwc then 2 / 100 else 1 / 100 := by split_ifs <;> norm_num
    have h6 : (0 : ℝ) ≤ if 150 < rho then exp (-(46 / 1000) * (rho - 150)) else 1 := by
      split_ifs
      · positivity
      · norm_num
    have := exp_pos (-(8 / 100) * (T0 - T) - 21 / 1000 * rho)
    have := exp_pos (-(4 / 100) * (T0 - T))
    positivity

theorem andersonLayer_spec {dtH : ℝ} (hdt : 0 ≤ dtH) (airTemp : Option ℝ) {load : ℝ}
    (hload : 0 ≤ load) (L : DLayer)
    (hm : 0 < L.thick → 0 < L.ice + L.lwc) :
    ∃ load' L', andersonLayer dtH airTemp load L = some (load', L') ∧ 0 ≤ load' ∧
      Compacted L L' ∧ (airTemp = none → L'.thick = L.thick) := by
  unfold andersonLayer
  split_ifs with h
  · have hmass := hm h
    have hrho : 0 < (L.ice + L.lwc) / L.thick := div_pos hmass h
    have hrate := andersonRate_nonneg airTemp (load := load + (L.ice + L.lwc) / 2) L.lwc
      (by positivity) hrho.le
    obtain ⟨r, hr⟩ : ∃ r, andersonRate airTemp (load + (L.ice + L.lwc) / 2)
      ((L.ice + L.lwc) / L.thick) L.lwc = r := ⟨_, rfl⟩
    have hrnone : airTemp = none → r = 0 := by
      intro e; rw [← hr, e]; rfl
    simp only [hr] at *
    have hrd : 0 ≤ r * dtH := mul_nonneg hrate hdt
    have hpos : 0 < (L.ice + L.lwc) / L.thick + r * dtH := by linarith
    rw [if_neg hpos.ne']
    refine ⟨_, _, rfl, by positivity, ⟨rfl, rfl, rfl, ?_, fun _ => ?_, fun _ => ⟨_, rfl, ?_, ?_⟩⟩, ?_⟩
    · rw [div_le_iff₀ hpos]
      have : L.thick * ((L.ice + L.lwc) / L.thick) = L.ice + L.lwc := by field_simp
      nlinarith [mul_nonneg h.le hrd]
    · exact div_pos hmass hpos
    · simp only; field_simp
    · linarith
    · intro e
      simp only [hrnone e, zero_mul, add_zero]
      field_simp
  · exact ⟨_, _, rfl, hload, ⟨rfl, rfl, rfl, le_refl _, fun h' => absurd h' h,
      fun h' => absurd h' h⟩, fun _ => rfl⟩

/-- **C25 (Anderson).** For every stack of layers whose layers of positive thickness carry mass,
every air temperature (also missing) and every time step, compaction is defined and compacts each
layer; with missing air temperature all thicknesses are kept. -/
theorem C25_anderson (dt : ℝ) (hdt : 0 ≤ dt) (airTemp : Option ℝ) (Ls : List DLayer)
    (hL : ∀ L ∈ Ls, 0 < L.thick → 0 < L.ice + L.lwc) :
    ∃ Ls', anderson dt airTemp Ls = some Ls' ∧ List.Forall₂ Compacted Ls Ls' ∧
      (airTemp = none → Ls'.map DLayer.thick = Ls.map DLayer.thick) := by
  have key : ∀ (Ls : List DLayer) (load : ℝ), 0 ≤ load →
      (∀ L ∈ Ls, 0 < L.thick → 0 < L.ice + L.lwc) →
      ∃ Ls', andersonLoop (dt / 3600) airTemp load Ls = some Ls' ∧ List.Forall₂ Compacted Ls Ls' ∧
        (airTemp = none → Ls'.map DLayer.thick = Ls.map DLayer.thick) := by
    intro Ls
    induction Ls with
    | nil => intro load _ _; exact ⟨[], rfl, .nil, fun _ => rfl⟩
    | cons L Ls ih =>
      intro load hload hL
      have hL2 := hL L (by simp)
      obtain ⟨load', L', e1, hl', hc, hn⟩ := andersonLayer_spec (dtH := dt / 3600) (by positivity)
        airTemp hload L hL2
      obtain ⟨Ls', e2, hf, hn2⟩ := ih load' hl' (fun M hM => hL M (by simp [hM]))
      refine ⟨L' :: Ls', by simp only [andersonLoop, e1, e2], .cons hc hf, ?_⟩
      intro e
      simp [hn e, hn2 e]
  exact key Ls 0 (le_refl _) hL

/-- **C25 (empirical).** Compaction is defined, keeps the contents, never raises the thickness;
the density never exceeds the maximum density unless it already did, and layers at or above the
maximum density keep their thickness. -/
theorem C25_empirical (c : EmpiricalCfg) (hτ : 0 < c.timescale) (dt : ℝ) (hdt : 0 ≤ dt)
    (L : DLayer) (hm : 0 < L.thick → 0 < L.ice + L.lwc) :
    ∃ L', empiricalLayer c dt L = some L' ∧ Compacted L L' ∧
      (maxDensity c L ≤ (L.ice + L.lwc) / L.thick → L'.thick = L.thick) ∧
      (0 < L.thick → (L.ice + L.lwc) / L.thick < maxDensity c L →
        ∃ d, L'.dens = some d ∧ d < maxDensity c L) := by
  unfold empiricalLayer
  simp only
  split_ifs with h h1 h2
  · exfalso
    have hrho : 0 < (L.ice + L.lwc) / L.thick := div_pos (hm h) h
    have he : exp (-dt / c.timescale) ≤ 1 := by
      apply exp_le_one_iff.mpr
      rw [neg_div]
      have : 0 ≤ dt / c.timescale := by positivity
      linarith
    nlinarith
  · have hmass := hm h
    have hrho : 0 < (L.ice + L.lwc) / L.thick := div_pos hmass h
    have he : exp (-dt / c.timescale) ≤ 1 := by
      apply exp_le_one_iff.mpr
      rw [neg_div]
      have : 0 ≤ dt / c.timescale := by positivity
      linarith
    have hep := exp_pos (-dt / c.timescale)
    obtain ⟨d, hd⟩ : ∃ d, maxDensity c L + ((L.ice + L.lwc) / L.thick - maxDensity c L)
      * exp (-dt / c.timescale) = d := ⟨_, rfl⟩
    have hge : (L.ice + L.lwc) / L.thick ≤ d := by rw [← hd]; nlinarith
    have hlt : d < maxDensity c L := by
      rw [← hd]
      nlinarith [mul_pos (sub_pos.mpr h1) hep]
    rw [hd]
    have hpos : 0 < d := by linarith
    refine ⟨_, rfl, ⟨rfl, rfl, rfl, ?_, fun _ => ?_, fun _ => ⟨_, rfl, ?_, hge⟩⟩, ?_, ?_⟩
    · rw [div_le_iff₀ hpos]
      have : L.thick * ((L.ice + L.lwc) / L.thick) = L.ice + L.lwc := by field_simp
      nlinarith
    · exact div_pos hmass hpos
    · simp only; field_simp
    · intro hcon; linarith
    · intro _ _; exact ⟨_, rfl, hlt⟩
  · refine ⟨_, rfl, ⟨rfl, rfl, rfl, le_refl _, fun h => h, fun _ => ⟨_, rfl, ?_, le_refl _⟩⟩,
      fun _ => rfl, fun _ hcon => absurd hcon h1⟩
    simp only; field_simp
  · exact ⟨_, rfl, ⟨rfl, rfl, rfl, le_refl _, fun h' => absurd h' h, fun h' => absurd h' h⟩,
      fun _ => rfl, fun h' => absurd h' h⟩

/-- A stack meeting the hypotheses of both compaction theorems. -/
example : ∀ L ∈ ([⟨2 / 10, 40, 1, 270, none⟩, ⟨0, 0, 0, 27315 / 100, none⟩] : List DLayer),
    0 < L.thick → 0 < L.ice + L.lwc := by
  intro L hL
  simp at hL
  rcases hL with rfl | rfl <;> norm_num

/-- A layer of positive thickness without mass becomes NaN. -/
theorem C25_massless_witness (T : ℝ) :
    anderson 3600 (some T) [⟨1, 0, 0, 270, none⟩] = none := by
  simp [anderson, andersonLoop, andersonLayer, andersonRate]

/-! ## C26: fresh snow density, retention capacity -/

/-- **C26.** Fresh snow density is at least 50, non-decreasing in temperature, 50 at and below
-15 °C, and 100 kg m-3 for missing temperature. -/
theorem C26_fresh_snow_density :
    (∀ T, 50 ≤ freshSnowDensity T) ∧
    (∀ T T', T ≤ T' → freshSnowDensity (some T) ≤ freshSnowDensity (some T')) ∧
    (∀ T, T ≤ T0 - 15 → freshSnowDensity (some T) = 50) ∧
    (∀ T T', T0 - 15 ≤ T → T < T' → freshSnowDensity (some T) < freshSnowDensity (some T')) ∧
    freshSnowDensity none = 100 := by
  refine ⟨?_, ?_, ?_, ?_, rfl⟩
  · intro T
    cases T with
    | none => norm_num [freshSnowDensity]
    | some T =>
      have : 0 ≤ max T (T0 - 15) - (T0 - 15) := sub_nonneg.mpr (le_max_right _ _)
      have := rpow_nonneg this (3 / 2)
      simp only [freshSnowDensity]
      linarith
  · intro T T' h
    have h0 : 0 ≤ max T (T0 - 15) - (T0 - 15) := sub_nonneg.mpr (le_max_right _ _)
    have h1 : max T (T0 - 15) - (T0 - 15) ≤ max T' (T0 - 15) - (T0 - 15) :=
      sub_le_sub_right (max_le_max_right _ h) _
    have := rpow_le_rpow h0 h1 (by norm_num : (0 : ℝ) ≤ 3 / 2)
    simp only [freshSnowDensity]
    linarith
  · intro T h
    simp only [freshSnowDensity, max_eq_right h, sub_self]
    rw [zero_rpow (by norm_num)]
    norm_num
  · intro T T' h h'
    have h1 : T0 - 15 ≤ T' := by linarith
    simp only [freshSnowDensity, max_eq_left h, max_eq_left h1]
    have := rpow_lt_rpow (sub_nonneg.mpr h) (sub_lt_sub_right h' (T0 - 15))
      (by norm_num : (0 : ℝ) < 3 / 2)
    linarith

open Verif.MultiLayer in
/-- **C26.** The retention capacity is non-negative for layers no denser than ice, and zero for
layers without thickness (pore volume method) or without ice (mass fraction method). -/
theorem C26_retention_capacity {K : Type*} [Field K] [LinearOrder K] [IsStrictOrderedRing K]
    (m : LwcMethod) (maxFrac thick ice : K) (hf : 0 ≤ maxFrac) (ht : 0 ≤ thick) (hi : 0 ≤ ice)
    (hd : ice ≤ iceDensity * thick) :
    0 ≤ maxLwc m maxFrac thick ice ∧ (thick = 0 → maxLwc m maxFrac thick ice = 0) ∧
      (ice = 0 → m = .massFraction → maxLwc m maxFrac thick ice = 0) := by
  have hρ : (0 : K) < iceDensity := iceDensity_pos
  have hw : (0 : K) < waterDensity := waterDensity_pos
  cases m with
  | poreVolume =>
    simp only [maxLwc]
    refine ⟨?_, ?_, by simp⟩
    · split_ifs with h
      · have : 0 ≤ 1 - ice / (iceDensity * thick) := by
          rw [sub_nonneg, div_le_one (by positivity)]; exact hd
        positivity
      · simp
    · rintro rfl; simp
  | massFraction =>
    simp only [maxLwc]
    refine ⟨by positivity, ?_, ?_⟩
    · rintro rfl
      have : ice = 0 := le_antisymm (by simpa using hd) hi
      simp [this]
    · rintro rfl _; simp

open Verif.MultiLayer in
/-- **C26.** For a layer denser than ice the pore volume method yields a negative capacity. -/
theorem C26_negative_capacity {K : Type*} [Field K] [LinearOrder K] [IsStrictOrderedRing K]
    (maxFrac thick ice : K) (hf : 0 < maxFrac) (ht : 0 < thick)
    (hd : iceDensity * thick < ice) : maxLwc .poreVolume maxFrac thick ice < 0 := by
  have hρ : (0 : K) < iceDensity := iceDensity_pos
  have hw : (0 : K) < waterDensity := waterDensity_pos
  simp only [maxLwc, ht, if_true]
  have h1 : 1 - ice / (iceDensity * thick) < 0 := by
    rw [sub_neg, lt_div_iff₀ (by positivity)]; linarith
  have h2 := mul_neg_of_pos_of_neg (mul_pos hw ht) h1
  exact mul_neg_of_neg_of_pos h2 hf

example : (40 : ℚ) ≤ iceDensity * (2 / 10) ∧ iceDensity * (1 / 100) < (40 : ℚ) := by
  norm_num [iceDensity]

/-! ## C27: bulk properties -/

/-- **C27.** For non-negative layers, SWE and depth are non-negative and vanish exactly if every
layer does; SWE is at least the SWE of any layer. -/
theorem C27_swe_depth (Ls : List DLayer)
    (h : ∀ L ∈ Ls, 0 ≤ L.thick ∧ 0 ≤ L.ice ∧ 0 ≤ L.lwc) :
    0 ≤ depth Ls ∧ 0 ≤ swe Ls ∧ (depth Ls = 0 ↔ ∀ L ∈ Ls, L.thick = 0) ∧
      (swe Ls = 0 ↔ ∀ L ∈ Ls, L.ice = 0 ∧ L.lwc = 0) ∧
      (∀ L ∈ Ls, L.ice + L.lwc ≤ swe Ls ∧ L.thick ≤ depth Ls) := by
  induction Ls with
  | nil => simp [depth, swe]
  | cons L Ls ih =>
    obtain ⟨h1, h2, h3⟩ := h L (by simp)
    obtain ⟨i1, i2, i3, i4, i5⟩ := ih fun M hM => h M (by simp [hM])
    have ed : depth (L :: Ls) = L.thick + depth Ls := by simp [depth]
    have es : swe (L :: Ls) = L.ice + L.lwc + swe Ls := by simp [swe]
    refine ⟨by linarith, by linarith, ?_, ?_, ?_⟩
    · rw [ed]
      simp only [List.mem_cons, forall_eq_or_imp, ← i3]
      constructor
      · intro e; constructor <;> linarith
      · rintro ⟨a, b⟩; linarith
    · rw [es]
      simp only [List.mem_cons, forall_eq_or_imp, ← i4]
      constructor
      · intro e; refine ⟨⟨?_, ?_⟩, ?_⟩ <;> linarith
      · rintro ⟨⟨a, a'⟩, b⟩; linarith
    · intro M hM
      rcases List.mem_cons.mp hM with rfl | hM
      · constructor <;> linarith
      · have := i5 M hM
        constructor <;> linarith

/-- **C27.** The snow cover fraction lies in `[0, 1]` (below one with a positive depth scale), is
zero exactly without snow depth, and is increasing in depth for a positive depth scale. -/
theorem C27_area_fraction (scale : ℝ) (Ls : List DLayer) (h : 0 ≤ depth Ls) :
    0 ≤ areaFraction scale Ls ∧ areaFraction scale Ls ≤ 1 ∧
      (0 < scale → areaFraction scale Ls < 1) ∧
      (areaFraction scale Ls = 0 ↔ depth Ls = 0) ∧
      (∀ Ls', 0 < scale → depth Ls < depth Ls' →
        areaFraction scale Ls < areaFraction scale Ls') := by
  have hmono : ∀ x y : ℝ, x < y → tanh x < tanh y := by
    intro x y hxy
    rw [tanh_eq_sinh_div_cosh, tanh_eq_sinh_div_cosh, div_lt_div_iff₀ (cosh_pos x) (cosh_pos y)]
    have h1 : sinh (y - x) = sinh y * cosh x - cosh y * sinh x := sinh_sub y x
    have h2 : 0 < sinh (y - x) := sinh_pos_iff.mpr (by linarith)
    linarith
  have hlt1 : ∀ x : ℝ, tanh x < 1 := by
    intro x
    rw [tanh_eq_sinh_div_cosh, div_lt_one (cosh_pos x)]
    have := cosh_sub_sinh x
    have := exp_pos (-x)
    linarith
  by_cases hs : 0 < scale
  · have e : ∀ Ls, areaFraction scale Ls = tanh (depth Ls / scale) := by
      intro Ls; simp [areaFraction, hs]
    have h0 : tanh 0 = 0 := tanh_zero
    have hd : 0 ≤ depth Ls / scale := by positivity
    have hnn : 0 ≤ tanh (depth Ls / scale) := by
      rcases hd.lt_or_eq with h1 | h1
      · have := hmono _ _ h1; linarith
      · rw [← h1, h0]
    rw [e]
    refine ⟨hnn, (hlt1 _).le, fun _ => hlt1 _, ?_, ?_⟩
    · constructor
      · intro ht
        by_contra hne
        have : 0 < depth Ls / scale := div_pos (lt_of_le_of_ne h (Ne.symm hne)) hs
        have := hmono _ _ this
        linarith
      · intro hd0; rw [hd0]; simp
    · intro Ls' _ hlt
      rw [e]
      exact hmono _ _ ((div_lt_div_iff_of_pos_right hs).mpr hlt)
  · simp only [areaFraction, hs, if_false]
    refine ⟨by split_ifs <;> norm_num, by split_ifs <;> norm_num, fun h' => h'.elim, ?_,
      fun _ h' => h'.elim⟩
    split_ifs with h1
    · simp [h1.ne']
    · simp [le_antisymm (not_lt.mp h1) h]

example : 0 ≤ depth [⟨2 / 10, 40, 1, 270, none⟩] ∧
    depth [⟨2 / 10, 40, 1, 270, none⟩] < depth [⟨3 / 10, 40, 1, 270, none⟩] := by
  norm_num [depth]

end Verif.Snow
