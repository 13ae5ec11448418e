import Verif.Model.CanopySubl

/-!
# C130: sublimation of intercepted snow
-/

namespace Verif.CanopySubl

open Real

/-! ## Specification -/

/-- Diffusivity of water vapour in air. -/
noncomputable def D (T : ℝ) : ℝ := 206 / 10000000 * (T / 273) ^ (7 / 4 : ℝ)

/-- Relative change of saturation vapour density per relative change of temperature (Clausius-Clapeyron), minus one for the
expansion of the vapour. -/
noncomputable def slope (T : ℝ) : ℝ := 2835000 * (180153 / 10000000) / (8314462618 / 1000000000 * T) - 1

/-- Nusselt number of a sphere for a Reynolds number between 0.7 and 10. -/
noncomputable def Nu (c : Particle) (wind : ℝ) : ℝ :=
  179 / 100 + 606 / 1000 * √(max (7 / 10) (min 10 (2 * c.radius * wind / c.viscosity)))

/-- An ice sphere of temperature `tp` whose mass changes at the rate `m`, in air with saturation vapour density `ρ`: absorbed
radiation, heat from the air and heat of sublimation balance, and the mass changes by the vapour that diffuses to it from
the air. -/
structure Sphere (c : Particle) (a : Air) (ρ m tp : ℝ) : Prop where
  heat : (1 - a.albedo) * a.sw * (π * c.radius ^ 2)
    + 2 * π * c.radius * (25 / 1000) * Nu c a.wind * (a.temp - tp) + 2835000 * m = 0
  vapour : m = 2 * π * c.radius * D a.temp * Nu c a.wind *
    (a.relHum / 100 * ρ - ρ * (1 + slope a.temp * ((tp - a.temp) / a.temp)))

/-- Density of water vapour (ideal gas). -/
noncomputable def vapourDensity (e T : ℝ) : ℝ := e / (46152 / 100 * T)

/-- Particle and air for which the formulas make sense. -/
structure Sane (c : Particle) (a : Air) : Prop where
  radius : 0 < c.radius
  temp : 0 < a.temp
  hot : a.temp ≤ 6000
  press : 0 < a.satPress

/-! ## Closed form -/

theorem D_pos {T : ℝ} (h : 0 < T) : 0 < D T := by unfold D; positivity

theorem slope_pos {T : ℝ} (h : 0 < T) (h' : T ≤ 6000) : 0 < slope T := by
  unfold slope
  rw [sub_pos, lt_div_iff₀ (by positivity)]
  norm_num
  linarith

theorem Nu_pos (c : Particle) (w : ℝ) : 0 < Nu c w := by unfold Nu; positivity

theorem nusselt_eq (c : Particle) (a : Air) : nusselt c a = Nu c a.wind := by
  unfold nusselt Nu reynolds
  congr 3
  rcases le_total (2 * c.radius * a.wind / c.viscosity) (7 / 10) with h | h
  · rw [max_eq_right h, min_eq_left (by norm_num), max_eq_left ((min_le_right _ _).trans h)]
  · rw [max_eq_left h, min_comm]
    exact (max_eq_right (le_min (by norm_num) h)).symm

theorem diffusivity_eq (a : Air) : diffusivity a = D a.temp := by
  unfold diffusivity D; norm_num

theorem Nu_mono {c : Particle} (hr : 0 < c.radius) (hv : 0 < c.viscosity) {w w' : ℝ} (h : w ≤ w') : Nu c w ≤ Nu c w' := by
  unfold Nu
  gcongr

/-- Mass change for a saturation vapour density. -/
noncomputable def closed (c : Particle) (a : Air) (ρ : ℝ) : ℝ :=
  -(2 * π * c.radius * (1 - a.relHum / 100) * Nu c a.wind
    + (1 - a.albedo) * a.sw * (π * c.radius ^ 2) * (slope a.temp / (25 / 1000 * a.temp))) /
  (2835000 * (slope a.temp / (25 / 1000 * a.temp)) + 1 / (D a.temp * ρ))

theorem closed_den {a : Air} {ρ : ℝ} (hT : 0 < a.temp) (hT' : a.temp ≤ 6000) (hρ : 0 < ρ) :
    0 < 2835000 * (slope a.temp / (25 / 1000 * a.temp)) + 1 / (D a.temp * ρ) := by
  have := slope_pos hT hT'
  have := D_pos hT
  positivity

theorem rateAt_eq {c : Particle} {a : Air} (hs : Sane c a) {ρ : ℝ} (hρ : 0 < ρ) : rateAt c a ρ = closed c a ρ := by
  have hn := Nu_pos c a.wind
  have hD := D_pos hs.temp
  have hsl := slope_pos hs.temp hs.hot
  have hT := hs.temp
  have ho : omega c a = slope a.temp / (25 / 1000 * a.temp) / Nu c a.wind := by
    unfold omega kAir latSubl molarMass gasConst slope
    rw [nusselt_eq]
    have : (2501000 + 334000 : ℝ) = 2835000 := by norm_num
    rw [this]
    field_simp
  unfold rateAt closed
  rw [ho, nusselt_eq, diffusivity_eq]
  obtain ⟨g, hg⟩ : ∃ g, slope a.temp / (25 / 1000 * a.temp) = g := ⟨_, rfl⟩
  have hg0 : 0 < g := by rw [← hg]; positivity
  rw [hg]
  unfold absorbed latSubl
  have e1 : (2501000 + 334000) * (g / Nu c a.wind) + 1 / (D a.temp * ρ * Nu c a.wind) =
      (2835000 * g + 1 / (D a.temp * ρ)) / Nu c a.wind := by field_simp; ring
  rw [e1]
  have hden : 0 < 2835000 * g + 1 / (D a.temp * ρ) := by positivity
  rw [div_div_eq_mul_div, div_eq_div_iff hden.ne' hden.ne']
  congr 1
  field_simp
  ring

theorem massLoss_eq {c : Particle} {a : Air} (hs : Sane c a) :
    massLoss c (some a.albedo) (some a.sw) (some a.wind) (some a.temp) (some a.satPress) (some a.relHum) =
      closed c a (622 / 1000 * vapourDensity a.satPress a.temp) := by
  have hT := hs.temp
  have hp := hs.press
  have h : satDens a = some (622 / 1000 * vapourDensity a.satPress a.temp) := by
    unfold satDens Atmosphere.absoluteHumidity Atmosphere.rv vapourDensity
    rw [if_neg (by positivity)]
    rfl
  unfold massLoss
  simp only [hs.temp, if_true]
  rw [show (⟨a.albedo, a.sw, a.wind, a.temp, a.satPress, a.relHum⟩ : Air) = a from rfl, h]
  simp only
  apply rateAt_eq hs
  unfold vapourDensity
  positivity

theorem sphere_iff {c : Particle} {a : Air} (hs : Sane c a) {ρ : ℝ} (hρ : 0 < ρ) (m : ℝ) :
    (∃ tp, Sphere c a ρ m tp) ↔ m = closed c a ρ := by
  have hn := Nu_pos c a.wind
  have hD := D_pos hs.temp
  have hsl := slope_pos hs.temp hs.hot
  have hT := hs.temp
  have hr := hs.radius
  have hpi := pi_pos
  have hden := closed_den hs.temp hs.hot hρ
  unfold closed
  rw [eq_div_iff hden.ne']
  obtain ⟨S, hS⟩ : ∃ S, (1 - a.albedo) * a.sw * (π * c.radius ^ 2) = S := ⟨_, rfl⟩
  obtain ⟨N, hN⟩ : ∃ N, Nu c a.wind = N := ⟨_, rfl⟩
  obtain ⟨d, hd⟩ : ∃ d, D a.temp = d := ⟨_, rfl⟩
  obtain ⟨s, hs'⟩ : ∃ s, slope a.temp = s := ⟨_, rfl⟩
  obtain ⟨T, hT'⟩ : ∃ T, a.temp = T := ⟨_, rfl⟩
  obtain ⟨P, hP⟩ : ∃ P, 2 * π * c.radius = P := ⟨_, rfl⟩
  have hP0 : 0 < P := by rw [← hP]; positivity
  rw [hN] at hn
  rw [hd] at hD
  rw [hs'] at hsl
  rw [hT'] at hT
  rw [hS, hN, hd, hs', hT', hP]
  have key : ∀ x, x = T + (S + 2835000 * m) / (P * (25 / 1000) * N) →
      (m = P * d * N * (a.relHum / 100 * ρ - ρ * (1 + s * ((x - T) / T))) ↔
        m * (2835000 * (s / (25 / 1000 * T)) + 1 / (d * ρ)) =
          -(P * (1 - a.relHum / 100) * N + S * (s / (25 / 1000 * T)))) := by
    intro x hx
    have e : P * d * N * (a.relHum / 100 * ρ - ρ * (1 + s * ((x - T) / T))) =
        d * ρ * (-(P * (1 - a.relHum / 100) * N + S * (s / (25 / 1000 * T)))
          - m * (2835000 * (s / (25 / 1000 * T)))) := by
      rw [hx]; field_simp; ring
    rw [e, mul_add, ← eq_sub_iff_add_eq', mul_one_div, div_eq_iff (by positivity)]
    constructor <;> intro h <;> linarith
  constructor
  · rintro ⟨tp, h1, h2⟩
    rw [hS, hN, hT', hP] at h1
    rw [hN, hd, hs', hT', hP] at h2
    refine (key tp ?_).mp h2
    rw [← sub_eq_iff_eq_add', eq_div_iff (by positivity)]
    linarith
  · intro h
    refine ⟨T + (S + 2835000 * m) / (P * (25 / 1000) * N), ?_, ?_⟩
    · rw [hS, hN, hT', hP]
      field_simp
      ring
    · rw [hN, hd, hs', hT', hP]
      exact (key _ rfl).mpr h

/-! ## Theorems -/

/-- **C130.** The mass loss rate is the only one for which a temperature of the sphere exists such that heat balance and
vapour flux hold, for the saturation density the program uses (0.622 times the density of saturated vapour). -/
theorem C130_balance (c : Particle) (a : Air) (hs : Sane c a) (m : ℝ) :
    m = massLoss c (some a.albedo) (some a.sw) (some a.wind) (some a.temp) (some a.satPress) (some a.relHum) ↔
      ∃ tp, Sphere c a (622 / 1000 * vapourDensity a.satPress a.temp) m tp := by
  have hT := hs.temp
  have hp := hs.press
  rw [massLoss_eq hs, sphere_iff hs (by unfold vapourDensity; positivity)]

/-- **C130.** In air that is not supersaturated the sphere loses mass. -/
theorem C130_loss (c : Particle) (a : Air) (hs : Sane c a) (hrh : a.relHum ≤ 100) (hal : a.albedo ≤ 1) (hsw : 0 ≤ a.sw) :
    massLoss c (some a.albedo) (some a.sw) (some a.wind) (some a.temp) (some a.satPress) (some a.relHum) ≤ 0 ∧
    ((a.relHum < 100 ∨ a.albedo < 1 ∧ 0 < a.sw) →
      massLoss c (some a.albedo) (some a.sw) (some a.wind) (some a.temp) (some a.satPress) (some a.relHum) < 0) := by
  have hT := hs.temp
  have hp := hs.press
  have hr := hs.radius
  have hn := Nu_pos c a.wind
  have hsl := slope_pos hs.temp hs.hot
  have hpi := pi_pos
  have hden := closed_den (ρ := 622 / 1000 * vapourDensity a.satPress a.temp) hs.temp hs.hot
    (by unfold vapourDensity; positivity)
  have h1 : 0 ≤ 1 - a.relHum / 100 := by linarith
  have h2 : 0 ≤ 1 - a.albedo := by linarith
  rw [massLoss_eq hs]
  unfold closed
  have hA : 0 ≤ 2 * π * c.radius * (1 - a.relHum / 100) * Nu c a.wind := by positivity
  have hB : 0 ≤ (1 - a.albedo) * a.sw * (π * c.radius ^ 2) * (slope a.temp / (25 / 1000 * a.temp)) := by positivity
  refine ⟨div_nonpos_of_nonpos_of_nonneg (by linarith) hden.le, fun h => div_neg_of_neg_of_pos ?_ hden⟩
  rcases h with h | ⟨h, h'⟩
  · have h1' : 0 < 1 - a.relHum / 100 := by linarith
    have : 0 < 2 * π * c.radius * (1 - a.relHum / 100) * Nu c a.wind := by positivity
    linarith
  · have h2' : 0 < 1 - a.albedo := by linarith
    have : 0 < (1 - a.albedo) * a.sw * (π * c.radius ^ 2) * (slope a.temp / (25 / 1000 * a.temp)) := by positivity
    linarith

/-- **C130.** The loss grows with radiation and wind and falls with albedo and humidity. -/
theorem C130_monotone (c : Particle) (a b : Air) (hs : Sane c a) (hv : 0 < c.viscosity)
    (ht : b.temp = a.temp) (he : b.satPress = a.satPress) (hrh : a.relHum ≤ 100) (hal : a.albedo ≤ 1) (hsw0 : 0 ≤ a.sw)
    (hsw : a.sw ≤ b.sw) (hw : a.wind ≤ b.wind) (hr : b.relHum ≤ a.relHum) (hb : b.albedo ≤ a.albedo) :
    massLoss c (some b.albedo) (some b.sw) (some b.wind) (some b.temp) (some b.satPress) (some b.relHum) ≤
      massLoss c (some a.albedo) (some a.sw) (some a.wind) (some a.temp) (some a.satPress) (some a.relHum) := by
  have hT := hs.temp
  have hp := hs.press
  have hr0 := hs.radius
  have hn := Nu_pos c a.wind
  have hsl := slope_pos hs.temp hs.hot
  have hpi := pi_pos
  have hsb : Sane c b := ⟨hs.radius, ht ▸ hs.temp, ht ▸ hs.hot, he ▸ hs.press⟩
  have hden := closed_den (ρ := 622 / 1000 * vapourDensity a.satPress a.temp) hs.temp hs.hot
    (by unfold vapourDensity; positivity)
  rw [massLoss_eq hs, massLoss_eq hsb]
  unfold closed
  rw [ht, he]
  apply div_le_div_of_nonneg_right _ hden.le
  apply neg_le_neg
  have h1 : 0 ≤ 1 - a.relHum / 100 := by linarith
  have h2 : 0 ≤ 1 - a.albedo := by linarith
  have h1' : 0 ≤ 1 - b.relHum / 100 := by linarith
  have h2' : 0 ≤ 1 - b.albedo := by linarith
  have hN := Nu_mono hr0 hv hw
  gcongr

/-- **C130.** A sphere losing mass in air that is not supersaturated is never colder than the frost point: the vapour
density at its surface is at least that of the air. The heat taken from the air is limited accordingly. -/
theorem C130_frost_point (c : Particle) (a : Air) (hs : Sane c a) (hrh : a.relHum ≤ 100) (hal : a.albedo ≤ 1)
    (hsw : 0 ≤ a.sw) (m : ℝ)
    (hm : m = massLoss c (some a.albedo) (some a.sw) (some a.wind) (some a.temp) (some a.satPress) (some a.relHum)) :
    (∃ tp, Sphere c a (622 / 1000 * vapourDensity a.satPress a.temp) m tp ∧
      a.relHum / 100 ≤ 1 + slope a.temp * ((tp - a.temp) / a.temp)) ∧
    2835000 * (-m) ≤ (1 - a.albedo) * a.sw * (π * c.radius ^ 2) +
      2 * π * c.radius * (25 / 1000) * Nu c a.wind * (a.temp * (1 - a.relHum / 100) / slope a.temp) := by
  have hT := hs.temp
  have hp := hs.press
  have hr := hs.radius
  have hn := Nu_pos c a.wind
  have hsl := slope_pos hs.temp hs.hot
  have hD := D_pos hs.temp
  have hpi := pi_pos
  obtain ⟨hle, -⟩ := C130_loss c a hs hrh hal hsw
  rw [← hm] at hle
  obtain ⟨tp, hsp⟩ := (C130_balance c a hs m).mp hm
  have hsp' := hsp
  obtain ⟨h1, h2⟩ := hsp
  have hρ : 0 < 622 / 1000 * vapourDensity a.satPress a.temp := by unfold vapourDensity; positivity
  obtain ⟨ρ, hρe⟩ : ∃ ρ, 622 / 1000 * vapourDensity a.satPress a.temp = ρ := ⟨_, rfl⟩
  rw [hρe] at h2 hρ
  have hk : 0 < 2 * π * c.radius * D a.temp * Nu c a.wind := by positivity
  have h3 : a.relHum / 100 ≤ 1 + slope a.temp * ((tp - a.temp) / a.temp) := by
    by_contra hc
    push Not at hc
    have : 0 < 2 * π * c.radius * D a.temp * Nu c a.wind *
        (a.relHum / 100 * ρ - ρ * (1 + slope a.temp * ((tp - a.temp) / a.temp))) := by
      apply mul_pos hk
      nlinarith
    linarith
  refine ⟨⟨tp, hsp', h3⟩, ?_⟩
  have h4 : a.temp - tp ≤ a.temp * (1 - a.relHum / 100) / slope a.temp := by
    rw [le_div_iff₀ hsl]
    have : slope a.temp * ((tp - a.temp) / a.temp) * a.temp = slope a.temp * (tp - a.temp) := by field_simp
    nlinarith
  have : 2 * π * c.radius * (25 / 1000) * Nu c a.wind * (a.temp - tp) ≤
      2 * π * c.radius * (25 / 1000) * Nu c a.wind * (a.temp * (1 - a.relHum / 100) / slope a.temp) := by gcongr
  linarith

/-- **C130.** A missing input gives no mass loss. -/
theorem C130_missing (c : Particle) (al sw w t es rh : Option ℝ)
    (h : al = none ∨ sw = none ∨ w = none ∨ t = none ∨ es = none ∨ rh = none) : massLoss c al sw w t es rh = 0 := by
  rcases h with rfl | rfl | rfl | rfl | rfl | rfl <;> (unfold massLoss; split <;> simp_all)

/-- **C130.** The saturation density is 0.622 times the density of saturated water vapour. -/
theorem C130_density (a : Air) (h : 0 < a.temp) : satDens a = some (622 / 1000 * vapourDensity a.satPress a.temp) := by
  unfold satDens Atmosphere.absoluteHumidity Atmosphere.rv vapourDensity
  rw [if_neg (by positivity)]
  rfl

/-- **C130.** It is not the density of saturated water vapour at any temperature and pressure. -/
theorem C130_density_false (a : Air) (h : 0 < a.temp) (hp : 0 < a.satPress) :
    satDens a ≠ some (vapourDensity a.satPress a.temp) := by
  rw [C130_density a h]
  have : 0 < vapourDensity a.satPress a.temp := by unfold vapourDensity; positivity
  intro h
  have := Option.some.inj h
  linarith

/-- **C130.** With the density of saturated water vapour the loss from a sphere would always be larger: the sphere with mass
change `m` that meets both balances loses more than the program says. -/
theorem C130_too_small (c : Particle) (a : Air) (hs : Sane c a) (hrh : a.relHum < 100) (hal : a.albedo ≤ 1)
    (hsw : 0 ≤ a.sw) (m tp : ℝ) (h : Sphere c a (vapourDensity a.satPress a.temp) m tp) :
    m < massLoss c (some a.albedo) (some a.sw) (some a.wind) (some a.temp) (some a.satPress) (some a.relHum) := by
  have hT := hs.temp
  have hp := hs.press
  have hr := hs.radius
  have hn := Nu_pos c a.wind
  have hsl := slope_pos hs.temp hs.hot
  have hD := D_pos hs.temp
  have hpi := pi_pos
  have hρ : 0 < vapourDensity a.satPress a.temp := by unfold vapourDensity; positivity
  rw [(sphere_iff hs hρ m).mp ⟨tp, h⟩, massLoss_eq hs]
  obtain ⟨ρ, hρe⟩ : ∃ ρ, vapourDensity a.satPress a.temp = ρ := ⟨_, rfl⟩
  rw [hρe] at hρ ⊢
  have d1 := closed_den hs.temp hs.hot hρ
  have h1 : 0 < 1 - a.relHum / 100 := by linarith
  have h2 : 0 ≤ 1 - a.albedo := by linarith
  unfold closed
  rw [neg_div, neg_div]
  apply neg_lt_neg
  have hnum : 0 < 2 * π * c.radius * (1 - a.relHum / 100) * Nu c a.wind
    + (1 - a.albedo) * a.sw * (π * c.radius ^ 2) * (slope a.temp / (25 / 1000 * a.temp)) := by positivity
  apply div_lt_div_of_pos_left hnum d1
  have : 1 / (D a.temp * ρ) < 1 / (D a.temp * (622 / 1000 * ρ)) := by
    apply one_div_lt_one_div_of_lt (by positivity)
    nlinarith [mul_pos hD hρ]
  linarith

/-- **C130.** Sublimation of the intercepted snow in a time step: the snow held after interception (`N`) times exposure
coefficient times loss per mass, as far as there is snow; no cutting off of negative values takes place in air that is not
supersaturated. -/
theorem C130_sublimation (c : Particle) (a : Air) (hs : Sane c a) (hrh : a.relHum ≤ 100) (hal : a.albedo ≤ 1)
    (hsw : 0 ≤ a.sw) (k : Canopy.SnowCfg) (load cap snowfall rainfall : ℝ) (hdt : 0 ≤ k.dt) (hk : 0 ≤ k.expCoeff)
    (hcap : 0 < cap) (hload : 0 ≤ load) (hload' : load ≤ cap) (hsf : 0 ≤ snowfall) (o : Canopy.SnowOut) (N : ℝ)
    (h : Canopy.snowStep k load ⟨cap, snowfall, rainfall,
      lossRate c (some a.albedo) (some a.sw) (some a.wind) (some a.temp) (some a.satPress) (some a.relHum), a.temp⟩ = some o)
    (hN : N = o.load + o.melt + o.subl) :
    o.subl = min (N * (k.expCoeff * (N / cap) ^ (-(4 / 10) : ℝ)) *
      (-massLoss c (some a.albedo) (some a.sw) (some a.wind) (some a.temp) (some a.satPress) (some a.relHum) /
        (4 / 3 * π * 917 * c.radius ^ 3)) * k.dt) N ∧ 0 ≤ o.subl := by
  have hr := hs.radius
  have hpi := pi_pos
  obtain ⟨hle, -⟩ := C130_loss c a hs hrh hal hsw
  obtain ⟨m, hm⟩ : ∃ m, massLoss c (some a.albedo) (some a.sw) (some a.wind) (some a.temp) (some a.satPress)
    (some a.relHum) = m := ⟨_, rfl⟩
  rw [hm] at hle ⊢
  unfold lossRate particleMass at h
  rw [hm] at h
  simp only [Canopy.snowStep, Canopy.fillFactor, hcap.ne', if_false, Option.map_some, Option.some.injEq] at h
  obtain ⟨L, hL⟩ : ∃ L, load + 7 / 10 * (cap - load) * (1 - Real.exp (-snowfall / cap)) = L := ⟨_, rfl⟩
  rw [hL] at h
  have hNL : N = L := by rw [hN, ← h]; simp only; ring
  have hexp : Real.exp (-snowfall / cap) ≤ 1 := by
    rw [Real.exp_le_one_iff]
    exact div_nonpos_of_nonpos_of_nonneg (by linarith) hcap.le
  have hL0 : 0 ≤ L := by
    rw [← hL]
    have : 0 ≤ cap - load := by linarith
    have : 0 ≤ 1 - Real.exp (-snowfall / cap) := by linarith
    positivity
  have hmass : 0 < 4 / 3 * π * 917 * c.radius ^ 3 := by positivity
  have hmm : 0 ≤ -m / (4 / 3 * π * 917 * c.radius ^ 3) := div_nonneg (by linarith) hmass.le
  rw [hNL]
  have key : o.subl = min (L * (k.expCoeff * (L / cap) ^ (-(4 / 10) : ℝ)) *
      (-m / (4 / 3 * π * 917 * c.radius ^ 3)) * k.dt) L := by
    rw [← h]
    simp only
    rcases hL0.eq_or_lt with h0 | h0
    · rw [← h0]; simp
    · rw [if_pos h0, neg_div (10 : ℝ) 4]
      have e : -(k.expCoeff * (L / cap) ^ (-(4 / 10) : ℝ)) * L * (m / (4 / 3 * π * 917 * c.radius ^ 3)) * k.dt =
        L * (k.expCoeff * (L / cap) ^ (-(4 / 10) : ℝ)) * (-m / (4 / 3 * π * 917 * c.radius ^ 3)) * k.dt := by ring
      rw [e]
      apply max_eq_left
      apply le_min _ hL0
      positivity
  refine ⟨key, ?_⟩
  rw [key]
  apply le_min _ hL0
  positivity

/-! ## Concrete cases -/

/-- The default particle in dry winter air under sunshine. -/
noncomputable def exP : Particle := ⟨500 / 1000000, 13 / 1000000⟩
noncomputable def exA : Air := ⟨8 / 10, 500, 3, 265, 300, 60⟩

theorem exSane : Sane exP exA := by
  constructor <;> norm_num [exP, exA]

-- C130_balance, C130_loss, C130_monotone, C130_frost_point, C130_too_small
example : ∃ tp, Sphere exP exA (622 / 1000 * vapourDensity 300 265)
    (massLoss exP (some (8 / 10)) (some 500) (some 3) (some 265) (some 300) (some 60)) tp :=
  (C130_balance exP exA exSane _).mp rfl
example : massLoss exP (some (8 / 10)) (some 500) (some 3) (some 265) (some 300) (some 60) < 0 :=
  (C130_loss exP exA exSane (by norm_num [exA]) (by norm_num [exA]) (by norm_num [exA])).2 (Or.inl (by norm_num [exA]))
example : massLoss exP (some (8 / 10)) (some 600) (some 4) (some 265) (some 300) (some 50) ≤
    massLoss exP (some (8 / 10)) (some 500) (some 3) (some 265) (some 300) (some 60) :=
  C130_monotone exP exA ⟨8 / 10, 600, 4, 265, 300, 50⟩ exSane (by norm_num [exP]) rfl rfl (by norm_num [exA])
    (by norm_num [exA]) (by norm_num [exA]) (by norm_num [exA]) (by norm_num [exA]) (by norm_num [exA]) le_rfl
example : ∃ m tp, Sphere exP exA (vapourDensity 300 265) m tp ∧
    m < massLoss exP (some (8 / 10)) (some 500) (some 3) (some 265) (some 300) (some 60) := by
  obtain ⟨tp, h⟩ := (sphere_iff exSane (ρ := vapourDensity 300 265) (by unfold vapourDensity; norm_num) _).mpr rfl
  exact ⟨_, tp, h, C130_too_small exP exA exSane (by norm_num [exA]) (by norm_num [exA]) (by norm_num [exA]) _ tp h⟩
-- C130_sublimation
example : (Canopy.snowStep ⟨1 / 100, 5, 3600⟩ 2 ⟨10, 1, 0,
    lossRate exP (some (8 / 10)) (some 500) (some 3) (some 265) (some 300) (some 60), 265⟩).isSome = true := by
  simp [Canopy.snowStep, Canopy.fillFactor]

end Verif.CanopySubl
