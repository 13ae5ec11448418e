import Verif.Props.SublML
import Verif.Props.Snow
import Verif.Props.CryoMass
import Verif.Props.CryoEnergy
import Verif.Props.Canopy

/-!
# Amounts: C14, C24, C25, C27, C28, C31, C32, C35, C37

Companions of the balance and monotonicity theorems that fix the amounts themselves: signs of
fluxes, units of rates, which parameter acts in which case, and that water or cold is used before it
is passed on.
-/

set_option linter.unusedSectionVars false

namespace Verif.MultiLayer

variable {K : Type*} [Field K] [LinearOrder K] [IsStrictOrderedRing K]

/-- **C14.** A flux towards the surface (`f ≥ 0`) deposits exactly `f * dt`; a flux into the air
removes `-f * dt`, at most the ice present; this holds whenever there is ice in the top layer or the
surface is below freezing, otherwise nothing happens. -/
theorem C14_amount (dt surfTemp albMax airTemp density f : K) (p : Pixel K) (hp : WF p)
    (hdt : 0 ≤ dt) :
    let s := (sublimation dt surfTemp albMax airTemp density (some f) p).1
    let exchanging := (∃ L, p.layers.head? = some L ∧ 0 < L.ice) ∨ surfTemp < T0
    (exchanging → 0 ≤ f → s = -(f * dt)) ∧ (exchanging → f ≤ 0 → s = min (-f * dt) (totalIce p)) ∧
    (¬ exchanging → s = 0) := by
  have hice : 0 ≤ totalIce p := sum_map_nonneg _ _ fun L hL => (hp.all L hL).2.1
  have hpos : 0 ≤ f → min (-1 * f * dt) (totalIce p) = -(f * dt) := fun hf => by
    have : 0 ≤ f * dt := mul_nonneg hf hdt
    rw [min_eq_left (by linarith)]; ring
  have hneg : min (-1 * f * dt) (totalIce p) = min (-f * dt) (totalIce p) := by congr 1; ring
  have hval : ∀ b : Prop, [Decidable b] → (if b then min (-1 * f * dt) (totalIce p) else 0) =
      (sublimation dt surfTemp albMax airTemp density (some f) p).1 →
      (b ↔ ((∃ L, p.layers.head? = some L ∧ 0 < L.ice) ∨ surfTemp < T0)) →
      let s := (sublimation dt surfTemp albMax airTemp density (some f) p).1
      let exchanging := (∃ L, p.layers.head? = some L ∧ 0 < L.ice) ∨ surfTemp < T0
      (exchanging → 0 ≤ f → s = -(f * dt)) ∧ (exchanging → f ≤ 0 → s = min (-f * dt) (totalIce p)) ∧
      (¬ exchanging → s = 0) := by
    intro b _ hs hb
    simp only [← hs, ← hb]
    refine ⟨fun h hf => ?_, fun h _ => ?_, fun h => ?_⟩
    · rw [if_pos h, hpos hf]
    · rw [if_pos h, hneg]
    · rw [if_neg h]
  obtain ⟨n, layers, alb⟩ := p
  cases layers with
  | nil =>
    refine hval (0 < (0 : K) ∨ surfTemp < T0) ?_ (by simp)
    simp [sublimation, sublAmount, nanToZero, totalIce, iceSum]
  | cons L Ls =>
    refine hval (0 < L.ice ∨ surfTemp < T0) ?_ (by simp)
    simp only [sublimation, sublAmount, nanToZero, Option.map_some, Option.getD_some]
    rfl

example : WF ({ n := 1, albedo := some (1/2), layers := [⟨1/10, 10, 0, 270, 21000⟩] } : Pixel ℚ) ∧
    (sublimation 3600 270 (85/100) 270 100 (some (-1/3600))
      ({ n := 1, albedo := some (1/2), layers := [⟨1/10, 10, 0, 270, 21000⟩] } : Pixel ℚ)).1 = 1 :=
  ⟨⟨by decide, by norm_num, by simp⟩, by norm_num [sublimation, sublAmount, nanToZero, iceSum]⟩

end Verif.MultiLayer

namespace Verif.Snow

open Real

/-- **C24.** In one timescale (given in hours: the one for melting snow at or above the melting
point, else the one for cold snow, also for missing temperature) the distance to the minimum albedo
falls to the fraction `1/e`. -/
theorem C24_timescale (c : AlbedoCfg) (h : c.OK) (temp : Option ℝ) (a τ : ℝ)
    (hτ : τ = if ∃ T, temp = some T ∧ T0 ≤ T then c.meltingTimescale else c.coldTimescale) :
    ∃ a', albedo c (3600 * τ) temp none (some a) = some a' ∧
      (a' - c.min) * exp 1 = a - c.min := by
  have hr : 0 < c.refreshSnowfall / 3600 := div_pos h.refresh (by norm_num)
  have e : decayTimescale c temp = 3600 * τ := by
    rw [hτ]
    cases temp with
    | none => simp [decayTimescale]
    | some T => by_cases hT : T0 ≤ T <;> simp [decayTimescale, hT]
  have hτ0 : (0 : ℝ) < 3600 * τ := by rw [← e]; exact decayTimescale_pos h temp
  have hd : decay c (3600 * τ) temp a = c.min + (a - c.min) * exp (-1) := by
    have : -1 / (3600 * τ) * (3600 * τ) = -1 := div_mul_cancel₀ _ hτ0.ne'
    simp only [decay, e, this]
  have he : exp (-1) * exp 1 = 1 := by rw [← exp_add]; simp
  refine ⟨decay c (3600 * τ) temp a, ?_, ?_⟩
  · unfold albedo
    cases c.refresh with
    | binary => simp [nanToZero, not_le.mpr hr]
    | continuous => simp [nanToZero, hr.ne']
  · rw [hd]
    calc (c.min + (a - c.min) * exp (-1) - c.min) * exp 1
        = (a - c.min) * (exp (-1) * exp 1) := by ring
      _ = a - c.min := by rw [he, mul_one]

/-- **C24.** With continuous refresh, snowfall of the share `q ≤ 1` of the refresh amount (given per
hour) moves the aged albedo by the share `q` towards the maximum. -/
theorem C24_partial_refresh (c : AlbedoCfg) (h : c.OK) (hc : c.refresh = .continuous) (dt : ℝ)
    (hdt : 0 < dt) (temp : Option ℝ) (a q : ℝ) (hq1 : q ≤ 1) :
    ∃ a₀ a', albedo c dt temp none (some a) = some a₀ ∧
      albedo c dt temp (some (q * c.refreshSnowfall * (dt / 3600))) (some a) = some a' ∧
      c.max - a' = (1 - q) * (c.max - a₀) := by
  have hr := h.refresh
  have hne : ¬ c.refreshSnowfall / 3600 = 0 := by positivity
  have hf : q * c.refreshSnowfall * (dt / 3600) / dt / (c.refreshSnowfall / 3600) = q := by
    field_simp
  refine ⟨decay c dt temp a, decay c dt temp a + (c.max - decay c dt temp a) * q, ?_, ?_, by ring⟩
  · simp [albedo, hc, nanToZero, hr.ne']
  · simp only [albedo, hc, hne, false_and, if_false, nanToZero, Option.map_some, Option.getD_some,
      hf, min_eq_right hq1]

/-- **C25 (Anderson).** With a known air temperature and a positive time step every layer with
thickness gets strictly denser, and the more load lies on it and the warmer the air, the more. -/
theorem C25_anderson_rate (dtH : ℝ) (hdt : 0 < dtH) (T T' load load' : ℝ) (L : DLayer)
    (hT : T ≤ T') (hl0 : 0 ≤ load) (hl : load ≤ load') (hth : 0 < L.thick)
    (hm : 0 < L.ice + L.lwc) :
    ∃ b b' M M' d d', andersonLayer dtH (some T) load L = some (b, M) ∧
      andersonLayer dtH (some T') load' L = some (b', M') ∧
      b = load + (L.ice + L.lwc) ∧
      M.dens = some d ∧ M'.dens = some d' ∧ (L.ice + L.lwc) / L.thick < d ∧ d ≤ d' := by
  have hrho : 0 < (L.ice + L.lwc) / L.thick := div_pos hm hth
  obtain ⟨rho, hr⟩ : ∃ r, (L.ice + L.lwc) / L.thick = r := ⟨_, rfl⟩
  have pos : ∀ (T l : ℝ), 0 ≤ l → 0 < andersonRate (some T) l rho L.lwc := by
    intro T l hl
    simp only [andersonRate]
    have h4 : (0 : ℝ) < if 0 < L.lwc then 2 / 100 else 1 / 100 := by split_ifs <;> norm_num
    have h6 : (0 : ℝ) < if 150 < rho then exp (-(46 / 1000) * (rho - 150)) else 1 := by
      split_ifs
      · positivity
      · norm_num
    have := exp_pos (-(8 / 100) * (T0 - T) - 21 / 1000 * rho)
    have := exp_pos (-(4 / 100) * (T0 - T))
    rw [hr] at hrho
    positivity
  have mono : andersonRate (some T) (load + (L.ice + L.lwc) / 2) rho L.lwc ≤
      andersonRate (some T') (load' + (L.ice + L.lwc) / 2) rho L.lwc := by
    simp only [andersonRate]
    have h4 : (0 : ℝ) < if 0 < L.lwc then 2 / 100 else 1 / 100 := by split_ifs <;> norm_num
    have h6 : (0 : ℝ) < if 150 < rho then exp (-(46 / 1000) * (rho - 150)) else 1 := by
      split_ifs
      · positivity
      · norm_num
    rw [hr] at hrho
    apply mul_le_mul_of_nonneg_left _ hrho.le
    apply add_le_add
    · apply mul_le_mul (by linarith) (exp_le_exp.mpr (by linarith)) (exp_pos _).le
      linarith
    · apply mul_le_mul_of_nonneg_right _ h6.le
      apply mul_le_mul_of_nonneg_left _ h4.le
      exact exp_le_exp.mpr (by linarith)
  have p1 := pos T (load + (L.ice + L.lwc) / 2) (by linarith)
  have p2 := pos T' (load' + (L.ice + L.lwc) / 2) (by linarith)
  have q1 := mul_pos p1 hdt
  have q2 := mul_pos p2 hdt
  have hne1 : rho + andersonRate (some T) (load + (L.ice + L.lwc) / 2) rho L.lwc * dtH ≠ 0 := by
    rw [hr] at hrho; linarith
  have hne2 : rho + andersonRate (some T') (load' + (L.ice + L.lwc) / 2) rho L.lwc * dtH ≠ 0 := by
    rw [hr] at hrho; linarith
  obtain ⟨D, hD⟩ : ∃ D, rho + andersonRate (some T) (load + (L.ice + L.lwc) / 2) rho L.lwc * dtH = D :=
    ⟨_, rfl⟩
  obtain ⟨D', hD'⟩ : ∃ D,
    rho + andersonRate (some T') (load' + (L.ice + L.lwc) / 2) rho L.lwc * dtH = D := ⟨_, rfl⟩
  rw [hD] at hne1
  rw [hD'] at hne2
  refine ⟨load + (L.ice + L.lwc) / 2 + (L.ice + L.lwc) / 2,
    load' + (L.ice + L.lwc) / 2 + (L.ice + L.lwc) / 2,
    { L with dens := some D, thick := (L.ice + L.lwc) / D },
    { L with dens := some D', thick := (L.ice + L.lwc) / D' }, D, D', ?_, ?_, by ring, rfl, rfl, ?_, ?_⟩
  rotate_left 2
  · rw [← hD]
    rw [← hr] at q1 ⊢; linarith
  · rw [← hD, ← hD']; exact add_le_add le_rfl (mul_le_mul_of_nonneg_right mono hdt.le)
  · simp only [andersonLayer, hth, if_true, hr, hD, hne1, if_false]
  · simp only [andersonLayer, hth, if_true, hr, hD', hne2, if_false]

/-- **C25 (empirical).** The distance to the maximum density, which is the cold value below the
melting point and the melting value otherwise, falls to the fraction `1/e` in one timescale. -/
theorem C25_empirical_rate (c : EmpiricalCfg) (hτ : 0 < c.timescale) (L : DLayer) (mx : ℝ)
    (hmx : mx = if L.temp < T0 then c.maxCold else c.maxMelting) (hth : 0 < L.thick)
    (hm : 0 < L.ice + L.lwc) (hlt : (L.ice + L.lwc) / L.thick < mx) :
    ∃ M d, empiricalLayer c c.timescale L = some M ∧ M.dens = some d ∧
      (mx - d) * exp 1 = mx - (L.ice + L.lwc) / L.thick := by
  have hrho : 0 < (L.ice + L.lwc) / L.thick := div_pos hm hth
  have e : maxDensity c L = mx := by rw [hmx]; rfl
  have he1 : exp (-c.timescale / c.timescale) = exp (-1) := by congr 1; field_simp
  have he : exp (-1) * exp 1 = 1 := by rw [← exp_add]; simp
  have hle : exp (-1) ≤ 1 := exp_le_one_iff.mpr (by norm_num)
  have hne : mx + ((L.ice + L.lwc) / L.thick - mx) * exp (-1) ≠ 0 := by
    have : (mx - (L.ice + L.lwc) / L.thick) * exp (-1) ≤ mx - (L.ice + L.lwc) / L.thick :=
      mul_le_of_le_one_right (by linarith) hle
    have : 0 < mx + ((L.ice + L.lwc) / L.thick - mx) * exp (-1) := by nlinarith
    exact this.ne'
  refine ⟨{ L with dens := some (mx + ((L.ice + L.lwc) / L.thick - mx) * exp (-1)),
                   thick := (L.ice + L.lwc) / (mx + ((L.ice + L.lwc) / L.thick - mx) * exp (-1)) },
    _, ?_, rfl, ?_⟩
  · simp only [empiricalLayer, hth, if_true, e, hlt, he1, hne, if_false]
  · calc (mx - (mx + ((L.ice + L.lwc) / L.thick - mx) * exp (-1))) * exp 1
        = (mx - (L.ice + L.lwc) / L.thick) * (exp (-1) * exp 1) := by ring
      _ = _ := by rw [he, mul_one]

/-- **C27.** SWE and depth are additive over stacked packs and are the mass and the thickness of a
single layer; the cover fraction depends on depth only through `depth / scale`. -/
theorem C27_additive (A B : List DLayer) (L : DLayer) (s t : ℝ) (hs : 0 < s) (ht : 0 < t) :
    swe (A ++ B) = swe A + swe B ∧ depth (A ++ B) = depth A + depth B ∧
    swe [L] = L.ice + L.lwc ∧ depth [L] = L.thick ∧
    (depth A / s = depth B / t → areaFraction s A = areaFraction t B) ∧
    (¬ depth A / s < depth B / t → areaFraction t B ≤ areaFraction s A) := by
  refine ⟨by simp [swe], by simp [depth], by simp [swe], by simp [depth], ?_, ?_⟩
  · intro h; simp only [areaFraction, hs, ht, if_true, h]
  · intro h
    simp only [areaFraction, hs, ht, if_true]
    have hle := not_lt.mp h
    rw [tanh_eq_sinh_div_cosh, tanh_eq_sinh_div_cosh, div_le_div_iff₀ (cosh_pos _) (cosh_pos _)]
    have h1 := sinh_sub (depth A / s) (depth B / t)
    have h2 : 0 ≤ sinh (depth A / s - depth B / t) := sinh_nonneg_iff.mpr (by linarith)
    linarith

example : exAlbedo.OK ∧ ({ exAlbedo with refresh := .continuous } : AlbedoCfg).OK := by
  constructor <;> constructor <;> norm_num [exAlbedo]

example : (0 : ℝ) < (⟨2 / 10, 40, 1, 270, none⟩ : DLayer).thick ∧
    ((40 : ℝ) + 1) / (2 / 10) < 300 := by norm_num

end Verif.Snow

namespace Verif.Cryo

open Verif.MultiLayer (LwcMethod maxLwc)

variable {K : Type*} [Field K] [LinearOrder K] [IsStrictOrderedRing K]

/-- **C28 (runoff).** The snow layers fill up before they pass water on: each non-empty layer ends
with the smaller of its capacity and its water plus the inflow, where the inflow is the rain for new
snow and what new snow passes on for old snow. -/
theorem C28_runoff_retention (m : LwcMethod) (maxFrac : K) (rain : Option K) (p : CPixel K) :
    let q := (runoff m maxFrac rain p).2
    let capN := maxLwc m maxFrac p.new.thick p.new.ice
    let capO := maxLwc m maxFrac p.old.thick p.old.ice
    (0 < p.new.we → q.new.lwc = min (p.new.lwc + rain.getD 0) capN) ∧
    (p.new.we ≤ 0 → q.new.lwc = p.new.lwc ∧
      (0 < p.old.we → q.old.lwc = min (p.old.lwc + rain.getD 0) capO)) ∧
    (0 < p.new.we → 0 < p.old.we →
      q.old.lwc = min (p.old.lwc + max (p.new.lwc + rain.getD 0 - capN) 0) capO) := by
  have key : ∀ a b : K, a - max (a - b) 0 = min a b := by
    intro a b
    rcases le_total a b with h | h
    · rw [max_eq_right (by linarith), min_eq_left h]; ring
    · rw [max_eq_left (by linarith), min_eq_right h]; ring
  have lay : ∀ (r cap : K) (L : CLayer K), 0 < L.we →
      (runoffLayer r cap L).2.lwc = min (L.lwc + r) cap ∧
      (runoffLayer r cap L).1 = max (L.lwc + r - cap) 0 := by
    intro r cap L h
    have h' : 0 < L.ice + L.lwc := h
    simp only [runoffLayer, h', if_true, and_true]
    exact key _ _
  have empty : ∀ (r cap : K) (L : CLayer K), L.we ≤ 0 → runoffLayer r cap L = (r, L) := by
    intro r cap L h
    have h' : ¬ 0 < L.ice + L.lwc := not_lt.mpr h
    simp only [runoffLayer, h', if_false]
  simp only [runoff, nanToZero]
  refine ⟨fun h => (lay _ _ _ h).1, fun h => ?_, fun h h' => ?_⟩
  · rw [empty _ _ _ h]
    exact ⟨rfl, fun h' => (lay _ _ _ h').1⟩
  · rw [(lay _ _ _ h').1, (lay _ _ _ h).2]

/-- **C28 (adding snow).** The first new snow has the maximum albedo, unless the layers are coupled
(`single`) and old snow is present, whose albedo it then takes; further snow keeps the albedo. -/
theorem C28_add_snow_albedo (single : Bool) (albMax density amount : K) (p : CPixel K)
    (ha : 0 < amount) :
    let q := addSnow single albMax density amount p
    (p.new.ice = 0 → single = false → q.new.alb = some albMax) ∧
    (p.new.ice = 0 → ¬ 0 < p.old.thick → q.new.alb = some albMax) ∧
    (p.new.ice = 0 → single = true → 0 < p.old.thick → q.new.alb = p.old.alb) ∧
    (p.new.ice = 0 → q.albedo = q.new.alb) ∧
    (p.new.ice ≠ 0 → q.new.alb = p.new.alb ∧ q.albedo = p.albedo) := by
  simp only [addSnow]
  refine ⟨fun h hs => ?_, fun h hs => ?_, fun h hs ho => ?_, fun h => ?_, fun h => ?_⟩
  · simp [h, ha, hs]
  · simp [h, ha, hs]
  · simp [h, ha, hs, ho]
  · simp [h, ha]
  · simp [h]

/-- **C31.** The available cold is the energy deficit over the time step in mass units, scaled by the
factor; it is used for refreezing before anything else: as long as water is left in new snow all of
it froze water there; water refreezes in old snow unless the cold is used up. -/
theorem C31_cold_used (e dt factor capacity : K) (p : CPixel K) (hp : p.Plausible)
    (hn : p.new.cc ≤ capacity * p.new.we) (he : e ≤ 0) (hdt : 0 ≤ dt)
    (hf : 0 ≤ factor) :
    let r := refreeze (some e) dt factor capacity p
    let cold := -e * dt * factor / LF
    (0 < p.new.thick → r.2.new.lwc = p.new.lwc - min p.new.lwc cold) ∧
    (0 < p.new.thick → 0 < r.2.new.lwc → r.1 = cold ∧ r.2.new.cc = p.new.cc ∧ r.2.old = p.old) ∧
    (¬ 0 < p.new.thick → 0 < p.old.thick → r.1 = min p.old.lwc cold) ∧
    (0 < p.new.thick → p.new.lwc ≤ cold →
      r.2.new.cc = min (p.new.cc + (cold - p.new.lwc)) (capacity * p.new.we)) ∧
    (0 < p.new.thick → 0 < p.old.thick → r.1 = min p.new.lwc cold +
      min p.old.lwc (max (cold - min p.new.lwc cold - (capacity * p.new.we - p.new.cc)) 0)) := by
  obtain ⟨⟨⟨n1, n2, n3⟩, n4, n5⟩, ⟨⟨o1, o2, o3⟩, o4, o5⟩, -, -⟩ := hp
  have hLF : (0 : K) < LF := LF_pos
  have hav : availableCold (some e) dt factor = -e * dt * factor / LF := by
    have h0 : 0 ≤ -e * dt * factor / LF :=
      div_nonneg (mul_nonneg (mul_nonneg (by linarith) hdt) hf) hLF.le
    simp only [availableCold]
    have : -1 * e * dt / LF * factor = -e * dt * factor / LF := by ring
    rw [this, max_eq_left h0]
  have hc0 : 0 ≤ -e * dt * factor / LF :=
    div_nonneg (mul_nonneg (mul_nonneg (by linarith) hdt) hf) hLF.le
  simp only [refreeze, hav]
  obtain ⟨A, hA⟩ : ∃ A, -e * dt * factor / LF = A := ⟨_, rfl⟩
  rw [hA] at hc0 ⊢
  have first : 0 < p.new.thick → refreezeLayer capacity A p.new =
      (A - min p.new.lwc A - min (A - min p.new.lwc A) (capacity * p.new.we - p.new.cc),
        min p.new.lwc A,
        { p.new with ice := p.new.ice + min p.new.lwc A, lwc := p.new.lwc - min p.new.lwc A,
                     cc := p.new.cc + min (A - min p.new.lwc A) (capacity * p.new.we - p.new.cc) }) := by
    intro ht
    by_cases hA0 : 0 < A
    · have e1 : p.new.ice + min p.new.lwc A + (p.new.lwc - min p.new.lwc A) = p.new.we := by
        simp only [CLayer.we]; ring
      simp only [refreezeLayer, ht, hA0, and_self, if_true, e1]
    · have hz : A = 0 := le_antisymm (not_lt.mp hA0) hc0
      have : min (0 - 0) (capacity * p.new.we - p.new.cc) = 0 := by
        rw [sub_zero]; exact min_eq_left (by linarith)
      simp only [refreezeLayer, hz, lt_irrefl, and_false, if_false, min_eq_right n3, this]
      simp
  have second : ∀ B : K, 0 ≤ B → 0 < p.old.thick →
      (refreezeLayer capacity B p.old).2.1 = min p.old.lwc B := by
    intro B hB ht
    by_cases hB0 : 0 < B
    · simp only [refreezeLayer, ht, hB0, and_self, if_true]
    · have hz : B = 0 := le_antisymm (not_lt.mp hB0) hB
      simp only [refreezeLayer, hz, lt_irrefl, and_false, if_false, min_eq_right o3]
  refine ⟨fun ht => ?_, fun ht hw => ?_, fun ht ho => ?_, fun ht hle => ?_, fun ht ho => ?_⟩
  · rw [first ht]
  · rw [first ht] at hw ⊢
    simp only at hw
    have hm : min p.new.lwc A = A := by
      rcases le_total p.new.lwc A with h | h
      · rw [min_eq_left h] at hw; linarith
      · exact min_eq_right h
    have hb : min (A - A) (capacity * p.new.we - p.new.cc) = 0 := by
      rw [sub_self]; exact min_eq_left (by linarith)
    simp only [hm, hb]
    have hz : A - A - 0 = 0 := by ring
    rw [hz]
    simp [refreezeLayer]
  · have e1 : refreezeLayer capacity A p.new = (A, 0, p.new) := by
      simp only [refreezeLayer, ht, false_and, if_false]
    rw [e1]
    simp only [zero_add]
    exact second A hc0 ho
  · rw [first ht, min_eq_left hle]
    simp only
    rcases le_total (A - p.new.lwc) (capacity * p.new.we - p.new.cc) with h | h
    · rw [min_eq_left h, min_eq_left (by linarith)]
    · rw [min_eq_right h, min_eq_right (by linarith)]; ring
  · rw [first ht]
    simp only
    have hmin : min p.new.lwc A ≤ A := min_le_right _ _
    have e2 : A - min p.new.lwc A - min (A - min p.new.lwc A) (capacity * p.new.we - p.new.cc) =
        max (A - min p.new.lwc A - (capacity * p.new.we - p.new.cc)) 0 := by
      rcases le_total (A - min p.new.lwc A) (capacity * p.new.we - p.new.cc) with h | h
      · rw [min_eq_left h, max_eq_right (by linarith)]; ring
      · rw [min_eq_right h, max_eq_left (by linarith)]
    rw [e2, second _ (le_max_right _ _) ho]

/-- **C32.** The factors are per day: over one day a temperature `x` kelvin above the threshold melts
`ddf * x` (at most the ice present); the enhanced method adds `af` per unit of absorbed radiation. -/
theorem C32_degree_day (ddf af thr x alb sw : K) (p : CPixel K) (hd : 0 < p.depth) (hx : 0 < x)
    (hddf : 0 ≤ ddf) (haf : 0 ≤ af) (halb : alb ≤ 1) (hsw : 0 ≤ sw) :
    tiMelt .temperatureIndex 86400 ddf af thr (thr + x) alb sw p = min (ddf * x) p.iceSum ∧
    tiMelt .enhanced 86400 ddf af thr (thr + x) alb sw p =
      min (ddf * x + af * ((1 - alb) * sw)) p.iceSum := by
  have h1 : (86400 : K) / (3600 * 24) = 1 := by norm_num
  have h2 : 0 ≤ ddf * x := mul_nonneg hddf hx.le
  have h3 : 0 ≤ af * (1 - alb) * sw := mul_nonneg (mul_nonneg haf (by linarith)) hsw
  have h4 : thr + x - thr = x := by ring
  constructor
  · simp only [tiMelt, hd, if_true, h1, mul_one, h4, max_eq_left hx.le, max_eq_left h2]
  · simp only [tiMelt, hd, if_true, h1, mul_one, h4, not_le.mpr hx, if_false,
      max_eq_left (add_nonneg h2 h3)]
    rw [mul_assoc af]

/-- **C32.** Below the limit set by the ice present, melt is proportional to the length of the time
step. -/
theorem C32_proportional (m : TiMethod) (dt n ddf af thr T alb sw : K) (p : CPixel K) (hn : 0 ≤ n)
    (hlt : tiMelt m (n * dt) ddf af thr T alb sw p < p.iceSum)
    (hlt' : tiMelt m dt ddf af thr T alb sw p < p.iceSum) (hn0 : n ≠ 0) :
    tiMelt m (n * dt) ddf af thr T alb sw p = n * tiMelt m dt ddf af thr T alb sw p := by
  have hpos : 0 < n := lt_of_le_of_ne hn (Ne.symm hn0)
  have hmm : ∀ a : K, max (n * a) 0 = n * max a 0 := by
    intro a
    rw [mul_max_of_nonneg _ _ hn, mul_zero]
  by_cases hd : 0 < p.depth
  · simp only [tiMelt, hd, if_true] at hlt hlt' ⊢
    have un : ∀ a b : K, min a b < b → min a b = a := fun a b h => by
      rcases le_total a b with h' | h'
      · exact min_eq_left h'
      · rw [min_eq_right h'] at h; exact absurd h (lt_irrefl _)
    rw [un _ _ hlt, un _ _ hlt', ← hmm]
    congr 1
    have e : (T - thr) * (n * dt / (3600 * 24)) = n * ((T - thr) * (dt / (3600 * 24))) := by ring
    cases m with
    | temperatureIndex => simp only [e, hmm]; ring
    | enhanced =>
      have hiff : n * ((T - thr) * (dt / (3600 * 24))) ≤ 0 ↔ (T - thr) * (dt / (3600 * 24)) ≤ 0 := by
        constructor
        · intro h; by_contra hc; exact absurd h (not_le.mpr (mul_pos hpos (not_le.mp hc)))
        · intro h; exact mul_nonpos_of_nonneg_of_nonpos hn h
      simp only [e, hiff]
      split_ifs
      · simp
      · ring
  · simp [tiMelt, hd]

example : 0 < exPixel.depth ∧ exPixel.new.cc ≤ 1 / 20 * exPixel.new.we ∧ 0 < exPixel.new.we := by
  norm_num [exPixel, CPixel.depth, CLayer.we]

end Verif.Cryo

namespace Verif.Canopy

open Real

/-- **C35.** Unloading by melt is `ddf` per kelvin above freezing and day, at most the load left
after sublimation; interception fills the free capacity by 70 % of the share `1 - exp(-snowfall/cap)`
and thus is zero without snowfall and at full load; sublimation happens only at a negative loss rate
and at most removes the load. -/
theorem C35_amounts (c : SnowCfg) (load : ℝ) (i : SnowIn) (hcap : 0 < i.cap) (hl0 : 0 ≤ load)
    (hl : load ≤ i.cap) (hs : 0 ≤ i.snowfall) :
    ∃ o, snowStep c load i = some o ∧
      o.intercepted = 7 / 10 * (i.cap - load) * (1 - exp (-(i.snowfall / i.cap))) ∧
      (i.snowfall = 0 → o.intercepted = 0) ∧ (load = i.cap → o.intercepted = 0) ∧
      (0 ≤ i.rate → 0 ≤ c.expCoeff → 0 ≤ c.dt → o.subl = 0) ∧
      (∀ x, i.temp = T0 + x → 0 ≤ x → c.dt = 86400 →
        o.melt = min (c.ddf * x) (load + o.intercepted - o.subl)) ∧
      o.precip = o.snowfall + i.rainfall := by
  have hne : i.cap ≠ 0 := hcap.ne'
  have hfill : fillFactor i.snowfall i.cap = some (1 - exp (-i.snowfall / i.cap)) := by
    simp [fillFactor, hne]
  obtain ⟨hf0, hf1⟩ := fill_bounds hs hcap
  have hx : exp (-i.snowfall / i.cap) ≤ 1 := by
    apply exp_le_one_iff.mpr
    rw [neg_div]; have : 0 ≤ i.snowfall / i.cap := by positivity
    linarith
  have hinc : 0 ≤ 7 / 10 * (i.cap - load) * (1 - exp (-i.snowfall / i.cap)) := by
    have h1 : 0 ≤ i.cap - load := by linarith
    have h2 : 0 ≤ 1 - exp (-i.snowfall / i.cap) := by linarith
    positivity
  have hint : max (load + 7 / 10 * (i.cap - load) * (1 - exp (-i.snowfall / i.cap)) - load) 0 =
      7 / 10 * (i.cap - load) * (1 - exp (-i.snowfall / i.cap)) := by
    rw [add_sub_cancel_left, max_eq_left hinc]
  obtain ⟨o, ho⟩ : ∃ o, snowStep c load i = some o := ⟨_, by rw [snowStep, hfill]; rfl⟩
  have hi := ho
  simp only [snowStep, hfill, Option.map_some, Option.some.injEq] at hi
  refine ⟨o, ho, ?_⟩
  clear ho
  subst hi
  refine ⟨?_, ?_, ?_, ?_, ?_, rfl⟩
  · simp only [hint]; rw [neg_div]
  · intro h; simp only [hint]; simp [h]
  · intro h; simp only [hint]; simp [h]
  · intro hr he hdt
    simp only
    apply max_eq_right
    refine le_trans (min_le_left _ _) ?_
    have hnl : 0 ≤ load + 7 / 10 * (i.cap - load) * (1 - exp (-i.snowfall / i.cap)) := by linarith
    split_ifs with hp
    · have : 0 ≤ c.expCoeff * ((load + 7 / 10 * (i.cap - load) * (1 - exp (-i.snowfall / i.cap))) /
          i.cap) ^ (-(4 : ℝ) / 10) := by positivity
      have h2 := mul_nonneg (mul_nonneg (mul_nonneg this hnl) hr) hdt
      nlinarith
    · simp
  · intro x hx' hx0 hdt
    have e1 : c.ddf * max (i.temp - T0) 0 * c.dt / (3600 * 24) = c.ddf * x := by
      rw [hx', hdt, add_sub_cancel_left, max_eq_left hx0]; ring
    simp only [hint, e1]

/-- **C37.** Attenuation is multiplicative in leaf area: shortwave radiation and wind below two
canopies on top of each other are those below one canopy of the summed leaf area; without leaves
nothing changes. -/
theorem C37_stacked (c : MetCfg) (l l' mean24 mean24' mean24'' : ℝ) (m : Met) :
    (metStep c l' mean24' (metStep c l mean24 m)).sw = (metStep c (l + l') mean24'' m).sw ∧
    (metStep c l' mean24' (metStep c l mean24 m)).wind = (metStep c (l + l') mean24'' m).wind ∧
    (metStep c 0 mean24 m).sw = m.sw ∧ (metStep c 0 mean24 m).wind = m.wind ∧
    (metStep c 0 mean24 m).temp = m.temp ∧ (metStep c 0 mean24 m).lw = m.lw ∧
    (0 < c.extinction → l < l' → 0 < m.sw → (metStep c l' mean24 m).sw < (metStep c l mean24 m).sw) ∧
    (0 < c.flowCoeff → l < l' → 0 < m.wind →
      (metStep c l' mean24 m).wind < (metStep c l mean24 m).wind) := by
  refine ⟨?_, ?_, by simp [metStep], by simp [metStep], by simp [metStep, canopyFrac],
    by simp [metStep, canopyFrac], ?_, ?_⟩
  · simp only [metStep]
    rw [mul_assoc, ← exp_add]
    congr 2; ring
  · simp only [metStep]
    rw [mul_assoc, ← exp_add]
    congr 2; ring
  · intro hk hl hs
    exact mul_lt_mul_of_pos_left (exp_lt_exp.mpr (by nlinarith)) hs
  · intro hk hl hs
    exact mul_lt_mul_of_pos_left (exp_lt_exp.mpr (by nlinarith)) hs

example : (0 : ℝ) < (⟨22, 3, 0, -1, 274⟩ : SnowIn).cap ∧ (5 : ℝ) ≤ (⟨22, 3, 0, -1, 274⟩ : SnowIn).cap := by
  norm_num

end Verif.Canopy
