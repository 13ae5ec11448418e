import Verif.Model.Irradiance
import Verif.Props.Idw
import Verif.Props.Atmosphere

/-!
# Cloud factor and irradiance (C75, C76)
-/

namespace Verif.Irradiance

open Verif.Atmosphere Verif.Idw

theorem clip_range (x : ℝ) : 0 ≤ clip 0 1 x ∧ clip 0 1 x ≤ 1 :=
  ⟨le_min zero_le_one (le_max_left _ _), min_le_left _ _⟩

/-- **C75.** With fallback allowed, the method finally used has at least one station, or keeps the previous value;
radiation measurements are used in daytime only. -/
theorem C75_method (m night : Method) (hn : night = .humidity ∨ night = .constant) (sunUp : Bool)
    (st : List Station) :
    let c := chooseMethod m night true sunUp st
    (c = .prescribed → m = .prescribed ∧ ∃ s ∈ st, s.cloud.isSome) ∧
    (c = .clearSkyFraction → sunUp = true ∧ ∃ s ∈ st, s.within = true ∧ s.sw.isSome) ∧
    (c = .humidity → ∃ s ∈ st, s.tempHum = true) := by
  have len : ∀ k, (select k st).length ≠ 0 → ∃ s, s ∈ select k st := fun k hk =>
    List.exists_mem_of_length_pos (Nat.pos_of_ne_zero hk)
  have e1 : (select .prescribed st).length ≠ 0 → ∃ s ∈ st, s.cloud.isSome := fun h => by
    obtain ⟨s, hs⟩ := len _ h
    exact ⟨s, by simpa [select] using hs⟩
  have e2 : (select .clearSkyFraction st).length ≠ 0 → ∃ s ∈ st, s.within = true ∧ s.sw.isSome := fun h => by
    obtain ⟨s, hs⟩ := len _ h
    exact ⟨s, by simpa [select] using hs⟩
  have e3 : (select .humidity st).length ≠ 0 → ∃ s ∈ st, s.tempHum = true := fun h => by
    obtain ⟨s, hs⟩ := len _ h
    exact ⟨s, by simpa [select] using hs⟩
  simp only [chooseMethod, and_true]
  rcases hn with rfl | rfl <;> cases m <;> cases sunUp <;>
    by_cases h1 : (select .prescribed st).length = 0 <;>
    by_cases h2 : (select .clearSkyFraction st).length = 0 <;>
    by_cases h3 : (select .humidity st).length = 0 <;>
    simp only [h1, h2, h3, reduceCtorEq, if_true, if_false, and_true, true_and, and_false, false_and, false_implies,
      implies_true, ne_eq, not_true, not_false_iff, forall_true_left, Bool.false_eq_true] at e1 e2 e3 ⊢ <;>
    first | trivial | assumption | exact ⟨trivial, by assumption⟩

/-- **C75.** Without fallback a configured method other than the radiation-based one is never replaced. -/
theorem C75_no_fallback (m night : Method) (sunUp : Bool) (st : List Station) :
    chooseMethod m night false sunUp st =
      if m = .clearSkyFraction ∧ sunUp = false then night else m := by
  cases m <;> cases sunUp <;> simp [chooseMethod]

theorem cloudFactorAt_range (m : Method) (st : List Station) (t : ℝ × ℝ) (prev : Option ℝ)
    (hp : ∀ f, prev = some f → 0 ≤ f ∧ f ≤ 1) (f : ℝ) (h : cloudFactorAt m st t prev = some f) :
    0 ≤ f ∧ f ≤ 1 := by
  unfold cloudFactorAt at h
  split at h
  · cases prev with
    | none => simp at h; subst h; norm_num
    | some g => simp at h; subst h; exact hp g rfl
  · simp only [Option.map_eq_some_iff] at h
    obtain ⟨g, -, rfl⟩ := h
    exact clip_range g

/-- **C75.** After every sequence of time steps the cloud factor is missing or between 0 and 1. -/
theorem C75_range (m night : Method) (fallback : Bool) (t : ℝ × ℝ) (steps : List StepIn) (f : ℝ)
    (h : runFactor m night fallback t steps = some f) : 0 ≤ f ∧ f ≤ 1 := by
  have main : ∀ (l : List StepIn) (prev : Option ℝ), (∀ f, prev = some f → 0 ≤ f ∧ f ≤ 1) → ∀ f,
      l.foldl (fun prev i => (shortwave m night fallback i.sunUp i.stations t prev i.clearSky).1) prev = some f →
      0 ≤ f ∧ f ≤ 1 := by
    intro l
    induction l with
    | nil => intro prev hp f h; exact hp f h
    | cons i l ih =>
      intro prev hp f h
      exact ih _ (fun g hg => cloudFactorAt_range _ _ t prev hp g hg) f h
  exact main steps none (by simp) f h

/-- **C75.** Through any number of time steps that use the method "constant" the cloud factor of the last
time step before them is kept; a run that starts with such time steps uses 0.75. -/
theorem C75_kept (m night : Method) (fallback : Bool) (t : ℝ × ℝ) (before gap : List StepIn) (hne : gap ≠ [])
    (h : ∀ i ∈ gap, chooseMethod m night fallback i.sunUp i.stations = .constant) :
    runFactor m night fallback t (before ++ gap) = some ((runFactor m night fallback t before).getD 0.75) := by
  have main : ∀ (l : List StepIn) (prev : Option ℝ), l ≠ [] →
      (∀ i ∈ l, chooseMethod m night fallback i.sunUp i.stations = .constant) →
      l.foldl (fun prev i => (shortwave m night fallback i.sunUp i.stations t prev i.clearSky).1) prev =
        some (prev.getD 0.75) := by
    intro l
    induction l with
    | nil => intro _ h; exact absurd rfl h
    | cons i l ih =>
      intro prev _ hl
      have e : (shortwave m night fallback i.sunUp i.stations t prev i.clearSky).1 = some (prev.getD 0.75) := by
        simp only [shortwave, hl i (by simp), cloudFactorAt]
        norm_num
      rw [List.foldl_cons, e]
      by_cases hnil : l = []
      · subst hnil; rfl
      · rw [ih _ hnil (fun j hj => hl j (by simp [hj]))]; rfl
  unfold runFactor
  rw [List.foldl_append]
  exact main gap _ hne h

example : runFactor .prescribed .constant true (0, 0) ([] ++ [⟨false, [], some 0⟩, ⟨true, [], some 300⟩]) =
    some ((none : Option ℝ).getD 0.75) :=
  C75_kept _ _ _ _ [] _ (by simp) (by simp [chooseMethod, select])

/-- **C75.** Shortwave irradiance lies between zero and its clear-sky value. -/
theorem C75_shortwave_bounds (m night : Method) (fallback sunUp : Bool) (st : List Station) (t : ℝ × ℝ)
    (prev : Option ℝ) (hp : ∀ f, prev = some f → 0 ≤ f ∧ f ≤ 1) (c : ℝ) (hc : 0 ≤ c) (sw : ℝ)
    (h : (shortwave m night fallback sunUp st t prev (some c)).2 = some sw) : 0 ≤ sw ∧ sw ≤ c := by
  simp only [shortwave, Option.bind_eq_some_iff, Option.map_some, Option.some.injEq] at h
  obtain ⟨f, hf, rfl⟩ := h
  obtain ⟨h0, h1⟩ := cloudFactorAt_range _ _ t prev hp f hf
  exact ⟨mul_nonneg hc h0, mul_le_of_le_one_right hc h1⟩

theorem mem_usable (m : Method) (sel : List Station) (p : Pt) :
    p ∈ usable (sel.map fun s => some s.x) (sel.map fun s => some s.y) (sel.map (stationFactor m)) ↔
      ∃ q ∈ sel, p.x = q.x ∧ p.y = q.y ∧ stationFactor m q = some p.z := by
  induction sel with
  | nil => simp [usable]
  | cons s l ih =>
    unfold usable at ih ⊢
    cases hz : stationFactor m s with
    | none =>
      rw [List.map_cons, List.map_cons, List.map_cons, hz, List.zip_cons_cons, List.zip_cons_cons,
        List.filterMap_cons_none rfl, ih]
      simp [hz]
    | some z =>
      rw [List.map_cons, List.map_cons, List.map_cons, hz, List.zip_cons_cons, List.zip_cons_cons,
        List.filterMap_cons, List.mem_cons, ih]
      simp only [List.mem_cons, exists_eq_or_imp, hz, Option.some.injEq]
      refine or_congr ?_ Iff.rfl
      constructor
      · rintro rfl; exact ⟨rfl, rfl, rfl⟩
      · rintro ⟨a, b, c⟩; cases p; simp_all

theorem interp_isSome (m : Method) (sel : List Station) (t : ℝ × ℝ)
    (h : ∃ s ∈ sel, (stationFactor m s).isSome) :
    ((idw 2 0 (sel.map fun s => some s.x) (sel.map fun s => some s.y) (sel.map (stationFactor m)) [t]).bind
      fun r => r.head?.join).isSome := by
  rw [idw_eq 2 0 _ _ _ [t] (by simp)]
  have hu : usable (sel.map fun s => some s.x) (sel.map fun s => some s.y) (sel.map (stationFactor m)) ≠ [] := by
    obtain ⟨s, hs, hf⟩ := h
    obtain ⟨v, hv⟩ := Option.isSome_iff_exists.1 hf
    intro hnil
    have := (mem_usable m sel ⟨s.x, s.y, v⟩).2 ⟨s, hs, rfl, rfl, hv⟩
    rw [hnil] at this
    cases this
  simp [hu]

/-- **C75 (partial).** With fallback allowed, the cloud factor is available in every time step, provided that each
method's stations yield at least one finite factor: radiation stations lie on pixels of the domain with non-zero
clear-sky irradiance, and humidity gives a cloud fraction. Without this proviso the claim is false: see
`C75_outside_domain_false`. -/
theorem C75_available_partial (m night : Method) (hn : night = .humidity ∨ night = .constant) (sunUp : Bool)
    (st : List Station) (t : ℝ × ℝ) (prev : Option ℝ) (c : ℝ)
    (hrad : ∀ s ∈ st, s.within = true → s.sw.isSome → ∃ x, s.clearSky = some x ∧ x ≠ 0)
    (hhum : ∀ s ∈ st, s.tempHum = true → s.humFraction.isSome) :
    (shortwave m night true sunUp st t prev (some c)).1.isSome ∧
    (shortwave m night true sunUp st t prev (some c)).2.isSome := by
  obtain ⟨h1, h2, h3⟩ := C75_method m night hn sunUp st
  have hf : (cloudFactorAt (chooseMethod m night true sunUp st) st t prev).isSome := by
    obtain ⟨k, hk⟩ : ∃ k, chooseMethod m night true sunUp st = k := ⟨_, rfl⟩
    rw [hk] at h1 h2 h3 ⊢
    cases k with
    | constant => simp [cloudFactorAt]
    | prescribed =>
      obtain ⟨-, s, hs, hc⟩ := h1 rfl
      simp only [cloudFactorAt, Option.isSome_map]
      exact interp_isSome _ _ t ⟨s, by simp [select, hs, hc], by simp [stationFactor, hc]⟩
    | clearSkyFraction =>
      obtain ⟨-, s, hs, hw, hc⟩ := h2 rfl
      obtain ⟨x, hx, hx0⟩ := hrad s hs hw hc
      obtain ⟨v, hv⟩ := Option.isSome_iff_exists.1 hc
      simp only [cloudFactorAt, Option.isSome_map]
      exact interp_isSome _ _ t ⟨s, by simp [select, hs, hw, hc], by simp [stationFactor, ratio, hv, hx, hx0]⟩
    | humidity =>
      obtain ⟨s, hs, ht⟩ := h3 rfl
      simp only [cloudFactorAt, Option.isSome_map]
      exact interp_isSome _ _ t ⟨s, by simp [select, hs, ht], by simp [stationFactor, hhum s hs ht]⟩
  obtain ⟨f, hf'⟩ := Option.isSome_iff_exists.1 hf
  simp [shortwave, hf']

/-- A station measuring radiation, temperature and humidity inside the extent of the grid but outside the domain. -/
noncomputable def outside : Station := ⟨0, 0, none, some 500, true, none, true, some (1 / 2)⟩

/-- **C75 (negated).** A single radiation station inside the extent of the grid but outside the domain suppresses
the fallback and makes shortwave irradiance missing at every pixel, although the same station's humidity would give a
cloud factor. -/
theorem C75_outside_domain_false (t : ℝ × ℝ) (prev : Option ℝ) (c : ℝ) :
    shortwave .clearSkyFraction .humidity true true [outside] t prev (some c) = (none, none) ∧
    (cloudFactorAt .humidity [outside] t prev).isSome := by
  have hm : chooseMethod .clearSkyFraction .humidity true true [outside] = .clearSkyFraction := by
    simp [chooseMethod, select, outside]
  constructor
  · have : cloudFactorAt .clearSkyFraction [outside] t prev = none := by
      simp only [cloudFactorAt]
      rw [idw_eq 2 0 _ _ _ [t] (by simp)]
      simp [select, outside, stationFactor, ratio, usable]
    simp [shortwave, hm, this]
  · simp only [cloudFactorAt, Option.isSome_map]
    exact interp_isSome _ _ t ⟨outside, by simp [select, outside], by simp [stationFactor, outside]⟩

example : ∀ s ∈ [{ outside with clearSky := some 700 }], s.within = true → s.sw.isSome →
    ∃ x, s.clearSky = some x ∧ x ≠ (0 : ℝ) := by
  intro s hs _ _
  simp only [List.mem_singleton] at hs
  exact ⟨700, by rw [hs], by norm_num⟩

/-- **C75.** A station on the pixel that reports a cloud fraction of `c` percent: the cloud factor of the pixel is that of
Greuell et al. (1997) for the fraction `c / 100`, whatever other stations there are elsewhere; 1 for a clear and 0.352 for
an overcast sky. -/
theorem C75_prescribed (st : List Station) (s : Station) (hs : s ∈ st) (prev : Option ℝ) (c : ℝ)
    (hc : s.cloud = some c) (h0 : 0 ≤ c) (h1 : c ≤ 100) (huniq : ∀ q ∈ st, q.x = s.x → q.y = s.y → q = s) :
    cloudFactorAt .prescribed st (s.x, s.y) prev = some (1 - 0.233 * (c / 100) - 0.415 * (c / 100) ^ 2) ∧
    (c = 0 → cloudFactorAt .prescribed st (s.x, s.y) prev = some 1) ∧
    (c = 100 → cloudFactorAt .prescribed st (s.x, s.y) prev = some 0.352) := by
  have hsel : s ∈ select .prescribed st := by simp [select, hs, hc]
  obtain ⟨f, hf⟩ : ∃ f : ℝ, f = 1 - 0.233 * (c / 100) - 0.415 * (c / 100) ^ 2 := ⟨_, rfl⟩
  have hf0 : 0 ≤ f := by rw [hf]; nlinarith
  have hf1 : f ≤ 1 := by rw [hf]; nlinarith
  have hfac : stationFactor .prescribed s = some f := by
    have e : 1 - 233 / 1000 * (c / 100) - 415 / 1000 * (c / 100) ^ 2 = f := by rw [hf]; norm_num
    simp only [stationFactor, hc, Option.map_some, Atmosphere.cloudFactor, e, Option.some.injEq, clip,
      max_eq_right hf0, min_eq_right hf1]
  obtain ⟨v, hv⟩ := Option.isSome_iff_exists.1 (interp_isSome .prescribed _ (s.x, s.y)
    ⟨s, hsel, by rw [hfac]; rfl⟩)
  have hmem : ∀ p : Pt, p ∈ usable ((select .prescribed st).map fun s => some s.x)
      ((select .prescribed st).map fun s => some s.y)
      ((select .prescribed st).map (stationFactor .prescribed)) ↔
      ∃ q ∈ select .prescribed st, p.x = q.x ∧ p.y = q.y ∧ stationFactor .prescribed q = some p.z :=
    mem_usable _ _
  have hval : v = f := by
    refine C12_exact 2 _ _ _ [(s.x, s.y)] 0 (s.x, s.y) v ?_ ⟨s.x, s.y, f⟩ ((hmem _).2 ⟨s, hsel, rfl, rfl, hfac⟩)
      rfl ?_
    · rw [valueAt_iff]
      rw [idw_eq 2 0 _ _ _ _ (by simp)] at hv
      refine ⟨by simp, by simp, ?_, ?_⟩
      · intro hu
        simp [hu] at hv
      · by_cases hu : usable ((select .prescribed st).map fun s => some s.x)
            ((select .prescribed st).map fun s => some s.y)
            ((select .prescribed st).map (stationFactor .prescribed)) = []
        · simp [hu] at hv
        · simpa [hu, eq_comm] using hv
    · intro p hp he
      obtain ⟨q, hq, e1, e2, e3⟩ := (hmem p).1 hp
      have hqs : q = s := by
        refine huniq q (List.mem_of_mem_filter hq) ?_ ?_
        · rw [← e1]; exact congrArg Prod.fst he
        · rw [← e2]; exact congrArg Prod.snd he
      rw [hqs, hfac, Option.some.injEq] at e3
      exact e3.symm
  have hres : cloudFactorAt .prescribed st (s.x, s.y) prev = some f := by
    simp only [cloudFactorAt]
    rw [hv, Option.map_some, hval, Option.some.injEq]
    simp only [clip, max_eq_right hf0, min_eq_right hf1]
  refine ⟨by rw [hres, hf], fun h => ?_, fun h => ?_⟩
  · rw [hres, hf, h]; norm_num
  · rw [hres, hf, h]; norm_num

/-- **C75.** At a radiation station on a pixel of the domain that measures at most the clear-sky value, the
radiation-based method reproduces the measurement, whatever other stations there are elsewhere. -/
theorem C75_station (st : List Station) (s : Station) (hs : s ∈ st) (prev : Option ℝ) (night : Method)
    (fallback : Bool) (sw c : ℝ) (hw : s.within = true) (hsw : s.sw = some sw) (hc : s.clearSky = some c)
    (h0 : 0 ≤ sw) (h1 : sw ≤ c) (hc0 : 0 < c) (huniq : ∀ q ∈ st, q.x = s.x → q.y = s.y → q = s) :
    (shortwave .clearSkyFraction night fallback true st (s.x, s.y) prev (some c)).2 = some sw := by
  have hsel : s ∈ select .clearSkyFraction st := by simp [select, hs, hw, hsw]
  have hm : chooseMethod .clearSkyFraction night fallback true st = .clearSkyFraction := by
    have : (select .clearSkyFraction st).length ≠ 0 := (List.length_pos_of_mem hsel).ne'
    simp [chooseMethod, this]
  have hfac : stationFactor .clearSkyFraction s = some (sw / c) := by
    simp [stationFactor, ratio, hsw, hc, hc0.ne']
  obtain ⟨v, hv⟩ := Option.isSome_iff_exists.1 (interp_isSome .clearSkyFraction _ (s.x, s.y)
    ⟨s, hsel, by rw [hfac]; rfl⟩)
  have hmem : ∀ p : Pt, p ∈ usable ((select .clearSkyFraction st).map fun s => some s.x)
      ((select .clearSkyFraction st).map fun s => some s.y)
      ((select .clearSkyFraction st).map (stationFactor .clearSkyFraction)) ↔
      ∃ q ∈ select .clearSkyFraction st, p.x = q.x ∧ p.y = q.y ∧ stationFactor .clearSkyFraction q = some p.z :=
    mem_usable _ _
  have hval : v = sw / c := by
    refine C12_exact 2 _ _ _ [(s.x, s.y)] 0 (s.x, s.y) v ?_ ⟨s.x, s.y, sw / c⟩ ((hmem _).2 ⟨s, hsel, rfl, rfl, hfac⟩)
      rfl ?_
    · rw [valueAt_iff]
      rw [idw_eq 2 0 _ _ _ _ (by simp)] at hv
      refine ⟨by simp, by simp, ?_, ?_⟩
      · intro hu
        simp [hu] at hv
      · by_cases hu : usable ((select .clearSkyFraction st).map fun s => some s.x)
            ((select .clearSkyFraction st).map fun s => some s.y)
            ((select .clearSkyFraction st).map (stationFactor .clearSkyFraction)) = []
        · simp [hu] at hv
        · simpa [hu, eq_comm] using hv
    · intro p hp he
      obtain ⟨q, hq, e1, e2, e3⟩ := (hmem p).1 hp
      have hqs : q = s := by
        refine huniq q (List.mem_of_mem_filter hq) ?_ ?_
        · rw [← e1]; exact congrArg Prod.fst he
        · rw [← e2]; exact congrArg Prod.snd he
      rw [hqs, hfac, Option.some.injEq] at e3
      exact e3.symm
  have hf : cloudFactorAt .clearSkyFraction st (s.x, s.y) prev = some (sw / c) := by
    simp only [cloudFactorAt]
    rw [hv, Option.map_some, hval, Option.some.injEq]
    have e0 : 0 ≤ sw / c := div_nonneg h0 hc0.le
    have e1 : sw / c ≤ 1 := (div_le_one hc0).2 h1
    simp only [clip, max_eq_right e0, min_eq_right e1]
  simp only [shortwave, hm, hf, Option.bind_some, Option.map_some, Option.some.injEq]
  field_simp

/-! ## C76 -/

theorem sigma_pos : 0 < sigma := by unfold sigma; norm_num

/-- **C76.** Longwave irradiance is non-negative and strictly increases with air temperature where sky is
visible. -/
theorem C76_temperature (w temp temp' svf f rf sw ts : ℝ) (hw : 0 ≤ w) (ht : 0 ≤ temp) (htt : temp < temp')
    (hs0 : 0 < svf) (hs1 : svf ≤ 1) (hf0 : 0 ≤ f) (hf1 : f ≤ 1) (hr0 : 0 ≤ rf) (hr1 : rf ≤ 1) (hsw : 0 ≤ sw)
    (hpos : 0 < f ∨ 0 < clearSkyEmissivity w) :
    0 ≤ longwave (clearSkyEmissivity w) temp svf f rf sw ts ∧
    longwave (clearSkyEmissivity w) temp svf f rf sw ts <
      longwave (clearSkyEmissivity w) temp' svf f rf sw ts := by
  have hσ := sigma_pos
  have he := (C63_emissivity w hw).1
  generalize clearSkyEmissivity w = em at *
  have hf2 : f ^ 2 ≤ 1 := pow_le_one₀ hf0 hf1
  have hq : 0 ≤ 1 - f ^ 2 := by linarith
  have hsv : 0 ≤ 1 - svf := by linarith
  have hrf : 0 ≤ 1 - rf := by linarith
  have h4 : temp ^ 4 < temp' ^ 4 := pow_lt_pow_left₀ htt ht (by norm_num)
  have h4' : (temp + 1 / 100 * sw) ^ 4 ≤ (temp' + 1 / 100 * sw) ^ 4 :=
    pow_le_pow_left₀ (by positivity) (by linarith) 4
  have hcoef : 0 < em * (1 - f ^ 2) + 976 / 1000 * f ^ 2 := by
    rcases hpos with h | h
    · have := mul_nonneg he hq; positivity
    · by_cases hz : f = 0
      · rw [hz]; simpa using h
      · have := mul_nonneg he hq; positivity
  have hts : 0 ≤ ts ^ 4 := by positivity
  unfold longwave
  constructor
  · positivity
  · have a1 : em * sigma * temp ^ 4 * svf * (1 - f ^ 2) + 976 / 1000 * sigma * temp ^ 4 * svf * f ^ 2 =
        (sigma * svf * (em * (1 - f ^ 2) + 976 / 1000 * f ^ 2)) * temp ^ 4 := by ring
    have a2 : em * sigma * temp' ^ 4 * svf * (1 - f ^ 2) + 976 / 1000 * sigma * temp' ^ 4 * svf * f ^ 2 =
        (sigma * svf * (em * (1 - f ^ 2) + 976 / 1000 * f ^ 2)) * temp' ^ 4 := by ring
    rw [a1, a2]
    have b1 := mul_lt_mul_of_pos_left h4 (mul_pos (mul_pos hσ hs0) hcoef)
    have b2 := mul_le_mul_of_nonneg_left (add_le_add_left (mul_le_mul_of_nonneg_left h4' hr0)
      ((1 - rf) * ts ^ 4)) (mul_nonneg hσ.le hsv)
    linarith

/-- **C76.** Longwave irradiance increases with cloud fraction exactly if clear sky emits less than clouds. -/
theorem C76_clouds (em temp svf f f' rf sw ts : ℝ) (ht : 0 < temp) (hs0 : 0 < svf) (hf0 : 0 ≤ f) (hff : f < f') :
    longwave em temp svf f rf sw ts < longwave em temp svf f' rf sw ts ↔ em < 0.976 := by
  have hσ := sigma_pos
  have hk : 0 < sigma * temp ^ 4 * svf * (f' ^ 2 - f ^ 2) := by
    have : f ^ 2 < f' ^ 2 := pow_lt_pow_left₀ hff hf0 (by norm_num)
    have : 0 < f' ^ 2 - f ^ 2 := by linarith
    positivity
  have e : longwave em temp svf f' rf sw ts - longwave em temp svf f rf sw ts =
      (sigma * temp ^ 4 * svf * (f' ^ 2 - f ^ 2)) * (0.976 - em) := by
    unfold longwave; ring
  constructor
  · intro h
    by_contra hc
    push Not at hc
    have := mul_nonneg hk.le (show 0 ≤ em - 0.976 by linarith)
    nlinarith
  · intro h
    have := mul_pos hk (show 0 < 0.976 - em by linarith)
    linarith

/-- **C76.** Longwave irradiance never exceeds that of a black body at the warmest of the temperatures of air,
heated rock and surface. -/
theorem C76_black_body (w temp svf f rf sw ts T : ℝ) (hw : 0 ≤ w) (ht : 0 ≤ temp) (hts : 0 ≤ ts) (hsw : 0 ≤ sw)
    (hs0 : 0 ≤ svf) (hs1 : svf ≤ 1) (hf0 : 0 ≤ f) (hf1 : f ≤ 1) (hr0 : 0 ≤ rf) (hr1 : rf ≤ 1)
    (h1 : temp + sw / 100 ≤ T) (h2 : ts ≤ T) :
    longwave (clearSkyEmissivity w) temp svf f rf sw ts ≤ sigma * T ^ 4 := by
  have hσ := sigma_pos
  obtain ⟨he0, he1⟩ := C63_emissivity w hw
  generalize clearSkyEmissivity w = em at *
  have hf2 : f ^ 2 ≤ 1 := pow_le_one₀ hf0 hf1
  have hf20 : 0 ≤ f ^ 2 := by positivity
  have t1 : temp ^ 4 ≤ T ^ 4 := pow_le_pow_left₀ ht (by linarith) 4
  have t2 : (temp + 1 / 100 * sw) ^ 4 ≤ T ^ 4 := pow_le_pow_left₀ (by positivity) (by linarith) 4
  have t3 : ts ^ 4 ≤ T ^ 4 := pow_le_pow_left₀ hts h2 4
  have t0 : 0 ≤ temp ^ 4 := by positivity
  have hcoef : em * (1 - f ^ 2) + 976 / 1000 * f ^ 2 ≤ 1 := by nlinarith
  have hcoef0 : 0 ≤ em * (1 - f ^ 2) + 976 / 1000 * f ^ 2 := by
    have := mul_nonneg he0 (show 0 ≤ 1 - f ^ 2 by linarith); positivity
  have hA : (em * (1 - f ^ 2) + 976 / 1000 * f ^ 2) * temp ^ 4 ≤ T ^ 4 :=
    (mul_le_of_le_one_left t0 hcoef).trans t1
  have hB : rf * (temp + 1 / 100 * sw) ^ 4 + (1 - rf) * ts ^ 4 ≤ T ^ 4 := by nlinarith
  have e : longwave em temp svf f rf sw ts =
      sigma * (svf * ((em * (1 - f ^ 2) + 976 / 1000 * f ^ 2) * temp ^ 4) +
        (1 - svf) * (rf * (temp + 1 / 100 * sw) ^ 4 + (1 - rf) * ts ^ 4)) := by unfold longwave; ring
  rw [e]
  refine mul_le_mul_of_nonneg_left ?_ hσ.le
  nlinarith

example : (0 : ℝ) ≤ 10 ∧ (0 : ℝ) < 9 / 10 ∧ (273 : ℝ) + 500 / 100 ≤ 280 ∧ (0 : ℝ) < 1 / 2 := by norm_num

/-- **C76.** Surroundings that are covered with melting snow and fill the whole field of view emit 315.66 W/m², a black body
at 100 K emits 5.67 W/m². -/
theorem C76_emission (em temp f sw : ℝ) :
    |longwave em temp 0 f 1 0 273.15 - sigma * temp ^ 4| = 0 ∧
    |longwave em temp 0 f 0 sw 273.15 - 315.66| < 0.01 ∧ |longwave em temp 0 f 0 sw 100 - 5.67| < 0.001 := by
  refine ⟨?_, ?_, ?_⟩
  · rw [abs_eq_zero]
    simp only [longwave]
    ring
  · rw [abs_lt]
    simp only [longwave, sigma]
    constructor <;> norm_num
  · rw [abs_lt]
    simp only [longwave, sigma]
    constructor <;> norm_num

end Verif.Irradiance
