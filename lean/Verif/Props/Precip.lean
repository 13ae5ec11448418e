import Verif.Model.Precip
import Mathlib.Tactic.Linarith
import Mathlib.Tactic.FieldSimp
import Mathlib.Tactic.Ring
import Mathlib.Tactic.NormNum

/-!
# C09–C11: precipitation phase
-/

set_option linter.unusedSectionVars false

namespace Verif.Precip

variable {K : Type*} [Field K] [LinearOrder K] [IsStrictOrderedRing K]

/-! ## C09 -/

/-- Specification: `f` is the snow share at temperature `t`: all snow below the transition zone, no
snow above, linear within. -/
def IsShare (thr range t f : K) : Prop :=
  (t < thr - range / 2 → f = 1) ∧ (thr + range / 2 ≤ t → f = 0) ∧
  (thr - range / 2 ≤ t → t < thr + range / 2 → f = (thr + range / 2 - t) / range)

/-- **C09.** A negative range is rejected. -/
theorem C09_rejected (thr range : K) (t : Option K) : phase thr range t = none ↔ range < 0 := by
  unfold phase
  split_ifs <;> simp_all

/-- **C09.** The snowfall fraction is the linear share. -/
theorem C09_share (thr range t : K) (h : 0 ≤ range) :
    ∃ f, phase thr range (some t) = some (some f) ∧ IsShare thr range t f := by
  unfold phase
  rw [if_neg (not_lt.mpr h)]
  by_cases h0 : range = 0
  · subst h0
    simp only [if_true]
    by_cases ht : t < thr
    · refine ⟨1, by simp [ht], fun _ => rfl, fun h => ?_, fun h => ?_⟩
      · linarith
      · intro; linarith
    · refine ⟨0, by simp [ht], fun h => ?_, fun _ => rfl, fun h h' => ?_⟩
      · linarith
      · linarith
  · rw [if_neg h0]
    have hr : 0 < range := lt_of_le_of_ne h (Ne.symm h0)
    have e : 1 - (t - (thr - range / 2)) / (thr + range / 2 - (thr - range / 2)) =
        (thr + range / 2 - t) / range := by
      rw [show thr + range / 2 - (thr - range / 2) = range by ring]
      field_simp; ring
    refine ⟨min (max (1 - (t - (thr - range / 2)) / (thr + range / 2 - (thr - range / 2))) 0) 1, rfl, ?_, ?_, ?_⟩
    · intro ht
      rw [e]
      have : 1 ≤ (thr + range / 2 - t) / range := by rw [le_div_iff₀ hr]; linarith
      rw [max_eq_left (by linarith), min_eq_right this]
    · intro ht
      rw [e]
      have : (thr + range / 2 - t) / range ≤ 0 := div_nonpos_of_nonpos_of_nonneg (by linarith) h
      rw [max_eq_right this, min_eq_left zero_le_one]
    · intro h1 h2
      rw [e]
      have a : 0 ≤ (thr + range / 2 - t) / range := div_nonneg (by linarith) h
      have b : (thr + range / 2 - t) / range ≤ 1 := by rw [div_le_one hr]; linarith
      rw [max_eq_left a, min_eq_left b]

theorem IsShare.range01 {thr range t f : K} (h : 0 ≤ range) (hf : IsShare thr range t f) :
    0 ≤ f ∧ f ≤ 1 := by
  obtain ⟨h1, h2, h3⟩ := hf
  rcases lt_or_ge t (thr - range / 2) with a | a
  · rw [h1 a]; exact ⟨zero_le_one, le_rfl⟩
  · rcases lt_or_ge t (thr + range / 2) with b | b
    · rw [h3 a b]
      have hr : 0 < range := by linarith
      exact ⟨div_nonneg (by linarith) h, by rw [div_le_one hr]; linarith⟩
    · rw [h2 b]; exact ⟨le_rfl, zero_le_one⟩

/-- **C09.** The fraction lies between 0 and 1. -/
theorem C09_range (thr range t f : K) (hf : phase thr range (some t) = some (some f)) :
    0 ≤ f ∧ f ≤ 1 := by
  have h : 0 ≤ range := by
    by_contra h
    rw [(C09_rejected thr range (some t)).mpr (not_le.mp h)] at hf
    cases hf
  obtain ⟨g, hg, hs⟩ := C09_share thr range t h
  rw [hg] at hf
  cases hf
  exact hs.range01 h

/-- **C09.** The fraction does not increase with temperature. -/
theorem C09_antitone (thr range t u f g : K) (hf : phase thr range (some t) = some (some f))
    (hg : phase thr range (some u) = some (some g)) (htu : t ≤ u) : g ≤ f := by
  have h : 0 ≤ range := by
    by_contra h
    rw [(C09_rejected thr range (some t)).mpr (not_le.mp h)] at hf
    cases hf
  obtain ⟨f', hf', hs⟩ := C09_share thr range t h
  obtain ⟨g', hg', hs'⟩ := C09_share thr range u h
  rw [hf'] at hf; cases hf
  rw [hg'] at hg; cases hg
  have rf := hs.range01 h
  have rg := hs'.range01 h
  rcases lt_or_ge t (thr - range / 2) with a | a
  · rw [hs.1 a]; exact rg.2
  · rcases lt_or_ge u (thr + range / 2) with b | b
    · rw [hs.2.2 a (by linarith), hs'.2.2 (by linarith) b]
      exact div_le_div_of_nonneg_right (by linarith) h
    · rw [hs'.2.1 b]; exact rf.1

/-- **C09.** Half of the precipitation is snow at the threshold temperature of a positive range. -/
theorem C09_threshold (thr range : K) (h : 0 < range) :
    phase thr range (some thr) = some (some (1 / 2)) := by
  obtain ⟨f, hf, hs⟩ := C09_share thr range thr h.le
  rw [hf, hs.2.2 (by linarith) (by linarith)]
  congr 2
  field_simp
  ring

example : phase (274 : ℚ) 2 (some (1093/4)) = some (some (7/8)) := by norm_num [phase]

/-! ## C10 -/

theorem frac_spec (c : Cfg K) (h : 0 ≤ c.range) (p : Px K) :
    (p.temp = none → frac c p = 0) ∧
    (∀ t, p.temp = some t → IsShare c.thr c.range t (frac c p)) ∧ 0 ≤ frac c p ∧ frac c p ≤ 1 := by
  have hn : p.temp = none → frac c p = 0 := by
    intro ht
    unfold frac phase
    rw [ht, if_neg (not_lt.mpr h)]
    split_ifs <;> simp
  have hs : ∀ t, p.temp = some t → IsShare c.thr c.range t (frac c p) := by
    intro t ht
    obtain ⟨f, hf, hs⟩ := C09_share c.thr c.range t h
    have : frac c p = f := by unfold frac; rw [ht, hf]
    rw [this]; exact hs
  refine ⟨hn, hs, ?_⟩
  cases ht : p.temp with
  | none => rw [hn ht]; exact ⟨le_rfl, zero_le_one⟩
  | some t => exact (hs t ht).range01 h

theorem enforced_spec (c : Cfg K) (h : 0 ≤ c.range) (pxs : List (Px K)) (p : Px K) :
    (enforced c pxs p = 0 ∨ enforced c pxs p = frac c p) ∧
      0 ≤ enforced c pxs p ∧ enforced c pxs p ≤ 1 := by
  obtain ⟨-, -, h1, h2⟩ := frac_spec c h p
  have key : enforced c pxs p = 0 ∨ enforced c pxs p = frac c p := by
    unfold enforced
    cases c.enforce with
    | false => exact Or.inr rfl
    | true =>
      simp only [if_true]
      cases maxRainElev c pxs with
      | none => exact Or.inr rfl
      | some m =>
        cases p.elev with
        | none => exact Or.inr rfl
        | some z =>
          simp only
          split_ifs
          · exact Or.inl rfl
          · exact Or.inr rfl
  refine ⟨key, ?_⟩
  rcases key with e | e <;> rw [e]
  · exact ⟨le_rfl, zero_le_one⟩
  · exact ⟨h1, h2⟩

theorem process_get (c : Cfg K) (pxs : List (Px K)) (outs : List (Out K))
    (h : process c pxs = some outs) :
    0 ≤ c.range ∧ outs.length = pxs.length ∧
    ∀ (i : ℕ) (p : Px K) (o : Out K), pxs[i]? = some p → outs[i]? = some o →
      o = partition c p (enforced c pxs p) := by
  unfold process at h
  split_ifs at h with hr
  rw [Option.some.injEq] at h
  refine ⟨not_lt.mp hr, by rw [← h, List.length_map], ?_⟩
  intro i p o hp ho
  rw [← h, List.getElem?_map, hp] at ho
  simpa using ho.symm

/-- **C10.** Without snow redistribution, snowfall and rainfall add up to the precipitation of every
pixel, which is not changed, and both are non-negative if the precipitation is. -/
theorem C10_balance (c : Cfg K) (hsrf : c.hasSrf = false) (pxs : List (Px K)) (outs : List (Out K))
    (h : process c pxs = some outs) (i : ℕ) (p : Px K) (o : Out K)
    (hp : pxs[i]? = some p) (ho : outs[i]? = some o) :
    o.precip = p.precip ∧ (p.precip = none → o.snow = none ∧ o.rain = none) ∧
    ∀ x, p.precip = some x → ∃ s r, o.snow = some s ∧ o.rain = some r ∧ s + r = x ∧
      (0 ≤ x → 0 ≤ s ∧ 0 ≤ r) := by
  obtain ⟨hr, -, hg⟩ := process_get c pxs outs h
  obtain ⟨-, e0, e1⟩ := enforced_spec c hr pxs p
  rw [hg i p o hp ho]
  simp only [partition, hsrf, Bool.false_eq_true, if_false]
  refine ⟨trivial, fun hn => by simp [hn], fun x hx => ?_⟩
  refine ⟨_, _, by rw [hx]; rfl, by rw [hx]; rfl, by ring, fun h0 => ⟨mul_nonneg e0 h0, ?_⟩⟩
  exact mul_nonneg (by linarith) h0

/-- **C10.** With snow redistribution, rainfall is what it is without, snowfall is the snowfall
without times the factor, and the precipitation is the new sum. -/
theorem C10_redistribution (c : Cfg K) (hsrf : c.hasSrf = true) (pxs : List (Px K))
    (outs outs₀ : List (Out K)) (h : process c pxs = some outs)
    (h₀ : process { c with hasSrf := false } pxs = some outs₀) (i : ℕ) (p : Px K) (o o₀ : Out K)
    (hp : pxs[i]? = some p) (ho : outs[i]? = some o) (ho₀ : outs₀[i]? = some o₀) :
    o.rain = o₀.rain ∧
    (∀ s f, o₀.snow = some s → p.srf = some f → o.snow = some (s * f)) ∧
    (∀ s r, o.snow = some s → o.rain = some r → o.precip = some (s + r)) := by
  obtain ⟨-, -, hg⟩ := process_get c pxs outs h
  obtain ⟨-, -, hg₀⟩ := process_get _ pxs outs₀ h₀
  have he : enforced { c with hasSrf := false } pxs p = enforced c pxs p := rfl
  have e1 := hg i p o hp ho
  have e0 := hg₀ i p o₀ hp ho₀
  rw [he] at e0
  simp only [partition, hsrf, if_true] at e1
  simp only [partition, Bool.false_eq_true, if_false] at e0
  subst e1; subst e0
  refine ⟨rfl, fun s f hs hf => ?_, fun s r hs hr => ?_⟩
  · simp only at hs ⊢
    rw [hs, hf]; rfl
  · simp only at hs hr ⊢
    rw [hs, hr]; rfl

/-- **C10.** A pixel whose phase temperature is missing receives rain only. -/
theorem C10_missing_temperature (c : Cfg K) (hsrf : c.hasSrf = false) (pxs : List (Px K))
    (outs : List (Out K)) (h : process c pxs = some outs) (i : ℕ) (p : Px K) (o : Out K)
    (hp : pxs[i]? = some p) (ho : outs[i]? = some o) (ht : p.temp = none) (x : K)
    (hx : p.precip = some x) : o.snow = some 0 ∧ o.rain = some x := by
  obtain ⟨hr, -, hg⟩ := process_get c pxs outs h
  have h0 : enforced c pxs p = 0 := by
    rcases (enforced_spec c hr pxs p).1 with e | e
    · exact e
    · rw [e, (frac_spec c hr p).1 ht]
  rw [hg i p o hp ho, h0]
  simp [partition, hsrf, hx]

/-- **C10.** Without the elevation rule, the snowfall is the precipitation times the linear share of
the pixel's temperature. -/
theorem C10_snowfall (c : Cfg K) (hsrf : c.hasSrf = false) (he : c.enforce = false)
    (pxs : List (Px K)) (outs : List (Out K)) (h : process c pxs = some outs) (i : ℕ) (p : Px K)
    (o : Out K) (hp : pxs[i]? = some p) (ho : outs[i]? = some o) (t x : K) (ht : p.temp = some t)
    (hx : p.precip = some x) :
    ∃ f, IsShare c.thr c.range t f ∧ o.snow = some (f * x) ∧ o.rain = some (x - f * x) := by
  obtain ⟨hr, -, hg⟩ := process_get c pxs outs h
  refine ⟨frac c p, (frac_spec c hr p).2.1 t ht, ?_, ?_⟩
  · rw [hg i p o hp ho]; simp [partition, hsrf, hx, enforced, he]
  · rw [hg i p o hp ho]
    simp only [partition, hsrf, hx, enforced, he, Bool.false_eq_true, if_false, Option.map_some,
      Option.some.injEq]
    ring

/-! ## C11 -/

/-- Specification: a pixel in which nothing falls as snow by temperature; a missing temperature
counts as rain. -/
def PureRain (c : Cfg K) (p : Px K) : Prop :=
  p.temp = none ∨ ∃ t, p.temp = some t ∧ c.thr + c.range / 2 ≤ t

theorem pureRain_iff (c : Cfg K) (h : 0 ≤ c.range) (p : Px K) :
    frac c p = 0 ↔ PureRain c p := by
  obtain ⟨hn, hs, -, -⟩ := frac_spec c h p
  unfold PureRain
  cases ht : p.temp with
  | none => simp [hn ht]
  | some t =>
    obtain ⟨s1, s2, s3⟩ := hs t ht
    simp only [reduceCtorEq, Option.some.injEq, false_or]
    constructor
    · intro h0
      refine ⟨t, rfl, ?_⟩
      by_contra hlt
      rw [not_le] at hlt
      rcases lt_or_ge t (c.thr - c.range / 2) with a | a
      · rw [s1 a] at h0; exact one_ne_zero h0
      · rw [s3 a hlt, div_eq_zero_iff] at h0
        rcases h0 with h0 | h0 <;> linarith
    · rintro ⟨u, rfl, hu⟩
      exact s2 hu

theorem max?_spec (l : List K) (m : K) (h : l.max? = some m) : m ∈ l ∧ ∀ x ∈ l, x ≤ m := by
  have := (List.max?_eq_some_iff (xs := l) (a := m)).mp h
  exact ⟨this.1, this.2⟩

theorem npMax_eq_none (l : List (Option K)) : npMax l = none ↔ none ∈ l ∨ l = [] := by
  unfold npMax
  split_ifs with h
  · simp [h]
  · rw [List.max?_eq_none_iff]
    constructor
    · intro he
      right
      cases l with
      | nil => rfl
      | cons a l =>
        cases a with
        | none => simp at h
        | some a => simp at he
    · rintro (h' | rfl)
      · exact absurd h' h
      · rfl

theorem npMax_eq_some (l : List (Option K)) (m : K) (hm : npMax l = some m) :
    some m ∈ l ∧ none ∉ l ∧ ∀ x, some x ∈ l → x ≤ m := by
  unfold npMax at hm
  split_ifs at hm with h
  obtain ⟨h1, h2⟩ := max?_spec _ _ hm
  simp only [List.mem_filterMap, id, exists_eq_right] at h1 h2
  exact ⟨h1, h, h2⟩

theorem maxRainElev_spec (c : Cfg K) (h : 0 ≤ c.range) (pxs : List (Px K)) :
    (maxRainElev c pxs = none ↔
      (∃ q ∈ pxs, PureRain c q ∧ q.elev = none) ∨ ∀ q ∈ pxs, ¬ PureRain c q) ∧
    ∀ m, maxRainElev c pxs = some m →
      (∃ q ∈ pxs, PureRain c q ∧ q.elev = some m) ∧
      ∀ q ∈ pxs, PureRain c q → ∃ z, q.elev = some z ∧ z ≤ m := by
  constructor
  · unfold maxRainElev
    rw [npMax_eq_none, List.map_eq_nil_iff, List.filter_eq_nil_iff]
    simp only [List.mem_map, List.mem_filter, decide_eq_true_eq, pureRain_iff c h, and_assoc]
  · intro m hm
    obtain ⟨h1, h2, h3⟩ := npMax_eq_some _ _ hm
    simp only [List.mem_map, List.mem_filter, decide_eq_true_eq, pureRain_iff c h] at h1 h2 h3
    obtain ⟨q, ⟨hq, hq'⟩, he⟩ := h1
    refine ⟨⟨q, hq, hq', he⟩, fun q hq hr => ?_⟩
    cases hz : q.elev with
    | none => exact absurd ⟨q, ⟨hq, hr⟩, hz⟩ h2
    | some z => exact ⟨z, rfl, h3 _ ⟨q, ⟨hq, hr⟩, hz⟩⟩

/-- **C11.** With the elevation rule, no pixel at or below any pure-rain pixel receives snow, and
all others get exactly what they get without the rule. What is missing: the first half needs an
elevation at all pixels with pure rain, `C11_missing_elevation_false`. -/
theorem C11_no_snow_below_rain_partial (c : Cfg K) (he : c.enforce = true) (pxs : List (Px K))
    (outs outs₀ : List (Out K)) (h : process c pxs = some outs)
    (h₀ : process { c with enforce := false } pxs = some outs₀)
    (i : ℕ) (p : Px K) (o o₀ : Out K)
    (hp : pxs[i]? = some p) (ho : outs[i]? = some o) (ho₀ : outs₀[i]? = some o₀)
    (z : K) (hz : p.elev = some z) :
    ((∀ q ∈ pxs, PureRain c q → q.elev ≠ none) →
      ∀ q ∈ pxs, PureRain c q → (∃ y, q.elev = some y ∧ z ≤ y) → ∀ s, o.snow = some s → s = 0) ∧
    ((∀ q ∈ pxs, PureRain c q → ∀ y, q.elev = some y → y < z) → o = o₀) := by
  obtain ⟨hr, -, hg⟩ := process_get c pxs outs h
  obtain ⟨-, -, hg₀⟩ := process_get _ pxs outs₀ h₀
  obtain ⟨m1, m2⟩ := maxRainElev_spec c hr pxs
  constructor
  · rintro hall q hq hpr ⟨y, hy, hle⟩ s hs
    have h0 : enforced c pxs p = 0 := by
      unfold enforced
      simp only [he, if_true]
      cases hm : maxRainElev c pxs with
      | none =>
        rcases m1.mp hm with ⟨q', a1, a2, a3⟩ | a
        · exact absurd a3 (hall q' a1 a2)
        · exact absurd hpr (a q hq)
      | some m =>
        obtain ⟨y', e1, e2⟩ := (m2 m hm).2 q hq hpr
        rw [hy] at e1
        rw [hz]
        simp only
        rw [if_pos (hle.trans (by rw [Option.some.inj e1]; exact e2))]
    rw [hg i p o hp ho, h0] at hs
    simp only [partition] at hs
    cases hpc : p.precip with
    | none =>
      rw [hpc] at hs
      split_ifs at hs <;> simp [op2] at hs
    | some x =>
      rw [hpc] at hs
      split_ifs at hs
      · cases hf : p.srf <;> rw [hf] at hs <;> simp [op2] at hs
        exact hs.symm
      · simp at hs
        exact hs.symm
  · intro hall
    rw [hg i p o hp ho, hg₀ i p o₀ hp ho₀]
    have : enforced c pxs p = enforced { c with enforce := false } pxs p := by
      unfold enforced
      simp only [he, if_true, Bool.false_eq_true, if_false]
      cases hm : maxRainElev c pxs with
      | none => rfl
      | some m =>
        rw [hz]
        simp only
        obtain ⟨q, hq, hpr, hqe⟩ := (m2 m hm).1
        rw [if_neg (not_le.mpr (hall q hq hpr m hqe))]
        rfl
    rw [this]
    rfl

/-- **C11 fails with a missing elevation.** A single pixel of the ROI without elevation that counts
as pure rain (as one without temperature does) switches the rule off in the whole domain: all
pixels get what they get without the rule. -/
theorem C11_missing_elevation_false (c : Cfg K) (pxs : List (Px K))
    (q : Px K) (hq : q ∈ pxs) (hn : q.elev = none) (hr : PureRain c q) :
    process c pxs = process { c with enforce := false } pxs := by
  unfold process
  by_cases h : c.range < 0
  · simp [h]
  · simp only [h, if_false]
    have hm : maxRainElev c pxs = none :=
      (maxRainElev_spec c (not_lt.mp h) pxs).1.mpr (Or.inl ⟨q, hq, hr, hn⟩)
    congr 1
    apply List.map_congr_left
    intro p _
    have : enforced c pxs p = enforced { c with enforce := false } pxs p := by
      unfold enforced
      rw [hm]
      simp [frac]
    rw [this]
    rfl

/-- A station pixel without elevation and temperature beside an inversion: the valley pixel keeps its
snow below the rain at 1000 m. -/
example : process (⟨274, 2, true, false⟩ : Cfg ℚ)
    [⟨some 500, some 271, some 4, none⟩, ⟨some 1000, some 276, some 5, none⟩, ⟨none, none, some 6, none⟩]
    = some [⟨some 4, some 0, some 4⟩, ⟨some 0, some 5, some 5⟩, ⟨some 0, some 6, some 6⟩] := by
  rw [C11_missing_elevation_false _ _ ⟨none, none, some 6, none⟩ (by simp) rfl (Or.inl rfl)]
  norm_num [process, enforced, frac, phase, partition]

/-- A mountain pixel in snow above a valley pixel in an inversion: the valley pixel is colder than
the warm middle pixel, and its snow turns to rain. -/
def exPx : List (Px ℚ) :=
  [⟨some 500, some 271, some 4, none⟩, ⟨some 1000, some 276, some 5, none⟩, ⟨some 2000, some 270, some 6, none⟩]

def exC : Cfg ℚ := ⟨274, 2, true, false⟩

example : process exC exPx = some [⟨some 0, some 4, some 4⟩, ⟨some 0, some 5, some 5⟩,
    ⟨some 6, some 0, some 6⟩] := by
  have f1 : frac exC ⟨some 500, some 271, some 4, none⟩ = 1 := by norm_num [frac, phase, exC]
  have f2 : frac exC ⟨some 1000, some 276, some 5, none⟩ = 0 := by norm_num [frac, phase, exC]
  have f3 : frac exC ⟨some 2000, some 270, some 6, none⟩ = 1 := by norm_num [frac, phase, exC]
  have hm : maxRainElev exC exPx = some 1000 := by
    simp [maxRainElev, npMax, exPx, f1, f2, f3, List.filter]
  simp only [process, exPx, List.map, enforced]
  simp only [exPx] at hm
  rw [hm, f1, f2, f3]
  norm_num [exC, partition]

/-- **C11.** A pixel without a temperature at the summit counts as pure rain: all snow of the
domain becomes rain. -/
theorem C11_missing_summit_witness :
    process (⟨274, 2, true, false⟩ : Cfg ℚ)
      [⟨some 500, some 260, some 4, none⟩, ⟨some 2000, none, some 6, none⟩] =
    some [⟨some 0, some 4, some 4⟩, ⟨some 0, some 6, some 6⟩] := by
  have f1 : frac (⟨274, 2, true, false⟩ : Cfg ℚ) ⟨some 500, some 260, some 4, none⟩ = 1 := by
    norm_num [frac, phase]
  have f2 : frac (⟨274, 2, true, false⟩ : Cfg ℚ) ⟨some 2000, none, some 6, none⟩ = 0 := by
    norm_num [frac, phase]
  have hm : maxRainElev (⟨274, 2, true, false⟩ : Cfg ℚ)
      [⟨some 500, some 260, some 4, none⟩, ⟨some 2000, none, some 6, none⟩] = some 2000 := by
    simp [maxRainElev, npMax, f1, f2, List.filter]
  simp only [process, List.map, enforced]
  rw [hm, f1, f2]
  norm_num [partition]

end Verif.Precip
