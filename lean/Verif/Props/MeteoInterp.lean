import Verif.Model.MeteoInterp
import Verif.Props.Idw
import Verif.Props.Atmosphere
import Verif.Props.Config
import Mathlib.Tactic.Linarith
import Mathlib.Tactic.NormNum
import Mathlib.Tactic.FieldSimp
import Mathlib.Tactic.Ring
import Mathlib.Tactic.Positivity

/-!
# C56-C59, C65: interpolation of meteorological variables
-/

namespace Verif.MeteoInterp

open Verif.Idw (Pt loop dist)
open Verif.Atmosphere (clip dewPoint rhFromDew fmod clip_mem clip_of_mem)

/-! ## C56 -/

theorem clipAllowed_ge (p : Param) (lo : ℝ) (hi : Option ℝ) (h : p.allowed = some (lo, hi)) (x : ℝ) :
    lo ≤ clipAllowed p x ∧ ∀ u, hi = some u → clipAllowed p x ≤ u := by
  cases p <;> simp only [Param.allowed, Option.some.injEq, Prod.mk.injEq, reduceCtorEq] at h <;>
    obtain ⟨rfl, rfl⟩ := h <;> simp only [clipAllowed, Param.allowed]
  · exact ⟨le_max_left _ _, by simp⟩
  · exact ⟨le_max_left _ _, by simp⟩
  · refine ⟨(clip_mem 0 100 x (by norm_num)).1, ?_⟩
    intro u hu
    cases hu
    exact (clip_mem 0 100 x (by norm_num)).2
  · exact ⟨le_max_left _ _, by simp⟩

theorem interpolate_some {p : Param} {tr : Trend} {lapse : ℝ} {e : Bool} {st : List Stn} {t : Target}
    {r : ℝ} (hne : st ≠ []) (h : interpolate p tr lapse e st t = some (some r)) :
    ∃ x, r = clipAllowed p (clipData e (vals (if p = .relHum then toDew st else st)) x) := by
  simp only [interpolate] at h
  rw [if_neg (by simpa using hne), Option.map_eq_some_iff] at h
  obtain ⟨r', -, h2⟩ := h
  rw [Option.map_eq_some_iff] at h2
  obtain ⟨x, -, h3⟩ := h2
  exact ⟨x, h3.symm⟩

/-- **C56.** Every interpolated value is physical: temperature and precipitation at least 0, humidity
between 0 and 100, wind speed at least 0.1. -/
theorem C56_physical (p : Param) (tr : Trend) (lapse : ℝ) (e : Bool) (st : List Stn) (t : Target) (r : ℝ)
    (h : interpolate p tr lapse e st t = some (some r)) :
    (p = .temp ∨ p = .precip → 0 ≤ r) ∧ (p = .relHum → 0 ≤ r ∧ r ≤ 100) ∧
    (p = .windSpeed → 1 / 10 ≤ r) := by
  by_cases hne : st = []
  · subst hne
    simp only [interpolate, List.length_nil, if_true] at h
    split_ifs at h with hp
    · subst hp
      simp only [Option.some.injEq] at h
      subst h
      simp
    · simp at h
  · obtain ⟨x, rfl⟩ := interpolate_some hne h
    refine ⟨?_, ?_, ?_⟩
    · rintro (rfl | rfl)
      · exact (clipAllowed_ge .temp 0 none rfl _).1
      · exact (clipAllowed_ge .precip 0 none rfl _).1
    · rintro rfl
      exact ⟨(clipAllowed_ge .relHum 0 (some 100) rfl _).1,
        (clipAllowed_ge .relHum 0 (some 100) rfl _).2 100 rfl⟩
    · rintro rfl
      exact (clipAllowed_ge .windSpeed (1 / 10) none rfl _).1

/-- Specification: a value is allowed for a parameter. -/
def Physical (p : Param) (v : ℝ) : Prop :=
  match p with
  | .temp => 0 ≤ v
  | .precip => 0 ≤ v
  | .relHum => 0 ≤ v ∧ v ≤ 100
  | .windSpeed => 1 / 10 ≤ v
  | .windVec => True

theorem clipAllowed_of_physical {p : Param} {v : ℝ} (h : Physical p v) : clipAllowed p v = v := by
  cases p <;> simp only [clipAllowed, Param.allowed] <;> simp only [Physical] at h
  · exact max_eq_right h
  · exact max_eq_right h
  · exact clip_of_mem h.1 h.2
  · exact max_eq_right h

theorem clipData_mem (data : List ℝ) (lo hi x : ℝ) (hlo : lo ∈ data) (hhi : hi ∈ data)
    (hmin : ∀ v ∈ data, lo ≤ v) (hmax : ∀ v ∈ data, v ≤ hi) :
    clipData false data x = clip lo hi x := by
  have h1 : data.min? = some lo := List.min?_eq_some_iff.mpr ⟨hlo, hmin⟩
  have h2 : data.max? = some hi := List.max?_eq_some_iff.mpr ⟨hhi, hmax⟩
  simp [clipData, h1, h2]

/-- **C56.** With extrapolation disabled, a variable other than humidity stays within the range of the
station values (if these are physical). -/
theorem C56_range (p : Param) (hp : p ≠ .relHum) (tr : Trend) (lapse : ℝ) (st : List Stn) (t : Target)
    (r lo hi : ℝ) (hlo : lo ∈ vals st) (hhi : hi ∈ vals st) (hmin : ∀ v ∈ vals st, lo ≤ v)
    (hmax : ∀ v ∈ vals st, v ≤ hi) (hphys : ∀ v ∈ vals st, Physical p v)
    (h : interpolate p tr lapse false st t = some (some r)) : lo ≤ r ∧ r ≤ hi := by
  have hne : st ≠ [] := by
    rintro rfl
    simp [vals] at hlo
  obtain ⟨x, rfl⟩ := interpolate_some hne h
  rw [if_neg hp, clipData_mem (vals st) lo hi x hlo hhi hmin hmax]
  have hm := clip_mem lo hi x (hmin hi hhi)
  have hph : Physical p (clip lo hi x) := by
    have := hphys lo hlo
    cases p <;> simp only [Physical] at this ⊢
    · linarith [hm.1]
    · linarith [hm.1]
    · exact absurd rfl hp
    · linarith [hm.1]
  rw [clipAllowed_of_physical hph]
  exact hm

/-- **C56.** Without stations precipitation is 0 and every other variable missing. -/
theorem C56_no_stations (p : Param) (tr : Trend) (lapse : ℝ) (e : Bool) (t : Target) :
    interpolate p tr lapse e [] t = some (if p = .precip then some 0 else none) := by
  simp [interpolate]

/-! ## Lemmas on inverse distance weighting -/

/-- Adding a constant to all station values adds it to the result. -/
theorem loop_add (power s x y c : ℝ) (ps : List Pt) (w total : ℝ)
    (h : 0 < w ∨ (ps ≠ [] ∧ 0 ≤ w)) :
    loop power s x y (ps.map fun p => { p with z := p.z + c }) w (total + c * w) =
      loop power s x y ps w total + c := by
  induction ps generalizing w total with
  | nil =>
    rcases h with h | h
    · simp only [List.map_nil, loop]
      field_simp
    · exact absurd rfl h.1
  | cons p ps ih =>
    simp only [List.map_cons, loop]
    have hd : dist s { p with z := p.z + c } x y = dist s p x y := rfl
    rw [hd]
    by_cases h0 : dist s p x y = 0
    · simp only [h0, if_true]
    · rw [if_neg h0, if_neg h0]
      have hpos : 0 < 1 / dist s p x y ^ power :=
        one_div_pos.mpr (Real.rpow_pos_of_pos
          (lt_of_le_of_ne (Verif.Idw.dist_nonneg s p x y) (Ne.symm h0)) _)
      have hw : 0 ≤ w := by rcases h with h | h <;> [exact h.le; exact h.2]
      rw [← ih (w + 1 / dist s p x y ^ power) _ (Or.inl (by linarith))]
      congr 1
      ring

theorem idwAt_add (c : ℝ) (ps : List Pt) (t : Target) :
    idwAt (ps.map fun p => { p with z := p.z + c }) t = (idwAt ps t).map (· + c) := by
  unfold idwAt
  by_cases h : ps = []
  · simp [h]
  · rw [if_neg (by simpa using h), if_neg (by simpa using h)]
    have := loop_add 2 0 t.x t.y c ps 0 0 (Or.inr ⟨h, le_rfl⟩)
    simp only [mul_zero, add_zero] at this
    rw [this]
    rfl

theorem idwAt_const (c : ℝ) (ps : List Pt) (t : Target) (hne : ps ≠ []) (h : ∀ p ∈ ps, p.z = c) :
    idwAt ps t = some c := by
  unfold idwAt
  rw [if_neg (by simpa using hne)]
  have := Verif.Idw.loop_bounds 2 0 t.x t.y c c ps hne fun p hp => by
    rw [h p hp]; exact ⟨le_rfl, le_rfl⟩
  rw [le_antisymm this.2 this.1]

theorem pts_congr {g g' : Stn → ℝ → ℝ} {st : List Stn} (h : ∀ s ∈ st, ∀ v, g s v = g' s v) :
    pts g st = pts g' st := by
  unfold pts
  apply List.filterMap_congr
  intro s hs
  cases s.v with
  | none => rfl
  | some v => simp [h s hs v]

theorem pts_add (g : Stn → ℝ → ℝ) (c : ℝ) (st : List Stn) :
    pts (fun s v => g s v + c) st = (pts g st).map fun p => { p with z := p.z + c } := by
  unfold pts
  rw [List.map_filterMap]
  apply List.filterMap_congr
  intro s _
  cases s.v <;> rfl

/-- Interpolation with a trend where all elevations involved are equal is interpolation without. -/
theorem trendInterp_level (f : ℝ → ℝ) (st : List Stn) (t : Target) (h : ∀ s ∈ st, s.z = t.z) :
    trendInterp f st t = idwAt (pts (fun _ v => v) st) t := by
  unfold trendInterp
  have : pts (fun s v => v - f s.z) st = pts (fun s v => (fun _ v => v) s v + -f t.z) st :=
    pts_congr fun s hs v => by rw [h s hs]; ring
  rw [this, pts_add, idwAt_add, Option.map_map]
  cases idwAt (pts (fun _ v => v) st) t with
  | none => rfl
  | some v => simp

/-- At a station (the first one at its position) interpolation with any trend gives its value. -/
theorem trendInterp_station (f : ℝ → ℝ) (pre post : List Stn) (s : Stn) (v : ℝ) (t : Target)
    (hv : s.v = some v) (hx : s.x = t.x) (hy : s.y = t.y) (hz : s.z = t.z)
    (hpre : ∀ q ∈ pre, q.v ≠ none → ¬ (q.x = t.x ∧ q.y = t.y)) :
    trendInterp f (pre ++ s :: post) t = some v := by
  unfold trendInterp
  have e : pts (fun s v => v - f s.z) (pre ++ s :: post) =
      pts (fun s v => v - f s.z) pre ++ ⟨s.x, s.y, v - f s.z⟩ :: pts (fun s v => v - f s.z) post := by
    unfold pts
    rw [List.filterMap_append, List.filterMap_cons]
    simp [hv]
  rw [e]
  unfold idwAt
  rw [if_neg (by simp), Verif.Idw.loop_of_hit]
  · simp [hz]
  · intro q hq h0
    obtain ⟨a, b, -⟩ := (Verif.Idw.dist_eq_zero ..).mp h0
    unfold pts at hq
    rw [List.mem_filterMap] at hq
    obtain ⟨q', h1, h2⟩ := hq
    rw [Option.map_eq_some_iff] at h2
    obtain ⟨w, h3, rfl⟩ := h2
    exact hpre q' h1 (by rw [h3]; simp) ⟨a, b⟩
  · rw [Verif.Idw.dist_eq_zero]
    exact ⟨hx, hy, rfl⟩

/-! ## C57 -/

/-- Specification of `np.polyfit(x, y, 1)`: least squares, and among the least squares solutions
minimal norm of the coefficients multiplied with the norms of the columns of the design matrix. -/
def IsPolyfit (ps : List (ℝ × ℝ)) (a b : ℝ) : Prop :=
  let rss (a b : ℝ) := (ps.map fun p => (a * p.1 + b - p.2) ^ 2).sum
  let norm2 (a b : ℝ) := a ^ 2 * (ps.map fun p => p.1 ^ 2).sum + b ^ 2 * ps.length
  ∀ a' b', rss a b ≤ rss a' b' ∧ (rss a b = rss a' b' → norm2 a b ≤ norm2 a' b')

theorem sum_expand (ps : List (ℝ × ℝ)) (a b d e : ℝ) :
    (ps.map fun p => ((a + d) * p.1 + (b + e) - p.2) ^ 2).sum =
      (ps.map fun p => (a * p.1 + b - p.2) ^ 2).sum +
      2 * d * (ps.map fun p => (a * p.1 + b - p.2) * p.1).sum +
      2 * e * (ps.map fun p => a * p.1 + b - p.2).sum +
      (ps.map fun p => (d * p.1 + e) ^ 2).sum := by
  induction ps with
  | nil => simp
  | cons p ps ih =>
    simp only [List.map_cons, List.sum_cons, ih]
    ring

theorem sum_sq_eq_zero (xs : List (ℝ × ℝ)) (f : ℝ × ℝ → ℝ) (h : (xs.map fun p => f p ^ 2).sum = 0) :
    ∀ p ∈ xs, f p = 0 := by
  induction xs with
  | nil => simp
  | cons x xs ih =>
    simp only [List.map_cons, List.sum_cons] at h
    have h2 : 0 ≤ (xs.map fun p => f p ^ 2).sum :=
      List.sum_nonneg fun a ha => by
        obtain ⟨q, -, rfl⟩ := List.mem_map.mp ha
        exact sq_nonneg _
    have h1 := sq_nonneg (f x)
    intro p hp
    rcases List.mem_cons.mp hp with rfl | hp
    · exact sq_eq_zero_iff.mp (by linarith)
    · exact ih (by linarith) p hp

theorem sum_lin (ps : List (ℝ × ℝ)) (a b : ℝ) :
    (ps.map fun p => a * p.1 + b - p.2).sum =
      a * (ps.map Prod.fst).sum + b * ps.length - (ps.map Prod.snd).sum := by
  induction ps with
  | nil => simp
  | cons p ps ih =>
    simp only [List.map_cons, List.sum_cons, ih, List.length_cons]
    push_cast
    ring

theorem sum_dev (ps : List (ℝ × ℝ)) (zm vm a : ℝ) :
    (ps.map fun p => (a * p.1 + (vm - a * zm) - p.2) * (p.1 - zm)).sum =
      a * (ps.map fun p => (p.1 - zm) ^ 2).sum - (ps.map fun p => (p.1 - zm) * (p.2 - vm)).sum := by
  induction ps with
  | nil => simp
  | cons p ps ih =>
    simp only [List.map_cons, List.sum_cons, ih]
    ring

theorem sum_mul_sub (ps : List (ℝ × ℝ)) (f : ℝ × ℝ → ℝ) (c : ℝ) :
    (ps.map fun p => f p * (p.1 - c)).sum =
      (ps.map fun p => f p * p.1).sum - c * (ps.map f).sum := by
  induction ps with
  | nil => simp
  | cons p ps ih =>
    simp only [List.map_cons, List.sum_cons, ih]
    ring

/-- **C57.** The regression slope is what `polyfit` computes (two different elevations). -/
theorem C57_fit (ps : List (ℝ × ℝ)) (p q : ℝ × ℝ) (hp : p ∈ ps) (hq : q ∈ ps) (hpq : p.1 ≠ q.1) :
    ∃ k b, linearFit ps = some k ∧ IsPolyfit ps k b := by
  have hlf : linearFit ps = some (ols ps) := by
    match ps, hp, hq with
    | [], hp, _ => simp at hp
    | [r], hp, hq =>
      simp only [List.mem_singleton] at hp hq
      rw [hp, hq] at hpq
      exact absurd rfl hpq
    | r :: s :: rest, hp, hq =>
      simp only [linearFit]
      rw [if_neg]
      intro hall
      have : ∀ u ∈ r :: s :: rest, u.1 = r.1 := by
        intro u hu
        rcases List.mem_cons.mp hu with rfl | hu
        · rfl
        · exact hall u hu
      exact hpq (by rw [this p hp, this q hq])
  obtain ⟨zm, hzm⟩ : ∃ zm, mean (ps.map Prod.fst) = zm := ⟨_, rfl⟩
  obtain ⟨vm, hvm⟩ : ∃ vm, mean (ps.map Prod.snd) = vm := ⟨_, rfl⟩
  have hn : (0 : ℝ) < ps.length := by
    have := List.length_pos_of_mem hp
    exact_mod_cast this
  have hS : (ps.map fun p => (p.1 - zm) ^ 2).sum ≠ 0 := by
    intro h0
    have := sum_sq_eq_zero ps (fun p => p.1 - zm) h0
    exact hpq (by linarith [this p hp, this q hq])
  have hk : ols ps * (ps.map fun p => (p.1 - zm) ^ 2).sum =
      (ps.map fun p => (p.1 - zm) * (p.2 - vm)).sum := by
    simp only [ols, hzm, hvm]
    field_simp
  refine ⟨ols ps, vm - ols ps * zm, hlf, ?_⟩
  obtain ⟨k, hk'⟩ : ∃ k, ols ps = k := ⟨_, rfl⟩
  rw [hk'] at hk ⊢
  have hr0 : (ps.map fun p => k * p.1 + (vm - k * zm) - p.2).sum = 0 := by
    rw [sum_lin]
    have e1 : (ps.map Prod.fst).sum = zm * ps.length := by
      rw [← hzm]; simp only [mean, List.length_map]; field_simp
    have e2 : (ps.map Prod.snd).sum = vm * ps.length := by
      rw [← hvm]; simp only [mean, List.length_map]; field_simp
    rw [e1, e2]; ring
  have hr1 : (ps.map fun p => (k * p.1 + (vm - k * zm) - p.2) * p.1).sum = 0 := by
    have h1 := sum_dev ps zm vm k
    rw [hk, sub_self, sum_mul_sub, hr0] at h1
    linarith
  intro a' b'
  have hex := sum_expand ps k (vm - k * zm) (a' - k) (b' - (vm - k * zm))
  rw [hr0, hr1] at hex
  simp only [add_sub_cancel, mul_zero, add_zero] at hex
  have hnn : 0 ≤ (ps.map fun p => ((a' - k) * p.1 + (b' - (vm - k * zm))) ^ 2).sum :=
    List.sum_nonneg fun a ha => by
      obtain ⟨q, -, rfl⟩ := List.mem_map.mp ha
      exact sq_nonneg _
  refine ⟨by linarith, ?_⟩
  intro heq
  have hz : (ps.map fun p => ((a' - k) * p.1 + (b' - (vm - k * zm))) ^ 2).sum = 0 := by linarith
  have hall := sum_sq_eq_zero ps (fun p => (a' - k) * p.1 + (b' - (vm - k * zm))) hz
  have h1 := hall p hp
  have h2 := hall q hq
  have h3 : (a' - k) * (p.1 - q.1) = 0 := by linarith
  have ha : a' = k := by
    rcases mul_eq_zero.mp h3 with h | h
    · linarith
    · exact absurd (by linarith) hpq
  have hb : b' = vm - k * zm := by rw [ha] at h1; linarith
  rw [ha, hb]

/-- **C57.** If all stations are at the same elevation `c ≠ 0`, `polyfit` — and so the regression
method — has the slope `mean / (2 c)`, not 0. -/
theorem C57_fit_flat (ps : List (ℝ × ℝ)) (c : ℝ) (hc : c ≠ 0) (hlen : 2 ≤ ps.length)
    (h : ∀ p ∈ ps, p.1 = c) :
    linearFit ps = some (mean (ps.map Prod.snd) / (2 * c)) ∧
    IsPolyfit ps (mean (ps.map Prod.snd) / (2 * c)) (mean (ps.map Prod.snd) / 2) := by
  constructor
  · match ps, hlen with
    | p :: q :: rest, _ =>
      have hp := h p (by simp)
      simp only [linearFit]
      rw [if_pos, if_neg (by rw [hp]; exact hc), hp]
      intro r hr
      rw [h r (by simp [List.mem_cons.mp hr]), hp]
  · obtain ⟨m, hm⟩ : ∃ m, mean (ps.map Prod.snd) = m := ⟨_, rfl⟩
    have hn : (0 : ℝ) < ps.length := by
      have : 0 < ps.length := by omega
      exact_mod_cast this
    rw [hm]
    have e1 : ∀ a b : ℝ, (ps.map fun p => (a * p.1 + b - p.2) ^ 2).sum =
        (ps.map fun p => (0 * p.1 + m - p.2) ^ 2).sum + ps.length * (a * c + b - m) ^ 2 := by
      intro a b
      have hs : (ps.map fun p => 0 * p.1 + m - p.2).sum = 0 := by
        rw [sum_lin, ← hm]
        simp only [mean, List.length_map]
        field_simp
        ring
      have hsz : (ps.map fun p => (0 * p.1 + m - p.2) * p.1).sum =
          c * (ps.map fun p => 0 * p.1 + m - p.2).sum := by
        clear hm hs hn hlen
        induction ps with
        | nil => simp
        | cons p ps ih =>
          simp only [List.map_cons, List.sum_cons]
          rw [ih fun q hq => h q (by simp [hq]), h p (by simp)]
          ring
      have hl : (ps.map fun p => ((a - 0) * p.1 + (b - m)) ^ 2).sum =
          ps.length * (a * c + b - m) ^ 2 := by
        clear hm hs hsz hn hlen
        induction ps with
        | nil => simp
        | cons p ps ih =>
          simp only [List.map_cons, List.sum_cons, List.length_cons]
          rw [ih fun q hq => h q (by simp [hq]), h p (by simp)]
          push_cast
          ring
      have := sum_expand ps 0 m (a - 0) (b - m)
      rw [hsz, hs, hl] at this
      simp only [add_sub_cancel, mul_zero, add_zero] at this
      rw [← this]
    have e2 : (ps.map fun p => p.1 ^ 2).sum = ps.length * c ^ 2 := by
      clear hm hn hlen e1
      induction ps with
      | nil => simp
      | cons p ps ih =>
        simp only [List.map_cons, List.sum_cons, List.length_cons]
        rw [ih fun q hq => h q (by simp [hq]), h p (by simp)]
        push_cast
        ring
    have e3 : m / (2 * c) * c + m / 2 - m = 0 := by field_simp; ring
    intro a' b'
    simp only
    rw [e1 (m / (2 * c)), e1 a', e3, e2]
    refine ⟨by nlinarith [sq_nonneg (a' * c + b' - m)], ?_⟩
    intro heq
    have h0 : (a' * c + b' - m) ^ 2 = 0 := by
      have : (ps.length : ℝ) * (a' * c + b' - m) ^ 2 = 0 := by linarith
      rcases mul_eq_zero.mp this with h | h
      · exact absurd h hn.ne'
      · exact h
    have h1 : b' = m - a' * c := by
      have := sq_eq_zero_iff.mp h0; linarith
    have h2 : (m / (2 * c)) ^ 2 * (ps.length * c ^ 2) + (m / 2) ^ 2 * ps.length =
        ps.length * (m ^ 2 / 2) := by field_simp; ring
    rw [h2, h1]
    have : m ^ 2 / 2 ≤ (a' * c) ^ 2 + (m - a' * c) ^ 2 := by nlinarith [sq_nonneg (2 * (a' * c) - m)]
    nlinarith

/-- What is computed from the detrended data for a station that is a target, for the trend methods. -/
def Reproducing (tr : Trend) (st : List Stn) : Prop :=
  match tr with
  | .fixed => True
  | .fractional => True
  | .regression => (∀ s ∈ st, s.v ≠ none) ∧ linearFit (pairs st) ≠ none
  | .piecewise fit => fit (pairs st) ≠ none
  | .adjustment => (1 : ℝ) = 1

theorem trended_station (tr : Trend) (lapse : ℝ) (pre post : List Stn) (s : Stn) (v : ℝ) (t : Target)
    (htr : tr ≠ .adjustment) (hr : Reproducing tr (pre ++ s :: post))
    (hv : s.v = some v) (hx : s.x = t.x) (hy : s.y = t.y) (hz : s.z = t.z)
    (hpre : ∀ q ∈ pre, q.v ≠ none → ¬ (q.x = t.x ∧ q.y = t.y)) :
    trended tr lapse (pre ++ s :: post) t = some (some v) := by
  cases tr with
  | fixed => simp only [trended]; rw [trendInterp_station _ pre post s v t hv hx hy hz hpre]
  | fractional =>
    simp only [trended]
    rw [trendInterp_station _ pre post s v t hv hx hy hz hpre, if_neg]
    intro h
    have : v ∈ vals (pre ++ s :: post) := by
      unfold vals
      rw [List.mem_filterMap]
      exact ⟨s, by simp, hv⟩
    rw [h] at this
    simp at this
  | regression =>
    obtain ⟨h1, h2⟩ := hr
    simp only [trended]
    rw [if_neg (by push Not; exact h1)]
    cases hl : linearFit (pairs (pre ++ s :: post)) with
    | none => exact absurd hl h2
    | some k =>
      simp only [Option.map_some]
      rw [trendInterp_station _ pre post s v t hv hx hy hz hpre]
  | piecewise fit =>
    simp only [trended]
    cases hf : fit (pairs (pre ++ s :: post)) with
    | none => exact absurd hf hr
    | some f =>
      simp only [Option.bind_some]
      rw [trendInterp_station _ pre post s v t hv hx hy hz hpre]
  | adjustment => exact absurd rfl htr

/-- **C57.** At a target that coincides with a station in position and elevation, every trend method
except the adjustment factor gives the measurement (if it is physical). -/
theorem C57_station (p : Param) (hp : p ≠ .relHum) (tr : Trend) (htr : tr ≠ .adjustment) (lapse : ℝ)
    (e : Bool) (pre post : List Stn) (s : Stn) (v : ℝ) (t : Target) (hv : s.v = some v)
    (hphys : Physical p v) (hr : Reproducing tr (pre ++ s :: post))
    (hx : s.x = t.x) (hy : s.y = t.y) (hz : s.z = t.z)
    (hpre : ∀ q ∈ pre, q.v ≠ none → ¬ (q.x = t.x ∧ q.y = t.y)) :
    interpolate p tr lapse e (pre ++ s :: post) t = some (some v) := by
  have hmem : v ∈ vals (pre ++ s :: post) := by
    unfold vals
    rw [List.mem_filterMap]
    exact ⟨s, by simp, hv⟩
  have hclip : clipData e (vals (pre ++ s :: post)) v = v := by
    cases e with
    | true => rfl
    | false =>
      simp only [clipData, Bool.false_eq_true, if_false]
      cases h1 : (vals (pre ++ s :: post)).min? with
      | none => rfl
      | some lo =>
        cases h2 : (vals (pre ++ s :: post)).max? with
        | none => rfl
        | some hi =>
          exact clip_of_mem ((List.min?_eq_some_iff.mp h1).2 v hmem)
            ((List.max?_eq_some_iff.mp h2).2 v hmem)
  simp only [interpolate]
  rw [if_neg (by simp), if_neg hp, trended_station tr lapse pre post s v t htr hr hv hx hy hz hpre]
  simp only [Option.map_some]
  rw [if_neg hp]
  simp only [Option.map_some]
  rw [hclip, clipAllowed_of_physical hphys]

/-- **C57.** The same for relative humidity at the temperature of the station, for measurements in
(0, 100] and extrapolation enabled. -/
theorem C57_station_humidity (tr : Trend) (htr : tr ≠ .adjustment) (lapse : ℝ)
    (pre post : List Stn) (s : Stn) (rh : ℝ) (t : Target) (hv : s.v = some rh)
    (h0 : 0 < rh) (h1 : rh ≤ 100) (hT : Atmosphere.T0 - 23418 / 100 < t.temp)
    (hr : Reproducing tr (toDew (pre ++ s :: post)))
    (hx : s.x = t.x) (hy : s.y = t.y) (hz : s.z = t.z) (ht : s.temp = t.temp)
    (hpre : ∀ q ∈ pre, ¬ (q.x = t.x ∧ q.y = t.y)) :
    interpolate .relHum tr lapse true (pre ++ s :: post) t = some (some rh) := by
  obtain ⟨td, e1, e2, -⟩ := Atmosphere.C60_dew_point t.temp rh hT h0 h1
  have e : toDew (pre ++ s :: post) =
      toDew pre ++ { s with v := some td } :: toDew post := by
    simp only [toDew, List.map_append, List.map_cons, hv, Option.bind_some, ht, e1]
  simp only [interpolate]
  rw [if_neg (by simp), if_pos trivial]
  rw [e] at hr ⊢
  rw [trended_station tr lapse (toDew pre) (toDew post) { s with v := some td } td t htr hr rfl hx hy hz ?_]
  · simp only [Option.map_some, if_true, Option.bind_some, e2, clipData]
    rw [clipAllowed_of_physical (p := .relHum) ⟨h0.le, h1⟩]
  · intro q hq _
    unfold toDew at hq
    obtain ⟨q', hq', rfl⟩ := List.mem_map.mp hq
    exact hpre q' hq'

/-- Shift of the elevation of a station. -/
def Stn.lift (c : ℝ) (s : Stn) : Stn := { s with z := s.z + c }

theorem vals_lift (c : ℝ) (st : List Stn) : vals (st.map (Stn.lift c)) = vals st := by
  unfold vals
  rw [List.filterMap_map]
  rfl

theorem pairs_lift (c : ℝ) (st : List Stn) :
    pairs (st.map (Stn.lift c)) = (pairs st).map fun p => (p.1 + c, p.2) := by
  unfold pairs
  rw [List.filterMap_map, List.map_filterMap]
  apply List.filterMap_congr
  intro s _
  simp only [Function.comp_apply, Stn.lift]
  cases s.v <;> rfl

theorem trendInterp_lift (k c : ℝ) (st : List Stn) (t : Target) :
    trendInterp (fun z => k * z) (st.map (Stn.lift c)) { t with z := t.z + c } =
      trendInterp (fun z => k * z) st t := by
  unfold trendInterp
  have : pts (fun s v => v - k * s.z) (st.map (Stn.lift c)) =
      (pts (fun s v => v - k * s.z) st).map fun p => { p with z := p.z + -(k * c) } := by
    rw [← pts_add]
    unfold pts
    rw [List.filterMap_map]
    apply List.filterMap_congr
    intro s _
    simp only [Function.comp_apply, Stn.lift]
    cases s.v with
    | none => rfl
    | some v =>
      simp only [Option.map_some, Option.some.injEq, Pt.mk.injEq, true_and]
      ring
  rw [this]
  have e : idwAt ((pts (fun s v => v - k * s.z) st).map fun p => { p with z := p.z + -(k * c) })
      { t with z := t.z + c } =
      idwAt ((pts (fun s v => v - k * s.z) st).map fun p => { p with z := p.z + -(k * c) }) t := rfl
  rw [e, idwAt_add, Option.map_map]
  congr 1
  funext v
  simp only [Function.comp_apply]
  ring

theorem mean_lift (xs : List ℝ) (c : ℝ) (hne : xs ≠ []) : mean (xs.map (· + c)) = mean xs + c := by
  have hs : (xs.map (· + c)).sum = xs.sum + c * xs.length := by
    clear hne
    induction xs with
    | nil => simp
    | cons x xs ih =>
      simp only [List.map_cons, List.sum_cons, ih, List.length_cons]
      push_cast
      ring
  have hn : (xs.length : ℝ) ≠ 0 := by
    have := List.length_pos_iff.mpr hne
    exact_mod_cast this.ne'
  simp only [mean, hs, List.length_map]
  field_simp

theorem ols_lift (ps : List (ℝ × ℝ)) (c : ℝ) : ols (ps.map fun p => (p.1 + c, p.2)) = ols ps := by
  by_cases hne : ps = []
  · simp [hne]
  · have e1 : mean ((ps.map fun p => (p.1 + c, p.2)).map Prod.fst) = mean (ps.map Prod.fst) + c := by
      rw [← mean_lift _ _ (by simpa using hne)]
      simp [List.map_map, Function.comp_def]
    have e2 : (ps.map fun p => (p.1 + c, p.2)).map Prod.snd = ps.map Prod.snd := by
      simp [List.map_map, Function.comp_def]
    simp only [ols, e1, e2]
    simp only [List.map_map, Function.comp_def, add_sub_add_right_eq_sub]

/-- **C57.** Shifting all elevations by a constant changes nothing for the fixed and fractional
methods, and for regression with fewer than two stations or two different elevations. -/
theorem C57_shift (p : Param) (hp : p ≠ .relHum) (tr : Trend) (lapse c : ℝ) (e : Bool) (st : List Stn)
    (t : Target)
    (htr : tr = .fixed ∨ tr = .fractional ∨
      (tr = .regression ∧ ((pairs st).length < 2 ∨ ∃ a ∈ pairs st, ∃ b ∈ pairs st, a.1 ≠ b.1))) :
    interpolate p tr lapse e (st.map (Stn.lift c)) { t with z := t.z + c } =
      interpolate p tr lapse e st t := by
  have key : trended tr lapse (st.map (Stn.lift c)) { t with z := t.z + c } = trended tr lapse st t := by
    rcases htr with rfl | rfl | ⟨rfl, hdeg⟩
    · simp only [trended, trendInterp_lift]
    · simp only [trended, trendInterp_lift, vals_lift]
    · simp only [trended]
      have hex : (∃ s ∈ st.map (Stn.lift c), s.v = none) ↔ ∃ s ∈ st, s.v = none := by
        simp [Stn.lift]
      rw [pairs_lift]
      have hfit : linearFit ((pairs st).map fun p => (p.1 + c, p.2)) = linearFit (pairs st) := by
        rcases hdeg with h | ⟨a, ha, b, hb, hab⟩
        · match hps : pairs st, h with
          | [], _ => rfl
          | [_], _ => rfl
          | _ :: _ :: _, h => simp at h
        · match hps : pairs st with
          | [] => rw [hps] at ha; simp at ha
          | [r] =>
            rw [hps] at ha hb
            simp only [List.mem_singleton] at ha hb
            rw [ha, hb] at hab
            exact absurd rfl hab
          | r :: s :: rest =>
            rw [hps] at ha hb
            have hne : ¬ ∀ u ∈ s :: rest, u.1 = r.1 := by
              intro hall
              have : ∀ u ∈ r :: s :: rest, u.1 = r.1 := by
                intro u hu
                rcases List.mem_cons.mp hu with rfl | hu
                · rfl
                · exact hall u hu
              exact hab (by rw [this a ha, this b hb])
            have hne' : ¬ ∀ u ∈ (s.1 + c, s.2) :: rest.map fun p => (p.1 + c, p.2), u.1 = r.1 + c := by
              intro hall
              apply hne
              intro u hu
              have := hall (u.1 + c, u.2) (by
                rw [← List.map_cons (f := fun p : ℝ × ℝ => (p.1 + c, p.2))]
                exact List.mem_map.mpr ⟨u, hu, rfl⟩)
              simpa using this
            simp only [List.map_cons, linearFit]
            rw [if_neg hne, if_neg hne']
            congr 1
            exact ols_lift (r :: s :: rest) c
      rw [hfit]
      simp only [trendInterp_lift, hex]
  simp only [interpolate, if_neg hp, vals_lift, List.length_map, key]

/-- **C57.** If no station differs in elevation from the target, the trend has no influence: all
methods for which a trend can be fitted agree with plain interpolation. -/
theorem C57_level (tr : Trend) (lapse : ℝ) (st : List Stn) (t : Target) (h : ∀ s ∈ st, s.z = t.z)
    (hr : Reproducing tr st) :
    trended tr lapse st t = some (idwAt (pts (fun _ v => v) st) t) := by
  cases tr with
  | fixed => simp only [trended, trendInterp_level _ st t h]
  | fractional =>
    simp only [trended, trendInterp_level _ st t h]
    by_cases hv : vals st = []
    · rw [if_pos hv]
      have : pts (fun _ v => v) st = [] := by
        unfold pts
        rw [List.filterMap_eq_nil_iff]
        intro s hs
        unfold vals at hv
        rw [List.filterMap_eq_nil_iff] at hv
        rw [hv s hs]
        rfl
      rw [this]
      rfl
    · rw [if_neg hv]
  | regression =>
    obtain ⟨h1, h2⟩ := hr
    simp only [trended]
    rw [if_neg (by push Not; exact h1)]
    cases hl : linearFit (pairs st) with
    | none => exact absurd hl h2
    | some k => simp only [Option.map_some, trendInterp_level _ st t h]
  | piecewise fit =>
    simp only [trended]
    cases hf : fit (pairs st) with
    | none => exact absurd hf hr
    | some f => simp only [Option.bind_some, trendInterp_level _ st t h]
  | adjustment =>
    simp only [trended]
    cases hi : idwAt (pts (fun _ v => v) st) t with
    | none => rfl
    | some v =>
      have hne : st ≠ [] := by
        rintro rfl
        simp [pts, idwAt] at hi
      have hz : idwAt (st.map fun s => ⟨s.x, s.y, s.z⟩) t = some t.z := by
        apply idwAt_const
        · simpa using hne
        · intro q hq
          obtain ⟨s, hs, rfl⟩ := List.mem_map.mp hq
          exact h s hs
      simp [hz, factor]

/-- **C57 (false of the regression method for stations at one elevation).** Two or more stations at
the same elevation `c ≠ 0` all measuring `v`: the interpolated field is not `v` but changes by
`v / (2 c)` per metre of elevation (e.g. 0.14 K/m for 280 K at 1000 m). -/
theorem C57_regression_flat_false (st : List Stn) (t : Target) (c v lapse : ℝ) (hc : c ≠ 0)
    (hlen : 2 ≤ st.length) (hz : ∀ s ∈ st, s.z = c) (hv : ∀ s ∈ st, s.v = some v) :
    trended .regression lapse st t = some (some (v + v / (2 * c) * (t.z - c))) := by
  have hpairs : pairs st = st.map fun _ => (c, v) := by
    unfold pairs
    rw [List.filterMap_eq_map_iff_forall_eq_some.mpr]
    intro s hs
    rw [hv s hs, hz s hs]
    rfl
  have hne : st ≠ [] := by rintro rfl; simp at hlen
  have hmean : mean ((pairs st).map Prod.snd) = v := by
    rw [hpairs, List.map_map]
    have hs : (st.map (Prod.snd ∘ fun _ => (c, v))).sum = st.length * v := by
      simp [Function.comp_def]
    have hn : (st.length : ℝ) ≠ 0 := by
      have : st.length ≠ 0 := by omega
      exact_mod_cast this
    simp only [mean, hs, List.length_map]
    field_simp
  have hfit := (C57_fit_flat (pairs st) c hc (by rw [hpairs]; simpa using hlen) (by
    rw [hpairs]; intro p hp; obtain ⟨_, _, rfl⟩ := List.mem_map.mp hp; rfl)).1
  rw [hmean] at hfit
  simp only [trended]
  rw [if_neg (by push Not; intro s hs; rw [hv s hs]; simp), hfit]
  simp only [Option.map_some, Option.some.injEq]
  unfold trendInterp
  rw [idwAt_const (v - v / (2 * c) * c)]
  · simp only [Option.map_some, Option.some.injEq]; ring
  · intro h0
    unfold pts at h0
    rw [List.filterMap_eq_nil_iff] at h0
    obtain ⟨s, hs⟩ := List.exists_mem_of_ne_nil st hne
    have := h0 s hs
    rw [hv s hs] at this
    simp at this
  · intro p hp
    unfold pts at hp
    rw [List.mem_filterMap] at hp
    obtain ⟨s, hs, h2⟩ := hp
    rw [hv s hs] at h2
    simp only [Option.map_some, Option.some.injEq] at h2
    rw [← h2, hz s hs]

/-- Two stations at 1000 m with 280 K: a target at 1500 m gets 350 K. -/
example : trended .regression 0 [⟨0, 0, 1000, some 280, 0⟩, ⟨100, 0, 1000, some 280, 0⟩]
    ⟨50, 50, 1500, 0⟩ = some (some 350) := by
  rw [C57_regression_flat_false _ _ 1000 280 0 (by norm_num) (by simp) (by simp) (by simp)]
  norm_num

/-! ## C58 -/

/-- **C58 (false of the code).** With extrapolation disabled, the humidity is 100 % at every target,
whatever the measurements, if all station dew points are at least 100 K. -/
theorem C58_false (tr : Trend) (lapse : ℝ) (st : List Stn) (t : Target) (r lo hi : ℝ)
    (hlo : lo ∈ vals (toDew st)) (hhi : hi ∈ vals (toDew st)) (hmin : ∀ v ∈ vals (toDew st), lo ≤ v)
    (hmax : ∀ v ∈ vals (toDew st), v ≤ hi) (h100 : 100 ≤ lo)
    (h : interpolate .relHum tr lapse false st t = some (some r)) : r = 100 := by
  have hne : st ≠ [] := by
    rintro rfl
    simp [vals, toDew] at hlo
  obtain ⟨x, rfl⟩ := interpolate_some hne h
  rw [if_pos rfl, clipData_mem _ lo hi x hlo hhi hmin hmax]
  have hm := clip_mem lo hi x (hmin hi hhi)
  simp only [clipAllowed, Param.allowed, clip]
  rw [max_eq_right (by unfold clip at hm; linarith [hm.1]), min_eq_left (by unfold clip at hm; linarith [hm.1])]

/-- **C58 (what holds).** With extrapolation enabled the humidity is within [0, 100] and for a single
station at the target temperature it is the station value wherever the target is, if the dew point
lapse rate is 0. -/
theorem C58_partial (s : Stn) (t : Target) (rh : ℝ) (hv : s.v = some rh) (h0 : 0 < rh) (h1 : rh ≤ 100)
    (hT : Atmosphere.T0 - 23418 / 100 < t.temp) (ht : s.temp = t.temp) :
    interpolate .relHum .regression 0 true [s] t = some (some rh) ∧
    interpolate .relHum .fixed 0 true [s] t = some (some rh) := by
  obtain ⟨td, e1, e2, -⟩ := Atmosphere.C60_dew_point t.temp rh hT h0 h1
  have e : toDew [s] = [{ s with v := some td }] := by
    simp only [toDew, List.map_cons, List.map_nil, hv, Option.bind_some, ht, e1]
  have hidw : ∀ z : ℝ, idwAt [⟨s.x, s.y, z⟩] t = some z := by
    intro z
    apply idwAt_const _ _ _ (by simp)
    intro p hp
    simp only [List.mem_singleton] at hp
    rw [hp]
  constructor
  · simp only [interpolate]
    rw [if_neg (by simp), if_pos trivial, e]
    simp only [trended]
    rw [if_neg (by simp)]
    simp only [pairs, List.filterMap_cons, Option.map_some, List.filterMap_nil, linearFit, trendInterp, pts,
      hidw, if_true, Option.bind_some, clipData]
    simp only [zero_mul, sub_zero, add_zero, e2, Option.map_some]
    rw [clipAllowed_of_physical (p := .relHum) ⟨h0.le, h1⟩]
  · simp only [interpolate]
    rw [if_neg (by simp), if_pos trivial, e]
    simp only [trended, List.filterMap_cons, Option.map_some, List.filterMap_nil, trendInterp, pts,
      hidw, if_true, Option.bind_some, clipData]
    simp only [zero_mul, sub_zero, add_zero, e2, Option.map_some]
    rw [clipAllowed_of_physical (p := .relHum) ⟨h0.le, h1⟩]

/-! ## C59 -/

/-- **C59.** The factors for elevation differences `d` and `-d` are reciprocal wherever both are
defined; the factor is 1 for `d = 0`. -/
theorem C59_reciprocal (k d a b : ℝ) (ha : factor k d = some a) (hb : factor k (-d) = some b) :
    a * b = 1 ∧ factor k 0 = some 1 := by
  simp only [factor] at ha hb ⊢
  split_ifs at ha with h1
  split_ifs at hb with h2
  simp only [Option.some.injEq] at ha hb
  have h2' : 1 + k * d ≠ 0 := by
    intro h; apply h2; linarith
  constructor
  · rw [← ha, ← hb, show 1 + k * -d = 1 - k * d by ring, show 1 - k * -d = 1 + k * d by ring]
    field_simp
  · norm_num

/-- **C59.** While `|k d| < 1` the factor is defined, positive and, for a positive lapse rate, strictly
increasing in the elevation difference. -/
theorem C59_positive (k d : ℝ) (h : |k * d| < 1) : ∃ a, factor k d = some a ∧ 0 < a := by
  obtain ⟨h1, h2⟩ := abs_lt.mp h
  refine ⟨_, if_neg (by linarith), ?_⟩
  apply div_pos <;> linarith

/-- **C59.** -/
theorem C59_increasing (k d d' a b : ℝ) (hk : 0 < k) (hdd : d < d') (h : |k * d| < 1)
    (h' : |k * d'| < 1) (ha : factor k d = some a) (hb : factor k d' = some b) : a < b := by
  obtain ⟨h1, h2⟩ := abs_lt.mp h
  obtain ⟨h3, h4⟩ := abs_lt.mp h'
  simp only [factor] at ha hb
  rw [if_neg (by linarith)] at ha hb
  simp only [Option.some.injEq] at ha hb
  rw [← ha, ← hb, div_lt_div_iff₀ (by linarith) (by linarith)]
  nlinarith [mul_lt_mul_of_pos_left hdd hk]

/-- **C59.** Outside that range the factor is undefined or not positive. -/
theorem C59_outside (k d a : ℝ) (h : 1 ≤ |k * d|) (ha : factor k d = some a) : a ≤ 0 := by
  simp only [factor] at ha
  split_ifs at ha with h0
  simp only [Option.some.injEq] at ha
  rw [← ha]
  rcases le_abs.mp h with h1 | h1
  · apply div_nonpos_of_nonneg_of_nonpos <;> linarith
  · apply div_nonpos_of_nonpos_of_nonneg <;> linarith

/-- **C59.** Precipitation with the adjustment factor: at the interpolated station elevation the plain
interpolation; where the factor is not positive, 0. -/
theorem C59_precip (k : ℝ) (e : Bool) (st : List Stn) (t : Target) (v z : ℝ) (hne : st ≠ [])
    (he : e = true) (hv : idwAt (pts (fun _ v => v) st) t = some v)
    (hz : idwAt (st.map fun s => ⟨s.x, s.y, s.z⟩) t = some z) (hv0 : 0 ≤ v) :
    (t.z = z → interpolate .precip .adjustment k e st t = some (some v)) ∧
    (1 ≤ |k * (t.z - z)| → 1 - k * (t.z - z) ≠ 0 →
      interpolate .precip .adjustment k e st t = some (some 0)) := by
  have hi : interpolate .precip .adjustment k e st t =
      some ((factor k (t.z - z)).map fun a => max 0 (v * a)) := by
    simp only [interpolate]
    rw [if_neg (by simpa using hne), if_neg (by decide)]
    simp only [trended, hv, hz, Option.bind_some, Option.map_some]
    rw [if_neg (by decide), Option.map_map]
    congr 2
    funext a
    simp [clipData, he, clipAllowed, Param.allowed]
  rw [hi]
  constructor
  · intro h
    rw [h, sub_self]
    simp [factor, hv0]
  · intro h h0
    obtain ⟨a, ha⟩ : ∃ a, factor k (t.z - z) = some a := ⟨_, if_neg h0⟩
    have := C59_outside k _ a h ha
    rw [ha]
    simp only [Option.map_some, Option.some.injEq]
    exact max_eq_left (mul_nonpos_of_nonneg_of_nonpos hv0 this)

example : factor (1 / 4) 2 = some 3 := by
  norm_num [factor]

/-! ## C65 -/

/-- **C65.** The corrected wind: present at every cell if the slopes in wind direction differ
somewhere; the speed changes by at most half of the sum of the weights (50 % for weights adding up
to 1), the direction by at most a quarter of a degree. -/
theorem C65_liston (sw cw : ℝ) (hsw : 0 ≤ sw) (hcw : 0 ≤ cw) (cells : List Cell)
    (hcurv : ∀ c ∈ cells, |c.curv| ≤ 1 / 2) (hspeed : ∀ c ∈ cells, 0 ≤ c.speed) (a b : Cell)
    (ha : a ∈ cells) (hb : b ∈ cells) (hab : windSlope a ≠ windSlope b) :
    (liston sw cw cells).length = cells.length ∧
    ∀ (i : ℕ) (c : Cell), cells[i]? = some c → ∃ speed dir, (liston sw cw cells)[i]? = some (some (speed, dir)) ∧
      max (1 / 10) (c.speed * (1 - (sw + cw) / 2)) ≤ speed ∧
      speed ≤ max (1 / 10) (c.speed * (1 + (sw + cw) / 2)) ∧
      0 ≤ dir ∧ dir < 360 ∧ ∃ n : ℤ, |dir - (c.dir + 360 * n)| ≤ 1 / 4 := by
  obtain ⟨data, hdata⟩ : ∃ data, (cells.map fun c => some (windSlope c)) = data := ⟨_, rfl⟩
  have hmemd : ∀ c ∈ cells, some (windSlope c) ∈ data := fun c hc => by
    rw [← hdata]; exact List.mem_map.mpr ⟨c, hc, rfl⟩
  have hv : ∀ x, x ∈ data.filterMap id ↔ some x ∈ data := by intro x; simp
  -- minimum and maximum of the slopes
  have hnil : data.filterMap id ≠ [] := by
    intro h
    have := (hv _).mpr (hmemd a ha)
    rw [h] at this
    simp at this
  obtain ⟨lo, hlo⟩ : ∃ lo, (data.filterMap id).min? = some lo := by
    cases h : (data.filterMap id).min? with
    | none => exact absurd (List.min?_eq_none_iff.mp h) hnil
    | some lo => exact ⟨lo, rfl⟩
  obtain ⟨hi, hhi⟩ : ∃ hi, (data.filterMap id).max? = some hi := by
    cases h : (data.filterMap id).max? with
    | none => exact absurd (List.max?_eq_none_iff.mp h) hnil
    | some hi => exact ⟨hi, rfl⟩
  obtain ⟨lo1, lo2⟩ := List.min?_eq_some_iff.mp hlo
  obtain ⟨hi1, hi2⟩ := List.max?_eq_some_iff.mp hhi
  have hne : lo ≠ hi := by
    intro h
    have e : ∀ x, some x ∈ data → x = lo := fun x hx =>
      le_antisymm (by rw [h]; exact hi2 x ((hv x).mpr hx)) (lo2 x ((hv x).mpr hx))
    exact hab (by rw [e _ (hmemd a ha), e _ (hmemd b hb)])
  obtain ⟨ss, hs1, hs2, hs3⟩ := Verif.Config.C55_normalize data (-(1 / 2)) (1 / 2) lo hi
    ((hv _).mp lo1) ((hv _).mp hi1) (fun x hx => lo2 x ((hv x).mpr hx))
    (fun x hx => hi2 x ((hv x).mpr hx)) hne
  have hlen : ss.length = cells.length := by rw [hs2, ← hdata, List.length_map]
  simp only [liston, hdata, hs1]
  refine ⟨by simp [hlen], ?_⟩
  intro i c hc
  have hcm := List.mem_of_getElem? hc
  have hdi : data[i]? = some (some (windSlope c)) := by
    rw [← hdata, List.getElem?_map, hc]; rfl
  obtain ⟨s, e1, -, -, -, e2⟩ := (hs3 i).2 _ hdi
  obtain ⟨e3, e4⟩ := e2 (by norm_num)
  obtain ⟨c1, c2⟩ := abs_le.mp (hcurv c hcm)
  have hsp := hspeed c hcm
  refine ⟨max (1 / 10) (correctCell sw cw s c).1, (correctCell sw cw s c).2, ?_, ?_, ?_, ?_, ?_⟩
  · rw [List.getElem?_zipWith, hc, e1]; rfl
  · apply max_le_max_left
    simp only [correctCell]
    apply mul_le_mul_of_nonneg_left _ hsp
    nlinarith
  · apply max_le_max_left
    simp only [correctCell]
    apply mul_le_mul_of_nonneg_left _ hsp
    nlinarith
  · exact (Atmosphere.fmod_mem _ _ (by norm_num)).1
  · refine ⟨(Atmosphere.fmod_mem _ _ (by norm_num)).2, ?_⟩
    simp only [correctCell]
    obtain ⟨si, hsi⟩ : ∃ si, Real.sin (-2 * rad (c.dir - c.aspect)) = si := ⟨_, rfl⟩
    have hb1 : -1 ≤ si := by rw [← hsi]; exact Real.neg_one_le_sin _
    have hb2 : si ≤ 1 := by rw [← hsi]; exact Real.sin_le_one _
    rw [hsi]
    refine ⟨-⌊(c.dir + -(1 / 2) * s * si) / 360⌋, ?_⟩
    unfold fmod
    push_cast
    rw [show c.dir + -(1 / 2) * s * si - 360 * (⌊(c.dir + -(1 / 2) * s * si) / 360⌋ : ℝ) -
      (c.dir + 360 * -(⌊(c.dir + -(1 / 2) * s * si) / 360⌋ : ℝ)) = -(1 / 2) * s * si by ring]
    rw [abs_le]
    constructor <;> nlinarith

/-- **C65 (false on uniform terrain).** If the slope in wind direction is the same everywhere — e.g. on
a plane — wind speed and direction are missing at every cell. -/
theorem C65_uniform_false (sw cw : ℝ) (cells : List Cell)
    (h : ∀ a ∈ cells, ∀ b ∈ cells, windSlope a = windSlope b) :
    liston sw cw cells = cells.map fun _ => none := by
  have : Verif.Config.normalize (cells.map fun c => some (windSlope c)) (-(1 / 2)) (1 / 2) = none := by
    apply Verif.Config.C55_constant_false
    intro x y hx hy
    obtain ⟨a, ha, ha'⟩ := List.mem_map.mp hx
    obtain ⟨b, hb, hb'⟩ := List.mem_map.mp hy
    simp only [Option.some.injEq] at ha' hb'
    rw [← ha', ← hb']
    exact h a ha b hb
  simp only [liston, this]

/-- Two cells with different slopes. -/
example : windSlope ⟨5, 0, 30, 0, 0⟩ ≠ windSlope ⟨5, 0, 0, 0, 0⟩ := by
  have := Real.pi_pos
  simp [windSlope, rad]

end Verif.MeteoInterp
