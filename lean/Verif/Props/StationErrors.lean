import Verif.Props.MeteoInterp

/-!
# C159: errors of a station do not grow in the fields
-/

namespace Verif.StationErrors

open Verif.MeteoInterp
open Verif.Idw (Pt loop)
open Verif.Atmosphere (clip dewPoint rhFromDew dewOfRatio_spec svpOver_some magnus_lt T0 Over)

/-! ## Specification -/

/-- Specification: the same stations, the second set of measurements satisfies `R` value by value. -/
def SameStations (R : ℝ → ℝ → Prop) (s s' : Stn) : Prop :=
  s'.x = s.x ∧ s'.y = s.y ∧ s'.z = s.z ∧
    ((s.v = none ∧ s'.v = none) ∨ ∃ v v', s.v = some v ∧ s'.v = some v' ∧ R v v')

/-- Specification: results of two interpolations, both missing or in relation `R`. -/
def Both (R : ℝ → ℝ → Prop) (r r' : Option (Option ℝ)) : Prop :=
  (r = some none ∧ r' = some none) ∨ ∃ x x', r = some (some x) ∧ r' = some (some x') ∧ R x x'

/-! ## Helper lemmas -/

/-- Same position, larger value. -/
def PtLe (p p' : Pt) : Prop := p'.x = p.x ∧ p'.y = p.y ∧ p.z ≤ p'.z

theorem loop_mono (power s x y : ℝ) {ps ps' : List Pt} (h : List.Forall₂ PtLe ps ps') (w t t' : ℝ)
    (hw : 0 ≤ w) (ht : t ≤ t') : loop power s x y ps w t ≤ loop power s x y ps' w t' := by
  induction h generalizing w t t' with
  | nil => exact div_le_div_of_nonneg_right ht hw
  | @cons p p' _ _ a _ ih =>
    obtain ⟨a1, a2, a3⟩ := a
    have e : Idw.dist s p' x y = Idw.dist s p x y := by unfold Idw.dist; rw [a1, a2]
    simp only [loop, e]
    split_ifs with hd
    · exact a3
    · have hp : 0 < Idw.dist s p x y ^ power :=
        Real.rpow_pos_of_pos (lt_of_le_of_ne (Real.sqrt_nonneg _) (Ne.symm hd)) _
      refine ih _ _ _ (add_nonneg hw (by positivity)) ?_
      exact add_le_add ht (div_le_div_of_nonneg_right a3 hp.le)

theorem idwAt_mono {ps ps' : List Pt} (h : List.Forall₂ PtLe ps ps') (t : Target) :
    (idwAt ps t = none ∧ idwAt ps' t = none) ∨
      ∃ x x', idwAt ps t = some x ∧ idwAt ps' t = some x' ∧ x ≤ x' := by
  unfold idwAt
  rw [← h.length_eq]
  split_ifs
  · exact Or.inl ⟨rfl, rfl⟩
  · exact Or.inr ⟨_, _, rfl, rfl, loop_mono 2 0 t.x t.y h 0 0 0 le_rfl le_rfl⟩

theorem pts_mono {st st' : List Stn} (h : List.Forall₂ (SameStations (· ≤ ·)) st st') (f : ℝ → ℝ) :
    List.Forall₂ PtLe (pts (fun s v => v - f s.z) st) (pts (fun s v => v - f s.z) st') := by
  induction h with
  | nil => exact .nil
  | @cons s s' _ _ a _ ih =>
    obtain ⟨a1, a2, a3, ⟨b, b'⟩ | ⟨v, v', b, b', c⟩⟩ := a
    · simpa [pts, b, b'] using ih
    · simp only [pts, List.filterMap_cons, b, b', Option.map_some]
      exact .cons ⟨a1, a2, by rw [a3]; simp only; linarith⟩ ih

theorem vals_mono {st st' : List Stn} (h : List.Forall₂ (SameStations (· ≤ ·)) st st') :
    List.Forall₂ (· ≤ ·) (vals st) (vals st') := by
  induction h with
  | nil => exact .nil
  | @cons s s' _ _ a _ ih =>
    obtain ⟨-, -, -, ⟨b, b'⟩ | ⟨v, v', b, b', c⟩⟩ := a
    · simpa [vals, b, b'] using ih
    · simp only [vals, List.filterMap_cons, b, b']
      exact .cons c ih

theorem forall₂_left {l l' : List ℝ} (h : List.Forall₂ (· ≤ ·) l l') :
    (∀ b ∈ l', ∃ a ∈ l, a ≤ b) ∧ ∀ a ∈ l, ∃ b ∈ l', a ≤ b := by
  induction h with
  | nil => simp
  | @cons a b _ _ c _ ih =>
    refine ⟨fun y hy => ?_, fun y hy => ?_⟩
    · rcases List.mem_cons.1 hy with rfl | hy
      · exact ⟨a, by simp, c⟩
      · obtain ⟨z, hz, e⟩ := ih.1 y hy
        exact ⟨z, List.mem_cons_of_mem _ hz, e⟩
    · rcases List.mem_cons.1 hy with rfl | hy
      · exact ⟨b, by simp, c⟩
      · obtain ⟨z, hz, e⟩ := ih.2 y hy
        exact ⟨z, List.mem_cons_of_mem _ hz, e⟩

theorem clip_mono {a a' b b' x x' : ℝ} (h1 : a ≤ a') (h2 : b ≤ b') (h3 : x ≤ x') :
    clip a b x ≤ clip a' b' x' := min_le_min h2 (max_le_max h1 h3)

theorem clipData_mono (ex : Bool) {l l' : List ℝ} (h : List.Forall₂ (· ≤ ·) l l') {x x' : ℝ}
    (hx : x ≤ x') : clipData ex l x ≤ clipData ex l' x' := by
  unfold clipData
  cases ex with
  | true => exact hx
  | false =>
    simp only [Bool.false_eq_true, if_false]
    have hlen := h.length_eq
    obtain ⟨f1, f2⟩ := forall₂_left h
    by_cases hl : l = []
    · subst hl
      have : l' = [] := List.length_eq_zero_iff.1 hlen.symm
      subst this
      simpa using hx
    · have hl' : l' ≠ [] := by
        rintro rfl
        exact hl (List.length_eq_zero_iff.1 hlen)
      obtain ⟨lo, e1⟩ := Option.ne_none_iff_exists'.1 fun hc => hl (List.min?_eq_none_iff.1 hc)
      obtain ⟨lo', e1'⟩ := Option.ne_none_iff_exists'.1 fun hc => hl' (List.min?_eq_none_iff.1 hc)
      obtain ⟨hi, e2⟩ := Option.ne_none_iff_exists'.1 fun hc => hl (List.max?_eq_none_iff.1 hc)
      obtain ⟨hi', e2'⟩ := Option.ne_none_iff_exists'.1 fun hc => hl' (List.max?_eq_none_iff.1 hc)
      rw [e1, e1', e2, e2']
      refine clip_mono ?_ ?_ hx
      · obtain ⟨a, ha, hle⟩ := f1 lo' (List.min?_eq_some_iff.1 e1').1
        exact ((List.min?_eq_some_iff.1 e1).2 a ha).trans hle
      · obtain ⟨b, hb, hle⟩ := f2 hi (List.max?_eq_some_iff.1 e2).1
        exact hle.trans ((List.max?_eq_some_iff.1 e2').2 b hb)

theorem clipAllowed_mono (p : Param) {x x' : ℝ} (h : x ≤ x') : clipAllowed p x ≤ clipAllowed p x' := by
  cases p <;> simp only [clipAllowed, Param.allowed]
  · exact max_le_max le_rfl h
  · exact max_le_max le_rfl h
  · exact clip_mono le_rfl le_rfl h
  · exact max_le_max le_rfl h
  · exact h

theorem clipAllowed_add (p : Param) (x ε : ℝ) (h : 0 ≤ ε) :
    clipAllowed p (x + ε) ≤ clipAllowed p x + ε := by
  have key : ∀ lo, max lo (x + ε) ≤ max lo x + ε := fun lo =>
    max_le (by linarith [le_max_left lo x]) (by linarith [le_max_right lo x])
  cases p <;> simp only [clipAllowed, Param.allowed, clip]
  · exact key _
  · exact key _
  · rcases le_total 100 (max 0 x) with g | g
    · rw [min_eq_left g]; linarith [min_le_left 100 (max 0 (x + ε))]
    · rw [min_eq_right g]; exact (min_le_right _ _).trans (key 0)
  · exact key _
  · exact le_rfl

/-- All measurements raised by `ε`. -/
def raised (ε : ℝ) (s : Stn) : Stn := { s with v := s.v.map (· + ε) }

theorem pts_raised (ε : ℝ) (f : ℝ → ℝ) (st : List Stn) :
    pts (fun s v => v - f s.z) (st.map (raised ε)) =
      (pts (fun s v => v - f s.z) st).map fun p => { p with z := p.z + ε } := by
  induction st with
  | nil => rfl
  | cons s st ih =>
    cases hv : s.v with
    | none => simpa [pts, raised, hv] using ih
    | some v =>
      simp only [pts, raised, List.map_cons, List.filterMap_cons, hv, Option.map_some,
        List.cons.injEq, Pt.mk.injEq, true_and] at ih ⊢
      exact ⟨by ring, ih⟩

theorem vals_raised (ε : ℝ) (st : List Stn) :
    vals (st.map (raised ε)) = (vals st).map (· + ε) := by
  induction st with
  | nil => rfl
  | cons s st ih =>
    cases hv : s.v with
    | none => simpa [vals, raised, hv] using ih
    | some v => simpa [vals, raised, hv] using ih

theorem clipData_add (ex : Bool) (l : List ℝ) (x ε : ℝ) :
    clipData ex (l.map (· + ε)) (x + ε) = clipData ex l x + ε := by
  unfold clipData
  cases ex with
  | true => rfl
  | false =>
    simp only [Bool.false_eq_true, if_false]
    by_cases hl : l = []
    · subst hl; simp
    · obtain ⟨lo, e1⟩ := Option.ne_none_iff_exists'.1 fun hc => hl (List.min?_eq_none_iff.1 hc)
      obtain ⟨hi, e2⟩ := Option.ne_none_iff_exists'.1 fun hc => hl (List.max?_eq_none_iff.1 hc)
      have e1' : (l.map (· + ε)).min? = some (lo + ε) := by
        obtain ⟨m, le⟩ := List.min?_eq_some_iff.1 e1
        refine List.min?_eq_some_iff.2 ⟨List.mem_map.2 ⟨lo, m, rfl⟩, fun b hb => ?_⟩
        obtain ⟨a, ha, rfl⟩ := List.mem_map.1 hb
        linarith [le a ha]
      have e2' : (l.map (· + ε)).max? = some (hi + ε) := by
        obtain ⟨m, le⟩ := List.max?_eq_some_iff.1 e2
        refine List.max?_eq_some_iff.2 ⟨List.mem_map.2 ⟨hi, m, rfl⟩, fun b hb => ?_⟩
        obtain ⟨a, ha, rfl⟩ := List.mem_map.1 hb
        linarith [le a ha]
      rw [e1, e2, e1', e2']
      simp only [clip]
      rw [max_add_add_right, min_add_add_right]

theorem interpolate_raised (p : Param) (hp : p ≠ .relHum) (lapse ε : ℝ) (hε : 0 ≤ ε) (ex : Bool)
    (st : List Stn) (t : Target) :
    Both (fun x x' => x' ≤ x + ε) (interpolate p .fixed lapse ex st t)
      (interpolate p .fixed lapse ex (st.map (raised ε)) t) := by
  unfold interpolate
  simp only [List.length_map, if_neg hp]
  split_ifs with h0 h1
  · exact Or.inr ⟨0, 0, rfl, rfl, by linarith⟩
  · exact Or.inl ⟨rfl, rfl⟩
  · simp only [trended, trendInterp, Option.map_some, pts_raised ε (fun z => lapse * z), idwAt_add,
      vals_raised]
    cases idwAt (pts (fun s v => v - lapse * s.z) st) t with
    | none => exact Or.inl ⟨rfl, rfl⟩
    | some y =>
      refine Or.inr ⟨_, _, rfl, rfl, ?_⟩
      beta_reduce
      rw [show y + ε + lapse * t.z = y + lapse * t.z + ε by ring, clipData_add]
      exact clipAllowed_add p _ ε hε

/-! ## Theorems -/

/-- **C159.** With a fixed lapse rate no pixel gets less if stations measure more. Missing for the
full claim: fitted trends (`C159_regression_false`) and relative humidity. -/
theorem C159_higher_partial (p : Param) (hp : p ≠ .relHum) (lapse : ℝ) (ex : Bool)
    (st st' : List Stn) (h : List.Forall₂ (SameStations (· ≤ ·)) st st') (t : Target) :
    Both (· ≤ ·) (interpolate p .fixed lapse ex st t) (interpolate p .fixed lapse ex st' t) := by
  unfold interpolate
  simp only [← h.length_eq, if_neg hp]
  split_ifs with h0 h1
  · exact Or.inr ⟨0, 0, rfl, rfl, le_rfl⟩
  · exact Or.inl ⟨rfl, rfl⟩
  · simp only [trended, trendInterp, Option.map_some]
    rcases idwAt_mono (pts_mono h fun z => lapse * z) t with ⟨e, e'⟩ | ⟨y, y', e, e', hy⟩
    · rw [e, e']; exact Or.inl ⟨rfl, rfl⟩
    · rw [e, e']
      refine Or.inr ⟨_, _, rfl, rfl, clipAllowed_mono p (clipData_mono ex (vals_mono h) ?_)⟩
      simp only
      linarith

/-- **C159.** With a fixed lapse rate, measurements that differ by at most `ε` at every station give
values that differ by at most `ε` at every pixel. -/
theorem C159_errors_partial (p : Param) (hp : p ≠ .relHum) (lapse ε : ℝ) (ex : Bool)
    (st st' : List Stn) (h : List.Forall₂ (SameStations fun v v' => |v' - v| ≤ ε) st st') (hε : 0 ≤ ε)
    (t : Target) :
    Both (fun x x' => |x' - x| ≤ ε) (interpolate p .fixed lapse ex st t)
      (interpolate p .fixed lapse ex st' t) := by
  have up : List.Forall₂ (SameStations (· ≤ ·)) st' (st.map (raised ε)) := by
    induction h with
    | nil => exact .nil
    | cons a _ ih =>
      obtain ⟨a1, a2, a3, ⟨b, b'⟩ | ⟨v, v', b, b', c⟩⟩ := a
      · exact .cons ⟨a1.symm, a2.symm, a3.symm, Or.inl ⟨b', by simp [raised, b]⟩⟩ ih
      · exact .cons ⟨a1.symm, a2.symm, a3.symm, Or.inr ⟨v', v + ε, b', by simp [raised, b],
          by linarith [(abs_le.1 c).2]⟩⟩ ih
  have lo : List.Forall₂ (SameStations (· ≤ ·)) st (st'.map (raised ε)) := by
    clear up
    induction h with
    | nil => exact .nil
    | cons a _ ih =>
      obtain ⟨a1, a2, a3, ⟨b, b'⟩ | ⟨v, v', b, b', c⟩⟩ := a
      · exact .cons ⟨a1, a2, a3, Or.inl ⟨b, by simp [raised, b']⟩⟩ ih
      · exact .cons ⟨a1, a2, a3, Or.inr ⟨v, v' + ε, b, by simp [raised, b'],
          by linarith [(abs_le.1 c).1]⟩⟩ ih
  have A := C159_higher_partial p hp lapse ex _ _ up t
  have B := C159_higher_partial p hp lapse ex _ _ lo t
  have A' := interpolate_raised p hp lapse ε hε ex st t
  have B' := interpolate_raised p hp lapse ε hε ex st' t
  rcases A' with ⟨e, e'⟩ | ⟨x, y, e, e', hxy⟩
  · rcases A with ⟨f, -⟩ | ⟨_, _, -, f, -⟩
    · exact Or.inl ⟨e, f⟩
    · rw [e'] at f; simp at f
  · rcases A with ⟨-, f⟩ | ⟨x', y₂, f, f', g⟩
    · rw [e'] at f; simp at f
    · rcases B with ⟨k, -⟩ | ⟨x₂, z, k, k', m⟩
      · rw [e] at k; simp at k
      · rcases B' with ⟨q, -⟩ | ⟨x₃, z₂, q, q', n⟩
        · rw [f] at q; simp at q
        · obtain rfl : y = y₂ := by rw [e'] at f'; simpa using f'
          obtain rfl : x = x₂ := by rw [e] at k; simpa using k
          obtain rfl : x' = x₃ := by rw [f] at q; simpa using q
          obtain rfl : z = z₂ := by rw [k'] at q'; simpa using q'
          exact Or.inr ⟨x, x', e, f, abs_le.2 ⟨by linarith, by linarith⟩⟩

/-! ## Relative humidity -/

theorem dewPoint_mono {t rh rh' : ℝ} (ht : T0 - 23418 / 100 < t) (h0 : 0 < rh) (h : rh ≤ rh')
    (h1 : rh' ≤ 100) : ∃ d d', dewPoint t rh = some d ∧ dewPoint t rh' = some d' ∧ d ≤ d' ∧
      T0 - 23418 / 100 < d := by
  have hpos : 0 < Over.water.c + (t - T0) := by simp only [Over.c]; linarith
  have hs := svpOver_some .water hpos
  obtain ⟨m, hm⟩ : ∃ m, Over.water.b * (t - T0) / (Over.water.c + (t - T0)) = m := ⟨_, rfl⟩
  rw [hm] at hs
  have hmlt : m < Over.water.b := by
    rw [← hm, div_lt_iff₀ hpos]
    have := mul_pos Over.water.b_pos Over.water.c_pos
    nlinarith
  have ha := Over.water.a_pos
  have key : ∀ r, 0 < r → r ≤ 100 → ∃ d, dewPoint t r = some d ∧ 0 < Over.water.c + (d - T0) ∧
      Over.water.b * (d - T0) / (Over.water.c + (d - T0)) = m + Real.log (r / 100) := by
    intro r hr hr1
    obtain ⟨q, hq⟩ : ∃ q, Over.water.a * Real.exp m * r / 100 / Over.water.a = q := ⟨_, rfl⟩
    have hq' : q = Real.exp m * (r / 100) := by rw [← hq]; field_simp
    have hqpos : 0 < q := by rw [hq']; positivity
    have hlog : Real.log q = m + Real.log (r / 100) := by
      rw [hq', Real.log_mul (Real.exp_pos _).ne' (by positivity), Real.log_exp]
    have hlr : Real.log (r / 100) ≤ 0 := Real.log_nonpos (by positivity) (by linarith)
    obtain ⟨d, e1, e2, e3⟩ := dewOfRatio_spec hqpos (by rw [hlog]; linarith)
    exact ⟨d, by simp only [dewPoint, hs, Option.bind_some, hq, e1], e2, by rw [e3, hlog]⟩
  obtain ⟨d, e1, e2, e3⟩ := key rh h0 (h.trans h1)
  obtain ⟨d', f1, f2, f3⟩ := key rh' (h0.trans_le h) h1
  refine ⟨d, d', e1, f1, ?_, by simp only [Over.c] at e2; linarith⟩
  by_contra hc
  have := magnus_lt .water f2 (show d' - T0 < d - T0 by linarith)
  rw [e3, f3] at this
  linarith [Real.log_le_log (by positivity : 0 < rh / 100) (by linarith : rh / 100 ≤ rh' / 100)]

theorem rhFromDew_mono {t d d' : ℝ} (ht : T0 - 23418 / 100 < t) (hd : T0 - 23418 / 100 < d)
    (h : d ≤ d') : ∃ r r', rhFromDew t d = some r ∧ rhFromDew t d' = some r' ∧ r ≤ r' := by
  have hpos : 0 < Over.water.c + (t - T0) := by simp only [Over.c]; linarith
  have hs := svpOver_some .water hpos
  have hd0 : 0 < Over.water.c + (d - T0) := by simp only [Over.c]; linarith
  have e := svpOver_some .water hd0
  have e' := svpOver_some .water (show 0 < Over.water.c + (d' - T0) by linarith)
  have ha := Over.water.a_pos
  simp only [rhFromDew, e, e', hs, Option.bind_some, Option.map_some]
  refine ⟨_, _, rfl, rfl, ?_⟩
  have hle : Over.water.b * (d - T0) / (Over.water.c + (d - T0)) ≤
      Over.water.b * (d' - T0) / (Over.water.c + (d' - T0)) := by
    rcases h.eq_or_lt with rfl | hlt
    · exact le_rfl
    · exact (magnus_lt .water hd0 (by linarith)).le
  have := mul_le_mul_of_nonneg_left (Real.exp_le_exp.2 hle) ha.le
  gcongr

/-- Specification: the same hygrometers at the same temperatures, above the pole of the Magnus formula
(39 K), with humidities in (0, 100] or missing. -/
def Moister (s s' : Stn) : Prop :=
  SameStations (fun v v' => 0 < v ∧ v ≤ v' ∧ v' ≤ 100) s s' ∧ s'.temp = s.temp ∧ T0 - 23418 / 100 < s.temp

theorem toDew_mono {st st' : List Stn} (h : List.Forall₂ Moister st st') :
    List.Forall₂ (SameStations (· ≤ ·)) (toDew st) (toDew st') := by
  induction h with
  | nil => exact .nil
  | cons a _ ih =>
    obtain ⟨⟨a1, a2, a3, ⟨b, b'⟩ | ⟨v, v', b, b', c0, c, c1⟩⟩, e, f⟩ := a
    · exact .cons ⟨a1, a2, a3, Or.inl ⟨by simp [b], by simp [b']⟩⟩ ih
    · obtain ⟨d, d', g, g', k, -⟩ := dewPoint_mono f c0 c c1
      exact .cons ⟨a1, a2, a3, Or.inr ⟨d, d', by simp [b, g], by simp [b', e, g'], k⟩⟩ ih

/-- **C159.** With a fixed lapse rate of the dew point no pixel gets a lower relative humidity if
hygrometers measure more, provided that the interpolated dew point lies above the pole of the Magnus
formula (39 K), e.g. with lapse rate 0 or stations and pixels at similar elevations. -/
theorem C159_humidity_partial (lapse : ℝ) (ex : Bool) (st st' : List Stn)
    (h : List.Forall₂ Moister st st') (t : Target) (ht : T0 - 23418 / 100 < t.temp)
    (hd : ∀ d, trendInterp (fun z => lapse * z) (toDew st) t = some d → T0 - 23418 / 100 < d) :
    Both (· ≤ ·) (interpolate .relHum .fixed lapse ex st t)
      (interpolate .relHum .fixed lapse ex st' t) := by
  have hm := toDew_mono h
  unfold interpolate
  simp only [← h.length_eq, if_true]
  split_ifs with h0 h1
  · cases h1
  · exact Or.inl ⟨rfl, rfl⟩
  · simp only [trended, trendInterp, Option.map_some] at hd ⊢
    rcases idwAt_mono (pts_mono hm fun z => lapse * z) t with ⟨e, e'⟩ | ⟨y, y', e, e', hy⟩
    · rw [e, e']; exact Or.inl ⟨rfl, rfl⟩
    · rw [e] at hd
      rw [e, e']
      obtain ⟨r, r', f, f', g⟩ := rhFromDew_mono ht (hd _ rfl)
        (show y + lapse * t.z ≤ y' + lapse * t.z by linarith)
      simp only [Option.map_some, Option.bind_some, f, f']
      exact Or.inr ⟨_, _, rfl, rfl, clipAllowed_mono _ (clipData_mono ex (vals_mono hm) g)⟩

/-! ## Adjustment factors -/

theorem pts_value_mono {st st' : List Stn} (h : List.Forall₂ (SameStations (· ≤ ·)) st st') :
    List.Forall₂ PtLe (pts (fun _ v => v) st) (pts (fun _ v => v) st') := by
  simpa using pts_mono h fun _ => 0

/-- **C159.** With adjustment factors no pixel gets less precipitation if gauges measure more, as long
as the pixel is less than `1 / |lapse|` above or below the interpolated elevation of the gauges. -/
theorem C159_adjustment_partial (p : Param) (hp : p ≠ .relHum) (lapse : ℝ) (ex : Bool)
    (st st' : List Stn) (h : List.Forall₂ (SameStations (· ≤ ·)) st st') (t : Target)
    (hz : ∀ z, idwAt (st.map fun s => ⟨s.x, s.y, s.z⟩) t = some z → |lapse * (t.z - z)| < 1) :
    Both (· ≤ ·) (interpolate p .adjustment lapse ex st t)
      (interpolate p .adjustment lapse ex st' t) := by
  have hxyz : (st'.map fun s => (⟨s.x, s.y, s.z⟩ : Pt)) = st.map fun s => ⟨s.x, s.y, s.z⟩ := by
    clear hz
    induction h with
    | nil => rfl
    | cons a _ ih => simp only [List.map_cons, a.1, a.2.1, a.2.2.1, ih]
  unfold interpolate
  simp only [← h.length_eq, if_neg hp]
  split_ifs with h0 h1
  · exact Or.inr ⟨0, 0, rfl, rfl, le_rfl⟩
  · exact Or.inl ⟨rfl, rfl⟩
  · simp only [trended, Option.map_some, hxyz]
    rcases idwAt_mono (pts_value_mono h) t with ⟨e, e'⟩ | ⟨y, y', e, e', hy⟩
    · rw [e, e']; exact Or.inl ⟨rfl, rfl⟩
    · rw [e, e']
      cases hi : idwAt (st.map fun s => (⟨s.x, s.y, s.z⟩ : Pt)) t with
      | none => exact Or.inl ⟨rfl, rfl⟩
      | some z =>
        obtain ⟨g1, g2⟩ := abs_lt.1 (hz z hi)
        have hf : factor lapse (t.z - z) =
            some ((1 + lapse * (t.z - z)) / (1 - lapse * (t.z - z))) := by
          unfold factor
          rw [if_neg (by linarith)]
        simp only [Option.bind_some, hf, Option.map_some]
        refine Or.inr ⟨_, _, rfl, rfl, clipAllowed_mono p (clipData_mono ex (vals_mono h) ?_)⟩
        exact mul_le_mul_of_nonneg_right hy (div_nonneg (by linarith) (by linarith))

theorem clip_negative (ex : Bool) {l : List ℝ} (hl : ∀ v ∈ l, 0 ≤ v) {x : ℝ} (hx : x ≤ 0) :
    clipAllowed .precip (clipData ex l x) = clipAllowed .precip (clipData ex l 0) := by
  have key : max 0 x = max (0 : ℝ) 0 := by rw [max_eq_left hx, max_self]
  unfold clipData
  cases ex with
  | true => simpa only [if_true, clipAllowed, Param.allowed] using key
  | false =>
    simp only [Bool.false_eq_true, if_false]
    cases e1 : l.min? with
    | none => simpa only [clipAllowed, Param.allowed] using key
    | some lo =>
      cases e2 : l.max? with
      | none => simpa only [clipAllowed, Param.allowed] using key
      | some hi =>
        have h0 := hl lo (List.min?_eq_some_iff.1 e1).1
        simp only [clip]
        rw [max_eq_left (hx.trans h0), max_eq_left h0]

/-- **C159.** With adjustment factors no pixel gets less precipitation if gauges measure more, whatever
the elevations are (beyond the singularities of the factor the result is the lower limit). -/
theorem C159_precip (lapse : ℝ) (ex : Bool) (st st' : List Stn)
    (h : List.Forall₂ (SameStations (· ≤ ·)) st st') (h0 : ∀ v ∈ vals st, 0 ≤ v) (t : Target) :
    Both (· ≤ ·) (interpolate .precip .adjustment lapse ex st t)
      (interpolate .precip .adjustment lapse ex st' t) := by
  have h0' : ∀ v ∈ vals st', 0 ≤ v := fun v hv => by
    obtain ⟨u, hu, k⟩ := (forall₂_left (vals_mono h)).1 v hv
    exact (h0 u hu).trans k
  have hxyz : (st'.map fun s => (⟨s.x, s.y, s.z⟩ : Pt)) = st.map fun s => ⟨s.x, s.y, s.z⟩ := by
    clear h0 h0'
    induction h with
    | nil => rfl
    | cons a _ ih => simp only [List.map_cons, a.1, a.2.1, a.2.2.1, ih]
  have nonneg : ∀ (st : List Stn) (y : ℝ), (∀ v ∈ vals st, 0 ≤ v) →
      idwAt (pts (fun _ v => v) st) t = some y → 0 ≤ y := by
    intro st y hv hy
    have hz : List.Forall₂ PtLe ((pts (fun _ v => v) st).map fun p => { p with z := 0 })
        (pts (fun _ v => v) st) := by
      refine List.forall₂_map_left_iff.2 (List.forall₂_same.2 fun q hq => ⟨rfl, rfl, ?_⟩)
      obtain ⟨s, hs, e⟩ := List.mem_filterMap.1 hq
      obtain ⟨v, e1, rfl⟩ := Option.map_eq_some_iff.1 e
      exact hv v (List.mem_filterMap.2 ⟨s, hs, e1⟩)
    rcases idwAt_mono hz t with ⟨-, e'⟩ | ⟨z, y', e, e', k⟩
    · rw [e'] at hy; cases hy
    · rw [e'] at hy
      cases hy
      have hne : ((pts (fun _ v => v) st).map fun p => ({ p with z := 0 } : Pt)) ≠ [] := by
        intro hc
        rw [hc] at e
        simp [idwAt] at e
      rw [idwAt_const 0 _ _ hne (by
        intro q hq
        obtain ⟨r, -, rfl⟩ := List.mem_map.1 hq
        rfl)] at e
      cases e
      exact k
  unfold interpolate
  simp only [← h.length_eq, reduceCtorEq, if_false]
  split_ifs with h1
  · exact Or.inr ⟨0, 0, rfl, rfl, le_rfl⟩
  · simp only [trended, Option.map_some, hxyz]
    rcases idwAt_mono (pts_value_mono h) t with ⟨e, e'⟩ | ⟨y, y', e, e', hy⟩
    · rw [e, e']; exact Or.inl ⟨rfl, rfl⟩
    · have hy0 := nonneg st y h0 e
      rw [e, e']
      cases hi : idwAt (st.map fun s => (⟨s.x, s.y, s.z⟩ : Pt)) t with
      | none => exact Or.inl ⟨rfl, rfl⟩
      | some z =>
        simp only [Option.bind_some]
        cases hf : factor lapse (t.z - z) with
        | none => exact Or.inl ⟨rfl, rfl⟩
        | some a =>
          simp only [Option.map_some]
          refine Or.inr ⟨_, _, rfl, rfl, ?_⟩
          rcases le_total 0 a with ha | ha
          · exact clipAllowed_mono _
              (clipData_mono ex (vals_mono h) (mul_le_mul_of_nonneg_right hy ha))
          · rw [clip_negative ex h0 (mul_nonpos_of_nonneg_of_nonpos hy0 ha),
              clip_negative ex h0' (mul_nonpos_of_nonneg_of_nonpos (hy0.trans hy) ha)]
            exact clipAllowed_mono _ (clipData_mono ex (vals_mono h) le_rfl)

/-! ## Examples and witness -/

/-- Lower station. -/
noncomputable def exLow (v : ℝ) : Stn := ⟨0, 0, 0, some v, v⟩

/-- Upper station. -/
noncomputable def exHigh : Stn := ⟨2, 0, 100, some 280, 280⟩

/-- A pixel above both stations. -/
noncomputable def exTop : Target := ⟨1, 0, 1000, 270⟩

example : List.Forall₂ (SameStations (· ≤ ·)) [exLow 280, exHigh] [exLow 281, exHigh] ∧
    List.Forall₂ (SameStations fun v v' => |v' - v| ≤ 1) [exLow 280, exHigh] [exLow 281, exHigh] := by
  refine ⟨.cons ⟨rfl, rfl, rfl, Or.inr ⟨280, 281, rfl, rfl, by norm_num⟩⟩
    (.cons ⟨rfl, rfl, rfl, Or.inr ⟨280, 280, rfl, rfl, le_rfl⟩⟩ .nil),
    .cons ⟨rfl, rfl, rfl, Or.inr ⟨280, 281, rfl, rfl, by norm_num⟩⟩
    (.cons ⟨rfl, rfl, rfl, Or.inr ⟨280, 280, rfl, rfl, by norm_num⟩⟩ .nil)⟩

/-- A hygrometer. -/
noncomputable def exHyg (rh : ℝ) : Stn := ⟨0, 0, 0, some rh, 280⟩

example : List.Forall₂ Moister [exHyg 50, exHyg 50] [exHyg 50, exHyg 80] ∧
    ∀ d, trendInterp (fun z => 0 * z) (toDew [exHyg 50, exHyg 50]) exTop = some d →
      T0 - 23418 / 100 < d := by
  have ht : T0 - 23418 / 100 < (280 : ℝ) := by norm_num [T0]
  refine ⟨.cons ⟨⟨rfl, rfl, rfl, Or.inr ⟨50, 50, rfl, rfl, by norm_num⟩⟩, rfl, ht⟩
    (.cons ⟨⟨rfl, rfl, rfl, Or.inr ⟨50, 80, rfl, rfl, by norm_num⟩⟩, rfl, ht⟩ .nil), fun d hd => ?_⟩
  obtain ⟨td, -, e, -, -, k⟩ :=
    dewPoint_mono ht (by norm_num : (0 : ℝ) < 50) le_rfl (by norm_num : (50 : ℝ) ≤ 100)
  simp only [trendInterp] at hd
  rw [idwAt_const td _ _ (by simp [pts, toDew, exHyg, e]) (by
    intro q hq
    simp only [pts, toDew, exHyg, List.map_cons, List.map_nil, Option.bind_some, e,
      List.filterMap_cons, List.filterMap_nil, Option.map_some, List.mem_cons, List.not_mem_nil,
      or_false, or_self] at hq
    rw [hq]; simp)] at hd
  simp only [Option.map_some, zero_mul, add_zero, Option.some.injEq] at hd
  linarith

example : ∀ v ∈ vals [exLow 3, exHigh], 0 ≤ v := by
  simp [vals, exLow, exHigh]

/-- The pixel lies less than `1 / lapse` above the gauges. -/
example : ∀ z, idwAt ([exLow 3, exLow 4].map fun s => ⟨s.x, s.y, s.z⟩) exTop = some z →
    |1 / 4000 * (exTop.z - z)| < 1 := by
  intro z hz
  rw [idwAt_const 0 _ _ (by simp) (by
    intro q hq
    simp only [exLow, List.map_cons, List.map_nil, List.mem_cons, List.not_mem_nil, or_false,
      or_self] at hq
    rw [hq])] at hz
  simp only [Option.some.injEq] at hz
  subst hz
  simp only [exTop]
  norm_num [abs_lt]

theorem regression_value (v : ℝ) (hv : 0 ≤ 280 + 9 * (280 - v)) :
    interpolate .temp .regression 0 true [exLow v, exHigh] exTop = some (some (280 + 9 * (280 - v))) := by
  have hk : linearFit (pairs [exLow v, exHigh]) = some ((280 - v) / 100) := by
    simp only [pairs, exLow, exHigh, List.filterMap_cons, List.filterMap_nil, Option.map_some,
      linearFit]
    rw [if_neg (by simp)]
    simp only [ols, mean, List.map_cons, List.map_nil, List.sum_cons, List.sum_nil, List.length_cons,
      List.length_nil, Option.some.injEq]
    norm_num
    ring
  unfold interpolate
  rw [if_neg (by simp), if_neg (by decide)]
  simp only [trended]
  rw [if_neg (by simp [exLow, exHigh]), hk]
  simp only [Option.map_some, trendInterp]
  rw [idwAt_const v _ _ (by simp [pts, exLow, exHigh]) (by
    intro q hq
    simp only [pts, exLow, exHigh, List.filterMap_cons, List.filterMap_nil, Option.map_some,
      List.mem_cons, List.not_mem_nil, or_false] at hq
    rcases hq with rfl | rfl
    · simp
    · simp only; ring)]
  simp only [Option.map_some, reduceCtorEq, if_false, clipData, if_true, clipAllowed, Param.allowed,
    exTop, Option.some.injEq]
  rw [show v + (280 - v) / 100 * 1000 = 280 + 9 * (280 - v) by ring]
  exact max_eq_right hv

/-- **C159.** With a fitted trend the claim is false: one kelvin more at the lower of two stations
makes a pixel 900 m above the upper one nine kelvins colder. -/
theorem C159_regression_false :
    ¬ (∀ (st st' : List Stn) (t : Target), List.Forall₂ (SameStations (· ≤ ·)) st st' →
        Both (· ≤ ·) (interpolate .temp .regression 0 true st t)
          (interpolate .temp .regression 0 true st' t)) ∧
    ¬ (∀ (st st' : List Stn) (t : Target), List.Forall₂ (SameStations fun v v' => |v' - v| ≤ 1) st st' →
        Both (fun x x' => |x' - x| ≤ 1) (interpolate .temp .regression 0 true st t)
          (interpolate .temp .regression 0 true st' t)) := by
  have e1 := regression_value 280 (by norm_num)
  have e2 := regression_value 281 (by norm_num)
  constructor
  · intro h
    rcases h [exLow 280, exHigh] [exLow 281, exHigh] exTop
      (.cons ⟨rfl, rfl, rfl, Or.inr ⟨280, 281, rfl, rfl, by norm_num⟩⟩
        (.cons ⟨rfl, rfl, rfl, Or.inr ⟨280, 280, rfl, rfl, le_rfl⟩⟩ .nil)) with ⟨f, -⟩ | ⟨x, x', f, f', g⟩
    · rw [e1] at f; simp at f
    · rw [e1] at f; rw [e2] at f'
      simp only [Option.some.injEq] at f f'
      norm_num [← f, ← f'] at g
  · intro h
    rcases h [exLow 280, exHigh] [exLow 281, exHigh] exTop
      (.cons ⟨rfl, rfl, rfl, Or.inr ⟨280, 281, rfl, rfl, by norm_num⟩⟩
        (.cons ⟨rfl, rfl, rfl, Or.inr ⟨280, 280, rfl, rfl, by norm_num⟩⟩ .nil)) with
      ⟨f, -⟩ | ⟨x, x', f, f', g⟩
    · rw [e1] at f; simp at f
    · rw [e1] at f; rw [e2] at f'
      simp only [Option.some.injEq] at f f'
      norm_num [← f, ← f', abs_le] at g

/-- Two gauges at the same elevation. -/
noncomputable def exGauges (v : ℝ) : List Stn := [⟨0, 0, 0, some 100, 280⟩, ⟨2, 0, 0, some v, 280⟩]

theorem fractional_value (v : ℝ) (hv : 0 ≤ 95 - v / 20) :
    interpolate .precip .fractional (1 / 1000) true (exGauges v) ⟨0, 0, -100, 280⟩ =
      some (some (95 - v / 20)) := by
  unfold interpolate
  rw [if_neg (by simp [exGauges])]
  simp only [trended, exGauges, vals, mean, List.filterMap_cons, List.filterMap_nil, reduceCtorEq,
    if_false, trendInterp, idwAt, pts, Option.map_some, List.length_cons, List.length_nil, loop,
    Idw.dist, clipData, if_true, clipAllowed, Param.allowed]
  norm_num
  rw [max_eq_right (by linarith)]
  ring

/-- **C159.** With fractional lapse rates the order is false: at a pixel below the gauge at its position
more precipitation at another gauge means less. -/
theorem C159_fractional_false :
    ¬ ∀ (st st' : List Stn) (t : Target), List.Forall₂ (SameStations (· ≤ ·)) st st' →
        (∀ v ∈ vals st, 0 ≤ v) →
        Both (· ≤ ·) (interpolate .precip .fractional (1 / 1000) true st t)
          (interpolate .precip .fractional (1 / 1000) true st' t) := by
  intro h
  have e1 := fractional_value 0 (by norm_num)
  have e2 := fractional_value 100 (by norm_num)
  rcases h (exGauges 0) (exGauges 100) ⟨0, 0, -100, 280⟩
    (.cons ⟨rfl, rfl, rfl, Or.inr ⟨100, 100, rfl, rfl, le_rfl⟩⟩
      (.cons ⟨rfl, rfl, rfl, Or.inr ⟨0, 100, rfl, rfl, by norm_num⟩⟩ .nil))
    (by simp [vals, exGauges]) with ⟨f, -⟩ | ⟨x, x', f, f', g⟩
  · rw [e1] at f; simp at f
  · rw [e1] at f; rw [e2] at f'
    simp only [Option.some.injEq] at f f'
    norm_num [← f, ← f'] at g

end Verif.StationErrors
