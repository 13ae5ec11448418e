import Verif.Model.FillStations
import Verif.Props.Atmosphere
import Verif.Props.MeteoInterp
import Mathlib.Tactic.NormNum

/-!
# C99: filling missing station data
-/

set_option linter.unusedSectionVars false

namespace Verif.FillStations

open Verif.MeteoInterp
open Verif.Atmosphere (dewPoint rhFromDew svpOver Over T0)

/-! ## Lemmas -/

theorem mapM_some {α β : Type} (f : α → Option β) (l : List α) (l' : List β) (h : l.mapM f = some l') :
    l'.length = l.length ∧ ∀ (i : Nat) (a : α), l[i]? = some a → ∃ b, l'[i]? = some b ∧ f a = some b := by
  induction l generalizing l' with
  | nil =>
    simp at h
    subst h
    simp
  | cons a t ih =>
    simp only [List.mapM_cons, Option.pure_def, Option.bind_eq_bind, Option.bind_eq_some_iff,
      Option.some.injEq] at h
    obtain ⟨b, hb, t', ht, rfl⟩ := h
    obtain ⟨h1, h2⟩ := ih t' ht
    refine ⟨by simp [h1], ?_⟩
    intro i x hx
    cases i with
    | zero =>
      simp at hx
      subst hx
      exact ⟨b, by simp, hb⟩
    | succ j =>
      simp at hx
      simpa using h2 j x hx

/-- What filling a variable does to each station. -/
theorem fillVar_spec {get : Rec → Option ℝ} {set : Rec → Option ℝ → Rec}
    {f : List Rec → Rec → Option (Option ℝ)} {rs rs' : List Rec} (h : fillVar get set f rs = some rs') :
    rs'.length = rs.length ∧ ∀ (i : Nat) (r : Rec), rs[i]? = some r → ∃ r', rs'[i]? = some r' ∧
      ((get r).isSome → r' = r) ∧
      (get r = none → (∀ q ∈ rs, get q = none) → r' = r) ∧
      (get r = none → (∃ q ∈ rs, (get q).isSome) →
        ∃ v, f (rs.filter fun q => (get q).isSome) r = some v ∧ r' = set r v) := by
  simp only [fillVar] at h
  split_ifs at h with hc
  · obtain ⟨h1, h2⟩ := mapM_some _ _ _ h
    refine ⟨h1, ?_⟩
    intro i r hr
    obtain ⟨r', hr', e⟩ := h2 i r hr
    refine ⟨r', hr', ?_, ?_, ?_⟩
    · intro hs
      rw [if_neg (by simpa using (Option.isSome_iff_ne_none.mp hs))] at e
      exact (Option.some.inj e).symm
    · intro _ hall
      exfalso
      have : (rs.filter fun q => (get q).isNone) = rs :=
        List.filter_eq_self.mpr fun q hq => by simp [hall q hq]
      rw [this] at hc
      omega
    · intro hn _
      rw [if_pos (by simp [hn]), Option.map_eq_some_iff] at e
      obtain ⟨v, hv, rfl⟩ := e
      exact ⟨v, hv, rfl⟩
  · obtain rfl := Option.some.inj h
    refine ⟨rfl, ?_⟩
    intro i r hr
    refine ⟨r, hr, fun _ => rfl, fun _ _ => rfl, ?_⟩
    intro hn hq
    exfalso
    apply hc
    have hm : r ∈ rs := List.mem_of_getElem? hr
    refine ⟨List.length_pos_iff.mpr ?_, ?_⟩
    · intro e
      have : r ∈ rs.filter fun q => (get q).isNone := List.mem_filter.mpr ⟨hm, by simp [hn]⟩
      rw [e] at this
      simp at this
    · obtain ⟨q, hq, hs⟩ := hq
      exact List.length_filter_lt_length_iff_exists.mpr
        ⟨q, hq, by simpa using (Option.isSome_iff_ne_none.mp hs)⟩

theorem getElem?_total {α : Type} {l l' : List α} (h : l'.length = l.length) {i : Nat} {a : α}
    (ha : l'[i]? = some a) : ∃ b, l[i]? = some b := by
  have := (List.getElem?_eq_some_iff.mp ha).1
  exact ⟨l[i]'(by omega), List.getElem?_eq_getElem (by omega)⟩

/-- The three steps of a date. -/
theorem fillDate_steps {c : Config} {rs rs' : List Rec} (h : fillDate c rs = some rs') :
    ∃ r1 r2,
      fillVar Rec.temp (fun r v => { r with temp := v }) (interpPlain .temp (oneSegment c.temp) Rec.temp) rs
        = some r1 ∧
      fillVar Rec.hum (fun r v => { r with hum := v }) (interpHum (oneSegment c.hum)) r1 = some r2 ∧
      fillVar Rec.wind (fun r v => { r with wind := v }) (interpPlain .windSpeed c.wind Rec.wind) r2
        = some rs' := by
  unfold fillDate at h
  rw [Option.bind_eq_some_iff] at h
  obtain ⟨r1, h1, h⟩ := h
  rw [Option.bind_eq_some_iff] at h
  obtain ⟨r2, h2, h3⟩ := h
  exact ⟨r1, r2, h1, h2, h3⟩

/-- Each step changes only its own variable. -/
theorem fillVar_frame {get : Rec → Option ℝ} {set : Rec → Option ℝ → Rec}
    {f : List Rec → Rec → Option (Option ℝ)} {rs rs' : List Rec} (h : fillVar get set f rs = some rs')
    (i : Nat) (r : Rec) (hr : rs[i]? = some r) :
    ∃ r', rs'[i]? = some r' ∧ (r' = r ∨ get r = none ∧ ∃ v, r' = set r v) := by
  obtain ⟨-, h2⟩ := fillVar_spec h
  obtain ⟨r', hr', ha, hb, hc⟩ := h2 i r hr
  refine ⟨r', hr', ?_⟩
  cases hg : get r with
  | some v => exact Or.inl (ha (by simp [hg]))
  | none =>
    by_cases hex : ∃ q ∈ rs, (get q).isSome
    · obtain ⟨v, -, e⟩ := hc hg hex
      exact Or.inr ⟨rfl, v, e⟩
    · left
      apply hb hg
      intro q hq
      by_contra hne
      exact hex ⟨q, hq, Option.isSome_iff_ne_none.mpr hne⟩

/-- **C99 (measured values).** On every date, filling keeps the stations, their coordinates and
precipitation, and every measured temperature, humidity and wind speed. -/
theorem C99_kept (c : Config) (rs rs' : List Rec) (h : fillDate c rs = some rs') :
    rs'.length = rs.length ∧ ∀ (i : Nat) (r r' : Rec), rs[i]? = some r → rs'[i]? = some r' →
      r'.x = r.x ∧ r'.y = r.y ∧ r'.z = r.z ∧ r'.precip = r.precip ∧
      (∀ t, r.temp = some t → r'.temp = some t) ∧ (∀ u, r.hum = some u → r'.hum = some u) ∧
      (∀ w, r.wind = some w → r'.wind = some w) := by
  obtain ⟨r1, r2, h1, h2, h3⟩ := fillDate_steps h
  refine ⟨((fillVar_spec h3).1.trans (fillVar_spec h2).1).trans (fillVar_spec h1).1, ?_⟩
  intro i r r' hr hr'
  obtain ⟨a, ha, ea⟩ := fillVar_frame h1 i r hr
  obtain ⟨b, hb, eb⟩ := fillVar_frame h2 i a ha
  obtain ⟨d, hd, ed⟩ := fillVar_frame h3 i b hb
  obtain rfl : r' = d := by rw [hr'] at hd; exact Option.some.inj hd
  rcases ea with rfl | ⟨na, va, rfl⟩ <;> rcases eb with rfl | ⟨nb, vb, rfl⟩ <;>
    rcases ed with rfl | ⟨nd, vd, rfl⟩ <;> simp_all

/-- A variable missing at all stations stays missing: nothing is invented. -/
theorem C99_all_missing (c : Config) (rs rs' : List Rec) (h : fillDate c rs = some rs') :
    ((∀ r ∈ rs, r.temp = none) → ∀ r ∈ rs', r.temp = none) ∧
    ((∀ r ∈ rs, r.hum = none) → ∀ r ∈ rs', r.hum = none) ∧
    ((∀ r ∈ rs, r.wind = none) → ∀ r ∈ rs', r.wind = none) := by
  obtain ⟨r1, r2, h1, h2, h3⟩ := fillDate_steps h
  have l1 := (fillVar_spec h1).1
  have l2 := (fillVar_spec h2).1
  have l3 := (fillVar_spec h3).1
  have key : ∀ r' ∈ rs', ∃ (r a b : Rec) (i : Nat), rs[i]? = some r ∧ r1[i]? = some a ∧ r2[i]? = some b ∧
      rs'[i]? = some r' := by
    intro r' hr'
    obtain ⟨i, hi⟩ := List.getElem?_of_mem hr'
    obtain ⟨b, hb⟩ := getElem?_total l3 hi
    obtain ⟨a, ha⟩ := getElem?_total l2 hb
    obtain ⟨r, hr⟩ := getElem?_total l1 ha
    exact ⟨r, a, b, i, hr, ha, hb, hi⟩
  have f1 : ∀ (i : Nat) (r a : Rec), rs[i]? = some r → r1[i]? = some a → a.hum = r.hum ∧ a.wind = r.wind := by
    intro i r a hr ha
    obtain ⟨a', ha', ea⟩ := fillVar_frame h1 i r hr
    obtain rfl : a = a' := by rw [ha] at ha'; exact Option.some.inj ha'
    rcases ea with rfl | ⟨_, v, rfl⟩ <;> exact ⟨rfl, rfl⟩
  have f2 : ∀ (i : Nat) (r a : Rec), r1[i]? = some r → r2[i]? = some a → a.temp = r.temp ∧ a.wind = r.wind := by
    intro i r a hr ha
    obtain ⟨a', ha', ea⟩ := fillVar_frame h2 i r hr
    obtain rfl : a = a' := by rw [ha] at ha'; exact Option.some.inj ha'
    rcases ea with rfl | ⟨_, v, rfl⟩ <;> exact ⟨rfl, rfl⟩
  have f3 : ∀ (i : Nat) (r a : Rec), r2[i]? = some r → rs'[i]? = some a → a.temp = r.temp ∧ a.hum = r.hum := by
    intro i r a hr ha
    obtain ⟨a', ha', ea⟩ := fillVar_frame h3 i r hr
    obtain rfl : a = a' := by rw [ha] at ha'; exact Option.some.inj ha'
    rcases ea with rfl | ⟨_, v, rfl⟩ <;> exact ⟨rfl, rfl⟩
  refine ⟨?_, ?_, ?_⟩
  · intro hall r' hr'
    obtain ⟨r, a, b, i, hr, ha, hb, hi⟩ := key r' hr'
    obtain ⟨a', ha', -, e, -⟩ := (fillVar_spec h1).2 i r hr
    obtain rfl : a = a' := by rw [ha] at ha'; exact Option.some.inj ha'
    have hn := hall r (List.mem_of_getElem? hr)
    have := e hn hall
    subst this
    rw [(f3 i b r' hb hi).1, (f2 i _ b ha hb).1, hn]
  · intro hall r' hr'
    obtain ⟨r, a, b, i, hr, ha, hb, hi⟩ := key r' hr'
    have hall1 : ∀ q ∈ r1, q.hum = none := by
      intro q hq
      obtain ⟨j, hj⟩ := List.getElem?_of_mem hq
      obtain ⟨p, hp⟩ := getElem?_total l1 hj
      rw [(f1 j p q hp hj).1]
      exact hall p (List.mem_of_getElem? hp)
    obtain ⟨b', hb', -, e, -⟩ := (fillVar_spec h2).2 i a ha
    obtain rfl : b = b' := by rw [hb] at hb'; exact Option.some.inj hb'
    have hn := hall1 a (List.mem_of_getElem? ha)
    have := e hn hall1
    subst this
    rw [(f3 i _ r' hb hi).2, hn]
  · intro hall r' hr'
    obtain ⟨r, a, b, i, hr, ha, hb, hi⟩ := key r' hr'
    have hall2 : ∀ q ∈ r2, q.wind = none := by
      intro q hq
      obtain ⟨j, hj⟩ := List.getElem?_of_mem hq
      obtain ⟨p, hp⟩ := getElem?_total l2 hj
      obtain ⟨o, ho⟩ := getElem?_total l1 hp
      rw [(f2 j p q hp hj).2, (f1 j o p ho hp).2]
      exact hall o (List.mem_of_getElem? ho)
    obtain ⟨d', hd', -, e, -⟩ := (fillVar_spec h3).2 i b hb
    obtain rfl : r' = d' := by rw [hi] at hd'; exact Option.some.inj hd'
    have hn := hall2 b (List.mem_of_getElem? hb)
    have := e hn hall2
    subst this
    exact hn

theorem pts_ne_nil {g : Stn → ℝ → ℝ} {st : List Stn} (hne : st ≠ []) (h : ∀ s ∈ st, s.v ≠ none) :
    pts g st ≠ [] := by
  obtain ⟨s, hs⟩ := List.exists_mem_of_ne_nil st hne
  obtain ⟨v, hv⟩ := Option.ne_none_iff_exists'.mp (h s hs)
  have : (⟨s.x, s.y, g s v⟩ : Verif.Idw.Pt) ∈ pts g st := List.mem_filterMap.mpr ⟨s, hs, by simp [hv]⟩
  exact List.ne_nil_of_mem this

theorem trendInterp_some {f : ℝ → ℝ} {st : List Stn} {t : Target} (hne : st ≠ [])
    (h : ∀ s ∈ st, s.v ≠ none) : ∃ v, trendInterp f st t = some v := by
  unfold trendInterp idwAt
  rw [if_neg (by simpa using pts_ne_nil hne h)]
  exact ⟨_, rfl⟩

/-- With values at all stations, linear trends give a value wherever they do not raise. -/
theorem trended_complete {tr : Trend} {lapse : ℝ} {st : List Stn} {t : Target} {r : Option ℝ}
    (htr : tr = .fixed ∨ tr = .fractional ∨ tr = .regression) (hne : st ≠ []) (h : ∀ s ∈ st, s.v ≠ none)
    (hr : trended tr lapse st t = some r) : r ≠ none := by
  have hvals : vals st ≠ [] := by
    obtain ⟨s, hs⟩ := List.exists_mem_of_ne_nil st hne
    obtain ⟨v, hv⟩ := Option.ne_none_iff_exists'.mp (h s hs)
    exact List.ne_nil_of_mem (List.mem_filterMap.mpr ⟨s, hs, hv⟩)
  rcases htr with rfl | rfl | rfl
  · simp only [trended] at hr
    obtain ⟨v, hv⟩ := trendInterp_some (f := fun z => lapse * z) (t := t) hne h
    rw [hv] at hr
    obtain rfl := Option.some.inj hr
    simp
  · simp only [trended] at hr
    obtain ⟨v, hv⟩ := trendInterp_some (f := fun z => lapse * mean (vals st) * z) (t := t) hne h
    rw [if_neg hvals, hv] at hr
    obtain rfl := Option.some.inj hr
    simp
  · simp only [trended] at hr
    rw [if_neg (by rintro ⟨s, hs, e⟩; exact h s hs e), Option.map_eq_some_iff] at hr
    obtain ⟨k, -, rfl⟩ := hr
    obtain ⟨v, hv⟩ := trendInterp_some (f := fun z => k * z) (t := t) hne h
    rw [hv]
    simp

theorem interpPlain_complete {p : Param} (hp : p ≠ .relHum) {s : Settings} {get : Rec → Option ℝ}
    {src : List Rec} {r : Rec} {v : Option ℝ}
    (htr : s.trend = .fixed ∨ s.trend = .fractional ∨ s.trend = .regression) (hne : src ≠ [])
    (h : ∀ q ∈ src, get q ≠ none) (hv : interpPlain p s get src r = some v) : v ≠ none := by
  simp only [interpPlain, interpolate, if_neg hp, List.length_map] at hv
  rw [if_neg (by simpa using hne), Option.map_eq_some_iff] at hv
  obtain ⟨w, hw, rfl⟩ := hv
  have := trended_complete htr (by simpa using hne) (by
    intro q hq
    obtain ⟨q', hq', rfl⟩ := List.mem_map.mp hq
    exact h q' hq') hw
  simpa using this

/-- One segment: the piecewise method becomes the regression. -/
theorem oneSegment_linear {s : Settings} (h : s.trend ≠ .adjustment) :
    (oneSegment s).trend = .fixed ∨ (oneSegment s).trend = .fractional ∨
      (oneSegment s).trend = .regression := by
  unfold oneSegment
  cases e : s.trend <;> simp_all

/-- A filled variable has values everywhere if every interpolation gives one. -/
theorem fillVar_complete {get : Rec → Option ℝ} {set : Rec → Option ℝ → Rec}
    {f : List Rec → Rec → Option (Option ℝ)} {rs rs' : List Rec} (h : fillVar get set f rs = some rs')
    (hset : ∀ r v, get (set r v) = v) (hex : ∃ q ∈ rs, (get q).isSome)
    (hf : ∀ r ∈ rs, ∀ v, get r = none → f (rs.filter fun q => (get q).isSome) r = some v → v ≠ none) :
    ∀ r' ∈ rs', get r' ≠ none := by
  obtain ⟨hl, hs⟩ := fillVar_spec h
  intro r' hr'
  obtain ⟨i, hi⟩ := List.getElem?_of_mem hr'
  obtain ⟨r, hr⟩ := getElem?_total hl hi
  obtain ⟨a, ha, e1, -, e3⟩ := hs i r hr
  obtain rfl : r' = a := by rw [hi] at ha; exact Option.some.inj ha
  cases hg : get r with
  | some v =>
    rw [e1 (by simp [hg]), hg]
    simp
  | none =>
    obtain ⟨v, hv, rfl⟩ := e3 hg hex
    rw [hset]
    exact hf r (List.mem_of_getElem? hr) v hg hv

theorem filter_src {get : Rec → Option ℝ} {rs : List Rec} (hex : ∃ q ∈ rs, (get q).isSome) :
    (rs.filter fun q => (get q).isSome) ≠ [] ∧ ∀ q ∈ rs.filter fun q => (get q).isSome, get q ≠ none := by
  obtain ⟨q, hq, hs⟩ := hex
  refine ⟨List.ne_nil_of_mem (List.mem_filter.mpr ⟨hq, hs⟩), ?_⟩
  intro p hp
  exact Option.isSome_iff_ne_none.mp (by simpa using (List.mem_filter.mp hp).2)

/-- **C99 (completeness, temperature).** If any station has a temperature, all have one afterwards,
whatever trend but the adjustment factor is configured (piecewise regression included). -/
theorem C99_temp (c : Config) (rs rs' : List Rec) (h : fillDate c rs = some rs')
    (htr : c.temp.trend ≠ .adjustment) (hex : ∃ q ∈ rs, q.temp ≠ none) : ∀ r' ∈ rs', r'.temp ≠ none := by
  obtain ⟨r1, r2, h1, h2, h3⟩ := fillDate_steps h
  have hex' : ∃ q ∈ rs, q.temp.isSome := by
    obtain ⟨q, hq, hs⟩ := hex
    exact ⟨q, hq, Option.isSome_iff_ne_none.mpr hs⟩
  have hcomp := fillVar_complete h1 (fun _ _ => rfl) hex' fun r _ v _ hv =>
    interpPlain_complete (by decide) (oneSegment_linear htr) (filter_src hex').1 (filter_src hex').2 hv
  intro r' hr'
  obtain ⟨i, hi⟩ := List.getElem?_of_mem hr'
  obtain ⟨b, hb⟩ := getElem?_total (fillVar_spec h3).1 hi
  obtain ⟨a, ha⟩ := getElem?_total (fillVar_spec h2).1 hb
  obtain ⟨b', hb', eb⟩ := fillVar_frame h2 i a ha
  obtain rfl : b = b' := by rw [hb] at hb'; exact Option.some.inj hb'
  obtain ⟨d, hd, ed⟩ := fillVar_frame h3 i b hb
  obtain rfl : r' = d := by rw [hi] at hd; exact Option.some.inj hd
  have := hcomp a (List.mem_of_getElem? ha)
  rcases eb with rfl | ⟨_, vb, rfl⟩ <;> rcases ed with rfl | ⟨_, vd, rfl⟩ <;> exact this

/-- **C99 (completeness, wind).** If any station has a wind speed, all have one afterwards (with a
linear trend). -/
theorem C99_wind (c : Config) (rs rs' : List Rec) (h : fillDate c rs = some rs')
    (htr : c.wind.trend = .fixed ∨ c.wind.trend = .fractional ∨ c.wind.trend = .regression)
    (hex : ∃ q ∈ rs, q.wind ≠ none) : ∀ r' ∈ rs', r'.wind ≠ none := by
  obtain ⟨r1, r2, h1, h2, h3⟩ := fillDate_steps h
  have hex' : ∃ q ∈ r2, q.wind.isSome := by
    obtain ⟨q, hq, hs⟩ := hex
    obtain ⟨i, hi⟩ := List.getElem?_of_mem hq
    obtain ⟨a, ha, ea⟩ := fillVar_frame h1 i q hi
    obtain ⟨b, hb, eb⟩ := fillVar_frame h2 i a ha
    refine ⟨b, List.mem_of_getElem? hb, Option.isSome_iff_ne_none.mpr ?_⟩
    rcases ea with rfl | ⟨_, va, rfl⟩ <;> rcases eb with rfl | ⟨_, vb, rfl⟩ <;> exact hs
  exact fillVar_complete h3 (fun _ _ => rfl) hex' fun r _ v _ hv =>
    interpPlain_complete (by decide) htr (filter_src hex').1 (filter_src hex').2 hv

/-- The dates: a date without precipitation at any station is left as it is, the others are filled. -/
theorem C99_dates (ds : List (Config × List Rec)) (out : List (List Rec)) (h : fillAll ds = some out) :
    out.length = ds.length ∧ ∀ (i : Nat) (c : Config) (rs : List Rec), ds[i]? = some (c, rs) →
      ((∀ r ∈ rs, ∀ p, r.precip = some p → p ≤ 0) → out[i]? = some rs) ∧
      ((∃ r ∈ rs, ∃ p, r.precip = some p ∧ 0 < p) → out[i]? = fillDate c rs ∧ (fillDate c rs).isSome) := by
  obtain ⟨h1, h2⟩ := mapM_some _ _ _ h
  refine ⟨h1, ?_⟩
  intro i c rs hi
  obtain ⟨b, hb, e⟩ := h2 i _ hi
  constructor
  · intro hdry
    have : wet rs = false := by
      simp only [wet, List.any_eq_false, decide_eq_true_eq, not_exists, not_and, gt_iff_lt, not_lt]
      intro r hr p hp
      exact hdry r hr p hp
    simp only [this] at e
    rw [hb, ← e]
    rfl
  · rintro ⟨r, hr, p, hp, hpos⟩
    have : wet rs = true := by
      simp only [wet, List.any_eq_true, decide_eq_true_eq]
      exact ⟨r, hr, p, hp, hpos⟩
    simp only [this, if_true] at e
    rw [hb, e]
    simp

/-! ## Values -/

/-- Coordinates and one variable. -/
def proj (get : Rec → Option ℝ) (r : Rec) : (ℝ × ℝ × ℝ) × Option ℝ := ((r.x, r.y, r.z), get r)

/-- The stations with a value of the variable, as sources of the interpolation. -/
def sources (get : Rec → Option ℝ) (rs : List Rec) : List Stn :=
  rs.filterMap fun q => (get q).map fun v => ⟨q.x, q.y, q.z, some v, 0⟩

theorem sources_congr {get : Rec → Option ℝ} {rs qs : List Rec} (h : rs.map (proj get) = qs.map (proj get)) :
    sources get rs = sources get qs := by
  have e : ∀ l : List Rec, sources get l =
      (l.map (proj get)).filterMap fun q => q.2.map fun v => ⟨q.1.1, q.1.2.1, q.1.2.2, some v, 0⟩ := by
    intro l
    rw [List.filterMap_map]
    rfl
  rw [e, e, h]

theorem map_filter_sources (get : Rec → Option ℝ) (rs : List Rec) :
    ((rs.filter fun q => (get q).isSome).map fun q => (⟨q.x, q.y, q.z, get q, 0⟩ : Stn)) = sources get rs := by
  induction rs with
  | nil => rfl
  | cons a t ih =>
    simp only [sources, List.filterMap_cons, List.filter_cons] at ih ⊢
    cases hg : get a with
    | none => simpa [hg] using ih
    | some v => simpa [hg] using ih

/-- A step that does not touch a variable or the coordinates keeps their projection. -/
theorem fillVar_proj {get get' : Rec → Option ℝ} {set : Rec → Option ℝ → Rec}
    {f : List Rec → Rec → Option (Option ℝ)} {rs rs' : List Rec} (h : fillVar get set f rs = some rs')
    (hp : ∀ r v, proj get' (set r v) = proj get' r) : rs'.map (proj get') = rs.map (proj get') := by
  apply List.ext_getElem?
  intro i
  rw [List.getElem?_map, List.getElem?_map]
  cases hr : rs[i]? with
  | none =>
    have : rs'[i]? = none := by
      rw [List.getElem?_eq_none_iff] at hr ⊢
      rw [(fillVar_spec h).1]
      exact hr
    rw [this]
  | some r =>
    obtain ⟨r', hr', e⟩ := fillVar_frame h i r hr
    rw [hr']
    rcases e with rfl | ⟨_, v, rfl⟩
    · rfl
    · simp [hp]

theorem proj_getElem {get : Rec → Option ℝ} {rs qs : List Rec} (h : rs.map (proj get) = qs.map (proj get))
    {i : Nat} {r q : Rec} (hr : rs[i]? = some r) (hq : qs[i]? = some q) : proj get r = proj get q := by
  have : (rs.map (proj get))[i]? = (qs.map (proj get))[i]? := by rw [h]
  rw [List.getElem?_map, List.getElem?_map, hr, hq] at this
  exact Option.some.inj this

/-- **C99 (values).** A missing temperature (wind speed) is filled, if the variable is measured anywhere
on this date, with the interpolation from exactly the stations that measured it, whatever the other
variables are; for temperature with one linear segment. -/
theorem C99_values (c : Config) (rs rs' : List Rec) (h : fillDate c rs = some rs') (i : Nat) (r r' : Rec)
    (hr : rs[i]? = some r) (hr' : rs'[i]? = some r') :
    (r.temp = none → (∃ q ∈ rs, q.temp ≠ none) →
      interpolate .temp (match c.temp.trend with | .piecewise _ => .regression | t => t) c.temp.lapse
        c.temp.extrapolate (sources Rec.temp rs) ⟨r.x, r.y, r.z, 0⟩ = some r'.temp) ∧
    (r.wind = none → (∃ q ∈ rs, q.wind ≠ none) →
      interpolate .windSpeed c.wind.trend c.wind.lapse
        c.wind.extrapolate (sources Rec.wind rs) ⟨r.x, r.y, r.z, 0⟩ = some r'.wind) := by
  obtain ⟨r1, r2, h1, h2, h3⟩ := fillDate_steps h
  obtain ⟨a, ha⟩ := getElem?_total (fillVar_spec h1).1.symm hr
  obtain ⟨b, hb⟩ := getElem?_total (fillVar_spec h2).1.symm ha
  constructor
  · intro hn hex
    have e2 := proj_getElem (fillVar_proj (get' := Rec.temp) h2 fun _ _ => rfl) hb ha
    have e3 := proj_getElem (fillVar_proj (get' := Rec.temp) h3 fun _ _ => rfl) hr' hb
    obtain ⟨a', ha', -, -, e⟩ := (fillVar_spec h1).2 i r hr
    obtain rfl : a = a' := by rw [ha] at ha'; exact Option.some.inj ha'
    obtain ⟨v, hv, rfl⟩ := e hn (by
      obtain ⟨q, hq, hs⟩ := hex
      exact ⟨q, hq, Option.isSome_iff_ne_none.mpr hs⟩)
    have ht : r'.temp = v := by
      have := congrArg Prod.snd (e3.trans e2)
      simpa [proj] using this
    rw [ht, ← hv]
    simp only [interpPlain, map_filter_sources]
    rfl
  · intro hn hex
    have q1 := fillVar_proj (get' := Rec.wind) h1 fun _ _ => rfl
    have q2 := fillVar_proj (get' := Rec.wind) h2 fun _ _ => rfl
    have e1 := proj_getElem (q2.trans q1) hb hr
    obtain ⟨d, hd, -, -, e⟩ := (fillVar_spec h3).2 i b hb
    obtain rfl : r' = d := by rw [hr'] at hd; exact Option.some.inj hd
    have hw : b.wind = r.wind := by simpa [proj] using congrArg Prod.snd e1
    have hx : (b.x, b.y, b.z) = (r.x, r.y, r.z) := congrArg Prod.fst e1
    simp only [Prod.mk.injEq] at hx
    obtain ⟨v, hv, rfl⟩ := e (hw.trans hn) (by
      obtain ⟨q, hq, hs⟩ := hex
      obtain ⟨j, hj⟩ := List.getElem?_of_mem hq
      obtain ⟨p1, hp1⟩ := getElem?_total (fillVar_spec h1).1.symm hj
      obtain ⟨p, hp⟩ := getElem?_total (fillVar_spec h2).1.symm hp1
      refine ⟨p, List.mem_of_getElem? hp, Option.isSome_iff_ne_none.mpr ?_⟩
      have := congrArg Prod.snd (proj_getElem (q2.trans q1) hp hj)
      simp only [proj] at this
      rwa [this])
    show _ = some v
    rw [← hv, ← sources_congr (q2.trans q1), ← hx.1, ← hx.2.1, ← hx.2.2]
    simp only [interpPlain, map_filter_sources]

/-! ## Humidity -/

/-- Specification: the distance-weighted mean elevation of the stations, as seen from a target. -/
def MeanElevation (st : List Stn) (t : Target) (z : ℝ) : Prop :=
  Verif.MeteoInterp.idwAt (st.map fun s => ⟨s.x, s.y, s.z⟩) t = some z

/-- Exactly when the trend part gives no value although all stations have one. -/
theorem trended_missing_iff {tr : Trend} {lapse : ℝ} {st : List Stn} {t : Target} {r : Option ℝ}
    (hne : st ≠ []) (h : ∀ s ∈ st, s.v ≠ none) (hr : trended tr lapse st t = some r) :
    r = none ↔ (tr = .adjustment ∧ ∃ z, MeanElevation st t z ∧ lapse * (t.z - z) = 1) ∨
      ∃ fit, tr = .piecewise fit ∧ fit (pairs st) = none := by
  cases tr with
  | fixed => simpa using trended_complete (Or.inl rfl) hne h hr
  | fractional => simpa using trended_complete (Or.inr (Or.inl rfl)) hne h hr
  | regression => simpa using trended_complete (Or.inr (Or.inr rfl)) hne h hr
  | piecewise fit =>
    simp only [trended, Option.some.injEq] at hr
    subst hr
    cases hf : fit (pairs st) with
    | none => simp [hf]
    | some g =>
      obtain ⟨v, hv⟩ := trendInterp_some (f := g) (t := t) hne h
      simp [hf, hv]
  | adjustment =>
    simp only [trended, Option.some.injEq] at hr
    subst hr
    have h1 : ∃ v, Verif.MeteoInterp.idwAt (pts (fun _ v => v) st) t = some v := by
      unfold Verif.MeteoInterp.idwAt
      rw [if_neg (by simpa using pts_ne_nil hne h)]
      exact ⟨_, rfl⟩
    have h2 : ∃ z, MeanElevation st t z := by
      unfold MeanElevation Verif.MeteoInterp.idwAt
      rw [if_neg (by simpa using hne)]
      exact ⟨_, rfl⟩
    obtain ⟨v, hv⟩ := h1
    obtain ⟨z, hz⟩ := h2
    have hz' := hz
    unfold MeanElevation at hz'
    rw [hv, Option.bind_some, hz', Option.bind_some, Option.map_eq_none_iff]
    unfold Verif.MeteoInterp.factor
    constructor
    · intro hn
      left
      refine ⟨rfl, z, hz, ?_⟩
      by_contra hc
      rw [if_neg (by intro h0; apply hc; linarith)] at hn
      simp at hn
    · rintro (⟨-, z', hz2, h1⟩ | ⟨fit, h1, -⟩)
      · unfold MeanElevation at hz2
        rw [hz', Option.some.injEq] at hz2
        subst hz2
        rw [if_pos (by linarith)]
      · cases h1

/-- **C99.** Exactly when a missing value stays missing although another station has measured the variable on this
date: with the adjustment factor if lapse rate times height above the (distance-weighted) mean elevation of these
stations is 1, and for wind speed with piecewise regression if the regression fails. -/
theorem C99_missing_iff (c : Config) (rs rs' : List Rec) (h : fillDate c rs = some rs') (i : Nat) (r r' : Rec)
    (hr : rs[i]? = some r) (hr' : rs'[i]? = some r') :
    (r.temp = none → (∃ q ∈ rs, q.temp ≠ none) → (r'.temp = none ↔ c.temp.trend = .adjustment ∧
      ∃ z, MeanElevation (sources Rec.temp rs) ⟨r.x, r.y, r.z, 0⟩ z ∧ c.temp.lapse * (r.z - z) = 1)) ∧
    (r.wind = none → (∃ q ∈ rs, q.wind ≠ none) → (r'.wind = none ↔ (c.wind.trend = .adjustment ∧
      ∃ z, MeanElevation (sources Rec.wind rs) ⟨r.x, r.y, r.z, 0⟩ z ∧ c.wind.lapse * (r.z - z) = 1) ∨
      ∃ fit, c.wind.trend = .piecewise fit ∧ fit (pairs (sources Rec.wind rs)) = none)) := by
  obtain ⟨v1, v2⟩ := C99_values c rs rs' h i r r' hr hr'
  have hsrc : ∀ get : Rec → Option ℝ, (∃ q ∈ rs, get q ≠ none) →
      sources get rs ≠ [] ∧ ∀ s ∈ sources get rs, s.v ≠ none := by
    rintro get ⟨q, hq, hs⟩
    rw [← map_filter_sources]
    have := filter_src (get := get) ⟨q, hq, Option.isSome_iff_ne_none.mpr hs⟩
    refine ⟨by simpa using this.1, ?_⟩
    intro s hs
    obtain ⟨q', hq', rfl⟩ := List.mem_map.mp hs
    exact this.2 q' hq'
  constructor
  · intro hn hex
    obtain ⟨k1, k2⟩ := hsrc _ hex
    have e := v1 hn hex
    simp only [interpolate] at e
    rw [if_neg (by simpa using k1), Option.map_eq_some_iff] at e
    obtain ⟨w, hw, e⟩ := e
    rw [← e]
    have := trended_missing_iff k1 k2 hw
    simp only [reduceCtorEq, if_false, Option.map_eq_none_iff]
    rw [this]
    cases c.temp.trend <;> simp
  · intro hn hex
    obtain ⟨k1, k2⟩ := hsrc _ hex
    have e := v2 hn hex
    simp only [interpolate] at e
    rw [if_neg (by simpa using k1), Option.map_eq_some_iff] at e
    obtain ⟨w, hw, e⟩ := e
    rw [← e]
    have := trended_missing_iff k1 k2 hw
    simpa using this

/-- The stations of a filled date with measured humidity `m` (before filling), with their dew points. -/
noncomputable def dewSources (rs rs' : List Rec) : List Stn :=
  (rs.zip rs').filterMap fun q => q.1.hum.map fun u =>
    ⟨q.2.x, q.2.y, q.2.z, q.2.temp.bind fun t => dewPoint t u, q.2.temp.getD 0⟩

/-- **C99 (completeness, humidity).** Suppose any station has a temperature and any a humidity on this
date, humidities are in (0, 100] and (filled) temperatures above the pole of the Magnus formula (38.97 K).
Then a humidity can only be missing afterwards if the dew point interpolated from the stations with
measured humidity is exactly the pole of the Magnus formula. -/
theorem C99_hum_partial (c : Config) (rs rs' : List Rec) (h : fillDate c rs = some rs')
    (htr : c.temp.trend ≠ .adjustment) (hhr : c.hum.trend ≠ .adjustment)
    (hext : ∃ q ∈ rs, q.temp ≠ none) (hexh : ∃ q ∈ rs, q.hum ≠ none)
    (hwarm : ∀ r' ∈ rs', ∀ t, r'.temp = some t → T0 - 23418 / 100 < t)
    (hrange : ∀ q ∈ rs, ∀ u, q.hum = some u → 0 < u ∧ u ≤ 100)
    (i : Nat) (r' : Rec) (hr' : rs'[i]? = some r') (hmiss : r'.hum = none) :
    trended (oneSegment c.hum).trend c.hum.lapse (dewSources rs rs')
      ⟨r'.x, r'.y, r'.z, r'.temp.getD 0⟩ = some (some (T0 - 23418 / 100)) := by
  have htemps := C99_temp c rs rs' h htr hext
  obtain ⟨r1, r2, h1, h2, h3⟩ := fillDate_steps h
  obtain ⟨b, hb⟩ := getElem?_total (fillVar_spec h3).1 hr'
  obtain ⟨a, ha⟩ := getElem?_total (fillVar_spec h2).1 hb
  have qt2 := fillVar_proj (get' := Rec.temp) h2 fun _ _ => rfl
  have qt3 := fillVar_proj (get' := Rec.temp) h3 fun _ _ => rfl
  have qh1 := fillVar_proj (get' := Rec.hum) h1 fun _ _ => rfl
  have qh3 := fillVar_proj (get' := Rec.hum) h3 fun _ _ => rfl
  have hae : proj Rec.temp r' = proj Rec.temp a := proj_getElem (qt3.trans qt2) hr' ha
  have hbe : proj Rec.hum r' = proj Rec.hum b := proj_getElem qh3 hr' hb
  simp only [proj, Prod.mk.injEq] at hae hbe
  -- the sources of the model
  have hsrc : ((r1.filter fun q => q.hum.isSome).map fun q =>
      (⟨q.x, q.y, q.z, q.temp.bind fun _ => q.hum, q.temp.getD 0⟩ : Stn)) =
      (rs.zip rs').filterMap fun q => q.1.hum.map fun u =>
        ⟨q.2.x, q.2.y, q.2.z, q.2.temp.bind fun _ => some u, q.2.temp.getD 0⟩ := by
    have hqt := qt3.trans qt2
    clear h htemps hwarm hrange hext hexh h1 h2 h3 ha hb hr' hae hbe qt2 qt3 qh3
    induction rs generalizing r1 rs' with
    | nil =>
      simp at qh1
      subst qh1
      simp
    | cons x xs ih =>
      cases r1 with
      | nil => simp at qh1
      | cons y ys =>
        cases rs' with
        | nil => simp at hqt
        | cons z zs =>
          simp only [List.map_cons, List.cons.injEq] at qh1 hqt
          have := ih zs ys qh1.2 hqt.2
          obtain ⟨p1, -⟩ := qh1
          obtain ⟨p2, -⟩ := hqt
          simp only [proj, Prod.mk.injEq] at p1 p2
          simp only [List.filter_cons, List.zip_cons_cons, List.filterMap_cons]
          rw [← p1.2, p2.1.1, p2.1.2.1, p2.1.2.2, p2.2]
          cases hy : y.hum with
          | none => simpa [hy] using this
          | some u => simpa [hy] using this
  have hdew : toDew ((rs.zip rs').filterMap fun q => q.1.hum.map fun u =>
        (⟨q.2.x, q.2.y, q.2.z, q.2.temp.bind fun _ => some u, q.2.temp.getD 0⟩ : Stn)) = dewSources rs rs' := by
    unfold toDew dewSources
    rw [List.map_filterMap]
    apply List.filterMap_congr
    rintro ⟨q, q'⟩ hq
    have hq' : q' ∈ rs' := (List.of_mem_zip hq).2
    obtain ⟨t, ht⟩ := Option.ne_none_iff_exists'.mp (htemps q' hq')
    cases hu : q.hum with
    | none => simp
    | some u => simp [ht]
  have hdewv : ∀ s ∈ dewSources rs rs', s.v ≠ none := by
    intro s hs
    obtain ⟨⟨q, q'⟩, hq, e⟩ := List.mem_filterMap.mp hs
    have hq' := List.of_mem_zip hq
    obtain ⟨t, ht⟩ := Option.ne_none_iff_exists'.mp (htemps q' hq'.2)
    obtain ⟨u, hu, rfl⟩ := Option.map_eq_some_iff.mp e
    obtain ⟨td, e1, -⟩ := Verif.Atmosphere.C60_dew_point t u (hwarm q' hq'.2 t ht) (hrange q hq'.1 u hu).1
      (hrange q hq'.1 u hu).2
    simp [ht, e1]
  have han : a.hum = none := by
    by_contra hne
    obtain ⟨b', hb', e, -⟩ := (fillVar_spec h2).2 i a ha
    obtain rfl : b = b' := by rw [hb] at hb'; exact Option.some.inj hb'
    have := e (Option.isSome_iff_ne_none.mpr hne)
    rw [this] at hbe
    exact hne (hbe.2 ▸ hmiss)
  have hexr1 : ∃ q ∈ r1, q.hum.isSome := by
    obtain ⟨q, hq, hs⟩ := hexh
    obtain ⟨j, hj⟩ := List.getElem?_of_mem hq
    obtain ⟨p, hp⟩ := getElem?_total (fillVar_spec h1).1.symm hj
    refine ⟨p, List.mem_of_getElem? hp, Option.isSome_iff_ne_none.mpr ?_⟩
    have := congrArg Prod.snd (proj_getElem qh1 hp hj)
    simp only [proj] at this
    rwa [this]
  obtain ⟨b', hb', -, -, e⟩ := (fillVar_spec h2).2 i a ha
  obtain rfl : b = b' := by rw [hb] at hb'; exact Option.some.inj hb'
  obtain ⟨v, hv, rfl⟩ := e han hexr1
  have hvn : v = none := by
    have := hbe.2
    simp only at this
    rw [← this, hmiss]
  subst hvn
  obtain ⟨t, ht⟩ := Option.ne_none_iff_exists'.mp (htemps r' (List.mem_of_getElem? hr'))
  have hat : a.temp = some t := hae.2 ▸ ht
  simp only [interpHum, hat, Option.bind_some] at hv
  rw [Option.map_id', hsrc] at hv
  have hlen : (rs.zip rs').filterMap (fun q => q.1.hum.map fun u =>
        (⟨q.2.x, q.2.y, q.2.z, q.2.temp.bind fun _ => some u, q.2.temp.getD 0⟩ : Stn)) ≠ [] := by
    rw [← hsrc]
    simpa using (filter_src hexr1).1
  have hne : dewSources rs rs' ≠ [] := by
    rw [← hdew]
    unfold toDew
    simpa using hlen
  simp only [interpolate, if_true] at hv
  rw [if_neg (by simpa using hlen), hdew, Option.map_eq_some_iff] at hv
  obtain ⟨w, hw, e2⟩ := hv
  have hwn := trended_complete (oneSegment_linear hhr) hne hdewv hw
  obtain ⟨td, rfl⟩ := Option.ne_none_iff_exists'.mp hwn
  have htp : 0 < Over.water.c + (t - T0) := by
    have := hwarm r' (List.mem_of_getElem? hr') t ht
    simp only [Over.c]
    linarith
  have hpole : td = T0 - 23418 / 100 := by
    by_contra hne'
    have hs : svpOver .water td = some (Over.water.a * Real.exp (Over.water.b * (td - T0) /
        (Over.water.c + (td - T0)))) := by
      simp only [svpOver]
      rw [if_neg]
      simp only [Over.c]
      intro e0
      apply hne'
      linarith
    simp [rhFromDew, hs, Verif.Atmosphere.svpOver_some .water htp] at e2
  rw [hae.1.1, hae.1.2.1, hae.1.2.2, ht]
  simp only [hat, Option.getD_some] at hw ⊢
  rw [← hpole]
  exact hw

/-- Without any temperature no humidity is filled. -/
theorem C99_no_temp (c : Config) (rs rs' : List Rec) (h : fillDate c rs = some rs')
    (hno : ∀ r ∈ rs, r.temp = none) (i : Nat) (r r' : Rec) (hr : rs[i]? = some r) (hr' : rs'[i]? = some r') :
    r'.hum = r.hum := by
  have hall := (C99_all_missing c rs rs' h).1 hno
  obtain ⟨r1, r2, h1, h2, h3⟩ := fillDate_steps h
  obtain ⟨b, hb⟩ := getElem?_total (fillVar_spec h3).1 hr'
  obtain ⟨a, ha⟩ := getElem?_total (fillVar_spec h2).1 hb
  have e1 := congrArg Prod.snd (proj_getElem (fillVar_proj (get' := Rec.hum) h1 fun _ _ => rfl) ha hr)
  have e3 := congrArg Prod.snd (proj_getElem (fillVar_proj (get' := Rec.hum) h3 fun _ _ => rfl) hr' hb)
  have et := congrArg Prod.snd (proj_getElem ((fillVar_proj (get' := Rec.temp) h3 fun _ _ => rfl).trans
    (fillVar_proj (get' := Rec.temp) h2 fun _ _ => rfl)) hr' ha)
  simp only [proj] at e1 e3 et
  have hat : a.temp = none := et ▸ hall r' (List.mem_of_getElem? hr')
  obtain ⟨b', hb', f1, f2, f3⟩ := (fillVar_spec h2).2 i a ha
  obtain rfl : b = b' := by rw [hb] at hb'; exact Option.some.inj hb'
  rw [e3, ← e1]
  cases hg : a.hum with
  | some u => rw [f1 (by simp [hg]), hg]
  | none =>
    by_cases hex : ∃ q ∈ r1, q.hum.isSome
    · obtain ⟨v, hv, rfl⟩ := f3 hg hex
      simp only [interpHum, hat, Option.bind_none] at hv
      obtain ⟨_, -, hv⟩ := Option.map_eq_some_iff.mp hv
      exact hv.symm
    · rw [f2 hg fun q hq => by
        by_contra hne
        exact hex ⟨q, hq, Option.isSome_iff_ne_none.mpr hne⟩, hg]

/-- Two stations without temperature, the first with humidity. -/
noncomputable def dry : List Rec :=
  [⟨0, 0, 1000, none, some 50, some 1, some 1⟩, ⟨1, 0, 2000, none, none, none, some 0⟩]

/-- Fixed trends. -/
noncomputable def plain : Config := ⟨⟨.fixed, -65 / 10000, true⟩, ⟨.fixed, 0, true⟩, ⟨.fixed, 0, true⟩⟩

theorem fillVar_fixed {get : Rec → Option ℝ} {set : Rec → Option ℝ → Rec}
    {f : List Rec → Rec → Option (Option ℝ)} (rs : List Rec) (hf : ∀ src r, f src r ≠ none) :
    ∃ rs', fillVar get set f rs = some rs' := by
  simp only [fillVar]
  split_ifs with hc
  · obtain ⟨g, hg⟩ : ∃ g : List Rec → Rec → Option ℝ, ∀ src r, f src r = some (g src r) :=
      ⟨fun src r => (f src r).get (Option.isSome_iff_ne_none.mpr (hf src r)), fun src r => by simp⟩
    simp only [hg]
    generalize (rs.filter fun q => (get q).isSome) = src
    clear hc
    induction rs with
    | nil => exact ⟨[], rfl⟩
    | cons a t ih =>
      obtain ⟨t', ht⟩ := ih
      simp only [List.mapM_cons, ht]
      by_cases hn : (get a).isNone <;> simp [hn]
  · exact ⟨rs, rfl⟩

/-- Fixed trends never raise. -/
theorem fillDate_plain (rs : List Rec) : ∃ rs', fillDate plain rs = some rs' := by
  have hp : ∀ p (s : Settings) g, s.trend = .fixed → ∀ src r, interpPlain p s g src r ≠ none := by
    intro p s g hs src r
    simp only [interpPlain, interpolate, hs]
    split_ifs <;> simp [trended]
  have hh : ∀ s : Settings, s.trend = .fixed → ∀ src r, interpHum s src r ≠ none := by
    intro s hs src r
    simp only [interpHum, interpolate, hs]
    split_ifs <;> simp [trended]
  obtain ⟨r1, h1⟩ := fillVar_fixed (get := Rec.temp) (set := fun r v => { r with temp := v }) rs
    (hp .temp (oneSegment plain.temp) Rec.temp rfl)
  obtain ⟨r2, h2⟩ := fillVar_fixed (get := Rec.hum) (set := fun r v => { r with hum := v }) r1
    (hh (oneSegment plain.hum) rfl)
  obtain ⟨r3, h3⟩ := fillVar_fixed (get := Rec.wind) (set := fun r v => { r with wind := v }) r2
    (hp .windSpeed plain.wind Rec.wind rfl)
  exact ⟨r3, by rw [fillDate, h1, Option.bind_some, h2, Option.bind_some, h3]⟩

/-- **C99 fails for humidity without temperatures**: on a date with precipitation, one station measures
humidity but it is not available at the other one after filling (its wind speed is). -/
theorem C99_hum_false : ∃ rs', fillAll [(plain, dry)] = some [rs'] ∧ (∃ q ∈ dry, q.hum ≠ none) ∧
    (∃ r' ∈ rs', r'.hum = none) ∧ ∀ r' ∈ rs', r'.wind ≠ none := by
  obtain ⟨rs', h⟩ := fillDate_plain dry
  have hw : wet dry = true := by
    simp only [wet, List.any_eq_true, decide_eq_true_eq]
    exact ⟨_, List.mem_cons_self, 1, rfl, by norm_num⟩
  refine ⟨rs', ?_, ⟨_, List.mem_cons_self, by simp⟩, ?_, ?_⟩
  · simp [fillAll, hw, h]
  · have hl := (C99_kept plain dry rs' h).1
    have h1 : rs'[1]? = some (rs'[1]'(by rw [hl]; decide)) := List.getElem?_eq_getElem _
    refine ⟨_, List.mem_of_getElem? h1, ?_⟩
    have := C99_no_temp plain dry rs' h (by simp [dry]) 1 _ _ rfl h1
    rw [this]
  · exact C99_wind plain dry rs' h (Or.inl rfl) ⟨_, List.mem_cons_self, by simp⟩

/-- Two stations, temperature and humidity at the first, wind at the second. -/
noncomputable def cross : List Rec :=
  [⟨0, 0, 1000, some 280, some 50, none, some 1⟩, ⟨1, 0, 2000, none, none, some 2, some 0⟩]

/-- The hypotheses of the theorems are met: after filling all variables are available at both stations,
the measured ones unchanged. -/
example : ∃ rs', fillDate plain cross = some rs' ∧ (∀ r' ∈ rs', r'.temp ≠ none) ∧ (∀ r' ∈ rs', r'.wind ≠ none) ∧
    ∃ r', rs'[0]? = some r' ∧ r'.temp = some 280 ∧ r'.hum = some 50 := by
  obtain ⟨rs', h⟩ := fillDate_plain cross
  refine ⟨rs', h, C99_temp plain cross rs' h (by simp [plain]) ⟨_, List.mem_cons_self, by simp⟩,
    C99_wind plain cross rs' h (Or.inl rfl) ⟨_, List.mem_cons_of_mem _ List.mem_cons_self, by simp⟩, ?_⟩
  obtain ⟨hl, hk⟩ := C99_kept plain cross rs' h
  have h0 : rs'[0]? = some (rs'[0]'(by rw [hl]; decide)) := List.getElem?_eq_getElem _
  have := hk 0 _ _ rfl h0
  exact ⟨_, h0, this.2.2.2.2.1 280 rfl, this.2.2.2.2.2.1 50 rfl⟩

/-- Two stations with temperature, humidity at the first. -/
noncomputable def humid : List Rec :=
  [⟨0, 0, 1000, some 280, some 50, some 1, some 1⟩, ⟨1, 0, 2000, some 275, none, some 2, some 0⟩]

/-- The hypotheses of `C99_hum_partial` are met, and the humidity is in fact available at both stations:
the dew point interpolated from the only source is that of the first station, which is not the pole. -/
example : ∃ rs', fillDate plain humid = some rs' ∧ ∀ r' ∈ rs', r'.hum ≠ none := by
  obtain ⟨rs', h⟩ := fillDate_plain humid
  refine ⟨rs', h, ?_⟩
  obtain ⟨hl, hk⟩ := C99_kept plain humid rs' h
  obtain ⟨a, b, rfl⟩ : ∃ a b, rs' = [a, b] := by
    match rs', hl with
    | [a, b], _ => exact ⟨a, b, rfl⟩
  have h0 := hk 0 _ _ rfl rfl
  have h1 := hk 1 _ _ rfl rfl
  have ha : a.temp = some 280 := h0.2.2.2.2.1 280 rfl
  have hb : b.temp = some 275 := h1.2.2.2.2.1 275 rfl
  intro r' hr' hn
  obtain ⟨i, hi⟩ := List.getElem?_of_mem hr'
  have := C99_hum_partial plain humid _ h (by simp [plain]) (by simp [plain])
    ⟨_, List.mem_cons_self, by simp⟩ ⟨_, List.mem_cons_self, by simp⟩
    (by
      intro q hq t ht
      simp only [List.mem_cons, List.not_mem_nil, or_false] at hq
      rcases hq with rfl | rfl
      · rw [ha] at ht
        obtain rfl := Option.some.inj ht
        norm_num [T0]
      · rw [hb] at ht
        obtain rfl := Option.some.inj ht
        norm_num [T0])
    (by
      intro q hq u hu
      simp only [humid, List.mem_cons, List.not_mem_nil, or_false] at hq
      rcases hq with rfl | rfl
      · obtain rfl := Option.some.inj hu
        norm_num
      · simp at hu) i r' hi hn
  obtain ⟨td, e1, e2, -⟩ := Verif.Atmosphere.C60_dew_point 280 50 (by norm_num [T0]) (by norm_num) (by norm_num)
  have hsrc : dewSources humid [a, b] = [⟨a.x, a.y, a.z, some td, 280⟩] := by
    simp [dewSources, humid, ha, e1]
  rw [hsrc] at this
  simp only [oneSegment, plain, trended, trendInterp, Option.some.injEq, Option.map_eq_some_iff] at this
  obtain ⟨v, hv, e⟩ := this
  rw [idwAt_const td _ _ (by simp [pts]) (by simp [pts])] at hv
  obtain rfl := Option.some.inj hv
  have e' : td = T0 - 23418 / 100 := by linarith
  rw [e'] at e2
  simp [rhFromDew, svpOver, Over.c] at e2

/-- Adjustment factor for temperature. -/
noncomputable def adjusted : Config := ⟨⟨.adjustment, 1 / 1000, true⟩, ⟨.fixed, 0, true⟩, ⟨.fixed, 0, true⟩⟩

/-- **C99 fails for the adjustment factor**: with a lapse rate of 1/1000 m⁻¹ the temperature of a station 1000 m above the
only station with a measurement stays missing. -/
theorem C99_adjustment_false : ∃ rs', fillDate adjusted cross = some rs' ∧ (∃ q ∈ cross, q.temp ≠ none) ∧
    ∃ r' ∈ rs', r'.temp = none := by
  have hp : ∀ p (s : Settings) g, s.trend = .fixed ∨ s.trend = .adjustment →
      ∀ src r, interpPlain p s g src r ≠ none := by
    intro p s g hs src r
    simp only [interpPlain, interpolate]
    rcases hs with hs | hs <;> rw [hs] <;> split_ifs <;> simp [trended]
  have hh : ∀ s : Settings, s.trend = .fixed → ∀ src r, interpHum s src r ≠ none := by
    intro s hs src r
    simp only [interpHum, interpolate, hs]
    split_ifs <;> simp [trended]
  obtain ⟨r1, h1⟩ := fillVar_fixed (get := Rec.temp) (set := fun r v => { r with temp := v }) cross
    (hp .temp (oneSegment adjusted.temp) Rec.temp (Or.inr rfl))
  obtain ⟨r2, h2⟩ := fillVar_fixed (get := Rec.hum) (set := fun r v => { r with hum := v }) r1
    (hh (oneSegment adjusted.hum) rfl)
  obtain ⟨rs', h3⟩ := fillVar_fixed (get := Rec.wind) (set := fun r v => { r with wind := v }) r2
    (hp .windSpeed adjusted.wind Rec.wind (Or.inl rfl))
  have h : fillDate adjusted cross = some rs' := by rw [fillDate, h1, Option.bind_some, h2, Option.bind_some, h3]
  refine ⟨rs', h, ⟨_, List.mem_cons_self, by simp⟩, ?_⟩
  have hl := (C99_kept adjusted cross rs' h).1
  have hr1 : rs'[1]? = some (rs'[1]'(by rw [hl]; decide)) := List.getElem?_eq_getElem _
  refine ⟨_, List.mem_of_getElem? hr1, ?_⟩
  refine ((C99_missing_iff adjusted cross rs' h 1 _ _ rfl hr1).1 rfl ⟨_, List.mem_cons_self, by simp⟩).mpr
    ⟨rfl, 1000, ?_, ?_⟩
  · refine Verif.MeteoInterp.idwAt_const 1000 _ _ (by simp [sources, cross]) ?_
    simp [sources, cross]
  · norm_num [adjusted]

end Verif.FillStations
