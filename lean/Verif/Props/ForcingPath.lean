import Verif.Model.ForcingPath
import Verif.Props.StationFiles
import Verif.Props.Forcing
import Verif.Props.MeteoFields

/-!
# C118: measured values reach the model fields

From the files of the stations to the fields of a time step (`Model/ForcingPath`).
-/

namespace Verif.ForcingPath

open Verif.StationFiles Verif.Forcing Verif.MeteoInterp
open Verif.MeteoFields (Cfgs Px Fields Exact stationData)

/-! ## Specification -/

/-- The file contains the value `x` of the variable `v` at the date `t`. -/
def Recorded (d : Records) (v : String) (t : ℤ) (x : ℝ) : Prop :=
  ∃ (l : List (Option ℝ)) (k : ℕ), d.vars.lookup v = some l ∧ d.times[k]? = some t ∧ l[k]? = some (some x)

/-- Every date once, every variable with one value per date. -/
def Regular (d : Records) : Prop := d.times.Nodup ∧ ∀ p ∈ d.vars, p.2.length = d.times.length

/-- A trend that gives a station at elevation `z` its own value: a lapse rate, or a regression (which fails if all
stations are at elevation 0, C57). -/
def TrendOk (c : MeteoFields.Cfg) (z : ℝ) : Prop :=
  c.trend = .fixed ∨ c.trend = .fractional ∨ (c.trend = .regression ∧ z ≠ 0)

/-- All stations that measure temperature and humidity at the date have values with a dew point. -/
def Humid (ds : List Records) (t : ℤ) : Prop :=
  ∀ d ∈ ds, ∀ rh T, Recorded d "rel_hum" t rh → Recorded d "temp" t T →
    0 < rh ∧ rh ≤ 100 ∧ Atmosphere.T0 - 23418 / 100 < T

/-- The fields have at the pixel `i` (at elevation `z`) the physically possible values in the records `d`; `ds`
are the records of all files. -/
def Reproduces {ι : Type*} (c : Cfgs) (z : ℝ) (ds : List Records) (d : Records) (t : ℤ) (f : Fields ι) (i : ι) :
    Prop :=
  (∀ v, Recorded d "temp" t v → 0 ≤ v → TrendOk c.temp z → f.temp i = some v ∧
    ∀ rh, Recorded d "rel_hum" t rh → 0 < rh → rh ≤ 100 → Atmosphere.T0 - 23418 / 100 < v →
      c.hum.extrapolate = true → TrendOk c.hum z → (c.hum.trend = .regression → Humid ds t) →
      f.relHum i = some rh) ∧
  (∀ v, Recorded d "precip" t v → 0 ≤ v → TrendOk c.precip z → f.precip i = some v) ∧
  (c.method = .idw → TrendOk c.wind z →
    (∀ v, Recorded d "wind_speed" t v → 1 / 10 ≤ v → f.windSpeed i = some v) ∧
    ∀ v, Recorded d "wind_speed_gust" t v → 1 / 10 ≤ v → f.gust i = some v)

/-! ## Lemmas -/

theorem lookup_map_snd {α β : Type*} (g : α → β) (v : String) (l : List (String × α)) :
    (l.map fun p => (p.1, g p.2)).lookup v = (l.lookup v).map g := by
  induction l with
  | nil => rfl
  | cons p l ih =>
    rw [List.map_cons, List.lookup_cons, List.lookup_cons]
    split
    · rfl
    · exact ih

theorem zip_slice (q : ℤ → Bool) (ts : List ℤ) (vs : List (Option ℝ)) (h : vs.length = ts.length) :
    (ts.filter q).zip (((ts.zip vs).filter fun p => q p.1).map Prod.snd) = (ts.zip vs).filter fun p => q p.1 := by
  induction ts generalizing vs with
  | nil => simp
  | cons t ts ih =>
    cases vs with
    | nil => simp at h
    | cons w vs =>
      have h' : vs.length = ts.length := by simpa using h
      rw [List.zip_cons_cons, List.filter_cons, List.filter_cons]
      cases hq : q t with
      | true => simp only [if_true, List.map_cons, List.zip_cons_cons, ih vs h']
      | false => simpa using ih vs h'

theorem lookup_slice (q : ℤ → Bool) (l : List (ℤ × Option ℝ)) (t : ℤ) (hq : q t = true) :
    (l.filter fun p => q p.1).lookup t = l.lookup t := by
  induction l with
  | nil => rfl
  | cons p l ih =>
    obtain ⟨a, b⟩ := p
    rw [List.filter_cons, List.lookup_cons]
    by_cases e : t = a
    · subst e
      simp [hq]
    · have e' : (t == a) = false := by simpa using e
      rw [e']
      split
      · rw [List.lookup_cons, e']
        exact ih
      · exact ih

/-- The dataset of the records of a file. -/
def raw (d : Records) : Ds ℝ := ⟨"", d.times, d.vars⟩

theorem at_prep {start stop f : ℤ} {d d' : Records} (h : prep start stop f d = some d') (hr : Regular d)
    (name : String) (v : String) (t : ℤ) (h1 : start ≤ t) (h2 : t ≤ stop) :
    (⟨name, d'.times, d'.vars⟩ : Ds ℝ).at v t = (raw d).at v t := by
  unfold prep at h
  split_ifs at h
  rw [Option.some.injEq] at h
  subst h
  have hq : (fun s : ℤ => decide (start ≤ s ∧ s ≤ stop)) t = true := by simpa using ⟨h1, h2⟩
  unfold Ds.at Ds.vals raw
  simp only [lookup_map_snd]
  cases hl : d.vars.lookup v with
  | some l =>
    simp only [Option.map_some, sliceVals]
    rw [zip_slice (fun s : ℤ => decide (start ≤ s ∧ s ≤ stop)) d.times l (hr.2 (v, l) (lookup_mem v _ l hl)),
      lookup_slice (fun s : ℤ => decide (start ≤ s ∧ s ≤ stop)) _ t hq]
  | none =>
    simp only [Option.map_none]
    have key : ∀ ts : List ℤ, (ts.zip (ts.map fun _ => (none : Option ℝ))).lookup t = none ∨
        (ts.zip (ts.map fun _ => (none : Option ℝ))).lookup t = some none := by
      intro ts
      induction ts with
      | nil => exact Or.inl rfl
      | cons a ts ih =>
        rw [List.map_cons, List.zip_cons_cons, List.lookup_cons]
        cases t == a
        · exact ih
        · exact Or.inr rfl
    rcases key d.times with e | e <;>
    rcases key (d.times.filter fun s => decide (start ≤ s ∧ s ≤ stop)) with e' | e' <;> simp only [e, e']

/-- The station with the values recorded at a date. -/
noncomputable def ideal (toGrid : ℝ × ℝ → ℝ × ℝ) (t : ℤ) (l : Loaded ℝ Records) : MeteoFields.Station :=
  ⟨some (toGrid (l.lon, l.lat)).1, some (toGrid (l.lon, l.lat)).2, l.alt, (raw l.data).at "temp" t,
    (raw l.data).at "precip" t, (raw l.data).at "rel_hum" t, (raw l.data).at "wind_speed" t,
    (raw l.data).at "wind_dir" t, (raw l.data).at "wind_speed_gust" t⟩

theorem stationsAt_ideal {name : ℕ → String} {strict : Bool} {start stop f : ℤ} {toGrid : ℝ × ℝ → ℝ × ℝ}
    {ls : List (Loaded ℝ Records)} {t : ℤ} {out : List MeteoFields.Station × Bool}
    (h : stationsAt name strict start stop f toGrid (some ls) t = some out)
    (hreg : ∀ l ∈ ls, Regular l.data ∧ l.data.times ≠ []) :
    out.1 = ls.map (ideal toGrid t) ∧
    ∀ l ∈ ls, ∀ x, l.data.vars.lookup "wind_speed_gust" = some x → out.2 = true := by
  simp only [stationsAt, Option.bind_some, Option.bind_eq_some_iff, Option.map_eq_some_iff] at h
  obtain ⟨c, hc, p, hp, rfl⟩ := h
  have hpt : c.times[p]? = some t := by
    rw [List.idxOf?_eq_some_iff] at hp
    obtain ⟨hlt, e, -⟩ := hp
    rw [List.getElem?_eq_getElem hlt]
    exact congrArg some (by simpa using e)
  have hfil : ((ls.map (dataset name)).filter fun ds => decide (ds.times ≠ [])) = ls.map (dataset name) := by
    rw [List.filter_eq_self]
    intro ds hds
    obtain ⟨l, hl, rfl⟩ := List.mem_map.mp hds
    exact decide_eq_true (hreg l hl).2
  have hrow : ∀ (i : ℕ) (l : Loaded ℝ Records), ls[i]? = some l → ∃ row, c.rows[i]? = some (name l.id, row) ∧
      (∀ v x, allowed v = true → l.data.vars.lookup v = some x → v ∈ c.vars) ∧
      ∀ v, allowed v = true → pick c.vars p row v = (raw l.data).at v t := by
    intro i l hl
    obtain ⟨row, h1, h2, h3⟩ := final_rows strict start stop f (ls.map (dataset name)) c hc
      (by
        intro ds hds
        obtain ⟨l, hl, rfl⟩ := List.mem_map.mp hds
        exact (hreg l hl).1.1)
      (by
        intro ds hds
        obtain ⟨l, hl, rfl⟩ := List.mem_map.mp hds
        exact (hreg l hl).1.2) i (dataset name l) (by rw [hfil, List.getElem?_map, hl]; rfl)
    refine ⟨row, h1, h2, fun v hv => ?_⟩
    have hat : (dataset name l).at v t = (raw l.data).at v t := rfl
    unfold pick
    cases hj : c.vars.idxOf? v with
    | none =>
      rw [List.idxOf?_eq_none_iff] at hj
      have hl' : l.data.vars.lookup v = none := by
        cases e : l.data.vars.lookup v with
        | none => rfl
        | some x => exact absurd (h2 v x hv e) hj
      rw [Option.bind_none]
      cases hx : (raw l.data).at v t with
      | none => rfl
      | some x =>
        obtain ⟨q, k, hq, -⟩ := measured_at (raw l.data) (hreg l (List.mem_of_getElem? hl)).1.1
          (hreg l (List.mem_of_getElem? hl)).1.2 v t x hx
        exact absurd (hq.symm.trans hl') (by simp)
    | some j =>
      rw [List.idxOf?_eq_some_iff] at hj
      obtain ⟨hlt, e, -⟩ := hj
      have hjv : c.vars[j]? = some v := by
        rw [List.getElem?_eq_getElem hlt]
        exact congrArg some (by simpa using e)
      rw [Option.bind_some, h3 j v hjv, Option.bind_some, List.getElem?_map, hpt]
      simp [hat]
  constructor
  · apply List.ext_getElem?
    intro i
    rw [List.getElem?_map]
    cases hl : ls[i]? with
    | none =>
      rw [Option.map_none, List.getElem?_eq_none_iff, List.length_zipWith]
      rw [List.getElem?_eq_none_iff] at hl
      omega
    | some l =>
      obtain ⟨row, h1, -, h3⟩ := hrow i l hl
      rw [Option.map_some, List.getElem?_zipWith, hl, h1]
      simp only [station, ideal, h3 "temp" (by decide), h3 "precip" (by decide), h3 "rel_hum" (by decide),
        h3 "wind_speed" (by decide), h3 "wind_dir" (by decide), h3 "wind_speed_gust" (by decide)]
  · intro l hl x hx
    obtain ⟨i, hi⟩ := List.mem_iff_getElem?.mp hl
    obtain ⟨row, -, h2, -⟩ := hrow i l hi
    exact decide_eq_true (h2 _ x (by decide) hx)

theorem linearFit_some (ps : List (ℝ × ℝ)) (p : ℝ × ℝ) (hp : p ∈ ps) (hz : p.1 ≠ 0) : linearFit ps ≠ none := by
  match ps, hp with
  | [_], _ => simp [linearFit]
  | a :: b :: rest, hp =>
    simp only [linearFit]
    split_ifs with h1 h2
    · exfalso
      rcases List.mem_cons.mp hp with rfl | hp
      · exact hz h2
      · exact hz ((h1 p hp).trans h2)
    · simp
    · simp

theorem stationData_value {a b : MeteoFields.Station → Option ℝ} {sts : List MeteoFields.Station} {q : Stn}
    (hq : q ∈ stationData a b sts) : ∃ s ∈ sts, ∃ v, q.v = some v ∧ a s = some v ∧ b s = some q.temp := by
  unfold stationData at hq
  obtain ⟨s, hs, he⟩ := List.mem_filterMap.mp hq
  unfold MeteoFields.stationRec at he
  split at he
  · rename_i h1 h2 h3 h4 h5
    rw [Option.some.injEq] at he
    subst he
    exact ⟨s, hs, _, rfl, h1, h2⟩
  · simp at he

theorem exact_of_ok {c : MeteoFields.Cfg} {a b : MeteoFields.Station → Option ℝ} {pre post : List MeteoFields.Station}
    {s : MeteoFields.Station} {v w x y z : ℝ} (hv : a s = some v) (hw : b s = some w) (hx : s.x = some x)
    (hy : s.y = some y) (hz : s.alt = some z) (hok : TrendOk c z) : Exact c (stationData a b (pre ++ s :: post)) := by
  rcases hok with h | h | ⟨h, hz0⟩
  · exact MeteoFields.exact_of_lapse c _ (Or.inl h)
  · exact MeteoFields.exact_of_lapse c _ (Or.inr h)
  · unfold Exact
    rw [h]
    refine ⟨by simp, fun q hq => ?_, ?_⟩
    · obtain ⟨-, -, v, e, -⟩ := stationData_value hq
      rw [e]; simp
    · refine linearFit_some _ (z, v) ?_ hz0
      unfold pairs
      rw [List.mem_filterMap]
      refine ⟨⟨x, y, z, some v, w⟩, ?_, rfl⟩
      rw [MeteoFields.stationData_split a b pre post s v w x y z hv hw hx hy hz]
      simp

theorem exact_dew {c : MeteoFields.Cfg} {a b : MeteoFields.Station → Option ℝ} {pre post : List MeteoFields.Station}
    {s : MeteoFields.Station} {v w x y z : ℝ} (hv : a s = some v) (hw : b s = some w) (hx : s.x = some x)
    (hy : s.y = some y) (hz : s.alt = some z) (hok : TrendOk c z)
    (hh : c.trend = .regression → ∀ q ∈ pre ++ s :: post, ∀ rh T, a q = some rh → b q = some T →
      0 < rh ∧ rh ≤ 100 ∧ Atmosphere.T0 - 23418 / 100 < T) :
    Exact c (toDew (stationData a b (pre ++ s :: post))) := by
  rcases hok with h | h | ⟨h, hz0⟩
  · exact MeteoFields.exact_of_lapse c _ (Or.inl h)
  · exact MeteoFields.exact_of_lapse c _ (Or.inr h)
  · have hdew : ∀ q ∈ toDew (stationData a b (pre ++ s :: post)), q.v ≠ none := by
      intro q hq
      unfold toDew at hq
      obtain ⟨q', hq', rfl⟩ := List.mem_map.mp hq
      obtain ⟨s', hs', r, e, e1, e2⟩ := stationData_value hq'
      obtain ⟨h0, h1, hT⟩ := hh h s' hs' r q'.temp e1 e2
      obtain ⟨td, ht, -⟩ := Atmosphere.C60_dew_point q'.temp r hT h0 h1
      simp only [e, Option.bind_some, ht]
      simp
    unfold Exact
    rw [h]
    refine ⟨by simp, hdew, ?_⟩
    have hmem : (⟨x, y, z, (some v).bind fun rh => Atmosphere.dewPoint w rh, w⟩ : Stn) ∈
        toDew (stationData a b (pre ++ s :: post)) := by
      unfold toDew
      rw [MeteoFields.stationData_split a b pre post s v w x y z hv hw hx hy hz]
      simp
    cases hd : (some v).bind fun rh => Atmosphere.dewPoint w rh with
    | none => exact absurd hd (hdew _ hmem)
    | some td =>
      refine linearFit_some _ (z, td) ?_ hz0
      unfold pairs
      rw [List.mem_filterMap]
      exact ⟨_, hmem, by rw [hd]; rfl⟩

theorem recorded_at {d : Records} (hr : Regular d) {v : String} {t : ℤ} {x : ℝ} :
    Recorded d v t x ↔ (raw d).at v t = some x :=
  ⟨fun h => at_measured (raw d) hr.1 v t (some x) h, fun h => measured_at (raw d) hr.1 hr.2 v t x h⟩

theorem regular_prep {start stop f : ℤ} {d d' : Records} (h : prep start stop f d = some d') (hr : Regular d) :
    Regular d' := by
  unfold prep at h
  split_ifs at h
  rw [Option.some.injEq] at h
  subst h
  refine ⟨hr.1.filter _, ?_⟩
  intro p hp
  obtain ⟨p', hp', rfl⟩ := List.mem_map.mp hp
  have hlen := hr.2 p' hp'
  have := congrArg List.length (zip_slice (fun s : ℤ => decide (start ≤ s ∧ s ≤ stop)) d.times p'.2 hlen)
  have e2 : (((d.times.zip p'.2).filter fun p => decide (start ≤ p.1 ∧ p.1 ≤ stop)).map Prod.fst) =
      d.times.filter fun s => decide (start ≤ s ∧ s ≤ stop) := by
    rw [← List.map_fst_zip (l₁ := d.times) (l₂ := p'.2) (by omega), List.filter_map]
    congr 2
    rw [List.map_fst_zip (by omega)]
  have e3 := congrArg List.length e2
  rw [List.length_map] at e3
  simp only [sliceVals, List.length_map]
  exact e3

section
variable {ι : Type*} [DecidableEq ι]

theorem fields_core {name : ℕ → String} {inp : Input} {toGrid : ℝ × ℝ → ℝ × ℝ} {ls : List (Loaded ℝ Records)}
    {c : Cfgs} {px : ι → Px} {roi : List ι} {t : ℤ} {old f : Fields ι}
    (h : fieldsFrom name inp toGrid (some ls) c px roi t old = some f)
    (hreg : ∀ l ∈ ls, Regular l.data ∧ l.data.times ≠ []) (hid : (ls.map Loaded.id).Nodup)
    (l : Loaded ℝ Records) (hl : l ∈ ls) (i : ι) (hi : i ∈ roi) (hx : toGrid (l.lon, l.lat) = ((px i).x, (px i).y))
    (hz : l.alt = some (px i).z)
    (hother : ∀ q ∈ ls, q.id ≠ l.id → toGrid (q.lon, q.lat) ≠ ((px i).x, (px i).y)) :
    Reproduces c (px i).z (ls.map Loaded.data) l.data t f i := by
  simp only [fieldsFrom, Option.bind_eq_some_iff] at h
  obtain ⟨out, ho, h⟩ := h
  obtain ⟨e1, e2⟩ := stationsAt_ideal ho hreg
  obtain ⟨pre, post, rfl⟩ := List.append_of_mem hl
  rw [e1, List.map_append, List.map_cons] at h
  have hd := (hreg l hl).1
  have hpre : ∀ q ∈ pre.map (ideal toGrid t), ¬ (q.x = some (px i).x ∧ q.y = some (px i).y) := by
    intro q hq
    obtain ⟨l', hl', rfl⟩ := List.mem_map.mp hq
    have hne : l'.id ≠ l.id := by
      intro he
      rw [List.map_append, List.nodup_append] at hid
      exact hid.2.2 l'.id (List.mem_map_of_mem hl') l.id (by simp) he
    intro hh
    simp only [ideal, Option.some.injEq] at hh
    exact hother l' (List.mem_append_left _ hl') hne (Prod.ext hh.1 hh.2)
  have gx : (ideal toGrid t l).x = some (px i).x := by simp [ideal, hx]
  have gy : (ideal toGrid t l).y = some (px i).y := by simp [ideal, hx]
  have gz : (ideal toGrid t l).alt = some (px i).z := hz
  obtain ⟨hT, hP, hW⟩ := MeteoFields.C104_station _ px roi _ _ _ old f h i hi gx gy gz hpre
  refine ⟨fun v hv h0 hok => ?_, fun v hv h0 hok => ?_, fun hm hok => ⟨fun v hv h0 => ?_, fun v hv h0 => ?_⟩⟩
  · have hv' : (ideal toGrid t l).temp = some v := (recorded_at hd).mp hv
    obtain ⟨a, b⟩ := hT v hv' h0 (exact_of_ok hv' hv' gx gy gz hok)
    refine ⟨a, fun rh hrh r0 r1 hT0 hex hokh hhum => ?_⟩
    have hrh' : (ideal toGrid t l).relHum = some rh := (recorded_at hd).mp hrh
    refine b rh hrh' r0 r1 hT0 hex (exact_dew hrh' hv' gx gy gz hokh ?_)
    intro hreg' q hq rh' T' hq1 hq2
    rw [← List.map_cons, ← List.map_append] at hq
    obtain ⟨l', hl', rfl⟩ := List.mem_map.mp hq
    exact hhum hreg' l'.data (List.mem_map_of_mem hl') rh' T' ((recorded_at (hreg l' hl').1).mpr hq1)
      ((recorded_at (hreg l' hl').1).mpr hq2)
  · have hv' : (ideal toGrid t l).precip = some v := (recorded_at hd).mp hv
    exact hP v hv' h0 (exact_of_ok hv' hv' gx gy gz hok)
  · have hv' : (ideal toGrid t l).windSpeed = some v := (recorded_at hd).mp hv
    exact (hW hm).1 v hv' h0 (exact_of_ok hv' hv' gx gy gz hok)
  · have hv' : (ideal toGrid t l).gust = some v := (recorded_at hd).mp hv
    exact (hW hm).2 v (e2 l hl _ hv.choose_spec.choose_spec.1) hv' h0 (exact_of_ok hv' hv' gx gy gz hok)

theorem recorded_prep {start stop f : ℤ} {d d' : Records} (h : prep start stop f d = some d') (hr : Regular d)
    {v : String} {t : ℤ} {x : ℝ} (h1 : start ≤ t) (h2 : t ≤ stop) : Recorded d' v t x ↔ Recorded d v t x := by
  rw [recorded_at hr, recorded_at (regular_prep h hr), ← at_prep h hr "" v t h1 h2]
  rfl

/-! ## The property -/

theorem reproduces_prep {c : Cfgs} {z : ℝ} {ds ds' : List Records} {d d' : Records} {start stop fr t : ℤ}
    {f : Fields ι} {i : ι} (hp : prep start stop fr d = some d') (hr : Regular d) (h1 : start ≤ t) (h2 : t ≤ stop)
    (hds : Humid ds t → Humid ds' t) (h : Reproduces c z ds' d' t f i) : Reproduces c z ds d t f i := by
  unfold Reproduces at h ⊢
  simp only [recorded_prep hp hr h1 h2] at h
  obtain ⟨a, b, e⟩ := h
  refine ⟨fun v hv h0 ok => ?_, b, e⟩
  obtain ⟨a1, a2⟩ := a v hv h0 ok
  exact ⟨a1, fun rh q1 q2 q3 q4 q5 q6 q7 => a2 rh q1 q2 q3 q4 q5 q6 fun e => hds (q7 e)⟩

/-- **C118 (netCDF files).** Whenever the fields of a date can be calculated from a set of station files with
distinct identifiers, a station that passes the selection and lies at the centre and elevation of a pixel of the
region of interest, alone at this position, determines the fields of temperature, humidity, precipitation and (with
inverse distance weighting) wind at this pixel: they are the recorded values. -/
theorem C118_netcdf (name : ℕ → String) (inp : Input) (toGrid : ℝ × ℝ → ℝ × ℝ) (files : List (NcFile ℝ Records))
    (c : Cfgs) (px : ι → Px) (roi : List ι) (t : ℤ) (old f : Fields ι)
    (h : fieldsNetcdf name inp toGrid files c px roi t old = some f) (hu : (files.map NcFile.id).Nodup)
    (hreg : ∀ g ∈ files, Regular g.data) (ht : inp.start ≤ t ∧ t ≤ inp.stop) (g : NcFile ℝ Records) (hg : g ∈ files)
    (lon lat : ℝ) (i : ι) (hi : i ∈ roi) (hpos : g.pos = some (lon, lat, (px i).z))
    (hx : toGrid (lon, lat) = ((px i).x, (px i).y))
    (hpass : Passes inp.bounds inp.exclude inp.inclusion g.id ((px i).x, (px i).y))
    (hother : ∀ q ∈ files, q.id ≠ g.id → ∀ lo la al, q.pos = some (lo, la, al) →
      toGrid (lo, la) ≠ ((px i).x, (px i).y)) (hrec : t ∈ g.data.times) :
    Reproduces c (px i).z (files.map NcFile.data) g.data t f i := by
  unfold fieldsNetcdf at h
  cases hls : readNetcdf inp.bounds inp.exclude inp.inclusion inp.strict toGrid (prep inp.start inp.stop inp.f)
      (fun d => d.times.isEmpty) files with
  | none => rw [hls] at h; simp [fieldsFrom, stationsAt] at h
  | some ls =>
    rw [hls] at h
    obtain ⟨hnd, hmem, -⟩ := C113_netcdf _ _ _ _ _ _ _ files hu ls hls
    have hpr : ∃ d', prep inp.start inp.stop inp.f g.data = some d' := by
      rw [← Option.ne_none_iff_exists']
      intro hn
      have := (C113_netcdf_error inp.bounds inp.exclude inp.inclusion inp.strict toGrid
        (prep inp.start inp.stop inp.f) (fun d => d.times.isEmpty) files hu).mpr
        (Or.inr (Or.inr (Or.inr (Or.inr (Or.inl ⟨g, hg, hn, lon, lat, _, hpos, by rw [hx]; exact hpass⟩)))))
      rw [hls] at this
      cases this
    obtain ⟨d', hd'⟩ := hpr
    have hne : d'.times ≠ [] := by
      have : t ∈ d'.times := by
        unfold prep at hd'
        split_ifs at hd'
        rw [Option.some.injEq] at hd'
        subst hd'
        exact List.mem_filter.mpr ⟨hrec, by simpa using ht⟩
      exact List.ne_nil_of_mem this
    have hl : (⟨g.id, g.name, lon, lat, some (px i).z, d'⟩ : Loaded ℝ Records) ∈ ls :=
      (hmem _).mpr ⟨g, hg, lon, lat, (px i).z, hpos, by rw [hx]; exact hpass, d', hd', by simpa using hne, rfl⟩
    refine reproduces_prep hd' (hreg g hg) ht.1 ht.2 ?_
      (fields_core h ?_ hnd _ hl i hi hx rfl ?_)
    · intro hh d hd rh T h1 h2
      obtain ⟨l, hl, rfl⟩ := List.mem_map.mp hd
      obtain ⟨q, hq, lo, la, al, -, -, d'', hp, -, rfl⟩ := (hmem l).mp hl
      exact hh q.data (List.mem_map_of_mem hq) rh T ((recorded_prep hp (hreg q hq) ht.1 ht.2).mp h1)
        ((recorded_prep hp (hreg q hq) ht.1 ht.2).mp h2)
    · intro l hl
      obtain ⟨q, hq, lo, la, al, -, -, d'', hp, he, rfl⟩ := (hmem l).mp hl
      exact ⟨regular_prep hp (hreg q hq), by simpa using he⟩
    · intro l hl hid
      obtain ⟨q, hq, lo, la, al, hqp, -, d'', hp, he, rfl⟩ := (hmem l).mp hl
      exact hother q hq hid lo la al hqp

/-- The hypotheses can be met: two files with different variables and dates. -/
example (o : Fields Unit) :
    let cfg : MeteoFields.Cfg := ⟨.fixed, 1 / 100, true⟩
    let files : List (NcFile ℝ Records) := [⟨1, some (5, 5, 900), none, ⟨[0, 3600], [("precip", [some 1, none])]⟩⟩,
      ⟨2, some (0, 0, 1000), none, ⟨[0, 3600, 7200], [("temp", [some 270, some 271, none])]⟩⟩]
    ∃ f, fieldsNetcdf (fun _ => "s") ⟨none, none, none, true, 0, 3600, 3600⟩ id files ⟨cfg, cfg, cfg, cfg, .idw, false⟩
      (fun _ : Unit => ⟨0, 0, 1000, 0, 0, 0⟩) [()] 3600 o = some f ∧ f.temp () = some 271 := by
  intro cfg files
  have hex : ∃ f, fieldsNetcdf (fun _ => "s") ⟨none, none, none, true, 0, 3600, 3600⟩ id files
      ⟨cfg, cfg, cfg, cfg, .idw, false⟩ (fun _ : Unit => ⟨0, 0, 1000, 0, 0, 0⟩) [()] 3600 o = some f := by
    have hr : readNetcdf (K := ℝ) none none none true id (prep 0 3600 3600) (fun d => d.times.isEmpty) files =
        some [⟨1, none, 5, 5, some 900, ⟨[0, 3600], [("precip", [some 1, none])]⟩⟩,
          ⟨2, none, 0, 0, some 1000, ⟨[0, 3600], [("temp", [some 270, some 271])]⟩⟩] := by
      simp [readNetcdf, StationFiles.read, ncMeta, files, Stations.applyRules, Stations.kept, Stations.dedup, loadAll, readNc, prep, uniform,
        sliceVals]
    unfold fieldsNetcdf
    rw [hr]
    have ha : ∃ c, assemble true 0 3600 3600 ([(⟨1, none, 5, 5, some 900, ⟨[0, 3600], [("precip", [some 1, none])]⟩⟩ :
        Loaded ℝ Records), ⟨2, none, 0, 0, some 1000, ⟨[0, 3600], [("temp", [some 270, some 271])]⟩⟩].map
        (dataset fun _ => "s")) = some c ∧ c.times = [0, 3600] := by
      simp [assemble, combine, dataset]
    obtain ⟨a, ha, hat⟩ := ha
    have hi : ∀ (sts : List MeteoFields.Station) (b : Bool), ∃ f, MeteoFields.interpolateData
        ⟨cfg, cfg, cfg, cfg, .idw, b⟩ (fun _ : Unit => ⟨0, 0, 1000, 0, 0, 0⟩) [()] sts o = some f := by
      intro sts b
      have h1 : ∀ p st tm, ∃ v, MeteoFields.interpRoi p cfg st (fun _ : Unit => ⟨0, 0, 1000, 0, 0, 0⟩) tm [()] =
          some v := by
        intro p st tm
        have h2 : ∀ tg, ∃ r, interpolate p cfg.trend cfg.lapse cfg.extrapolate st tg = some r := by
          intro tg
          simp only [interpolate, cfg, trended]
          split_ifs <;> exact ⟨_, rfl⟩
        obtain ⟨r, hr⟩ := h2 ⟨0, 0, 1000, (tm ()).getD 0⟩
        refine ⟨[if p = .relHum then (tm ()).bind fun _ => r else r], ?_⟩
        simp only [MeteoFields.interpRoi, List.mapM_cons, List.mapM_nil, hr]
        rfl
      obtain ⟨v1, e1⟩ := h1 .temp (stationData (·.temp) (·.temp) sts) fun _ => none
      obtain ⟨v2, e2⟩ := h1 .precip (stationData (·.precip) (·.precip) sts) fun _ => none
      obtain ⟨v3, e3⟩ := h1 .relHum (stationData (·.relHum) (·.temp) sts) (MeteoFields.assign [()] v1 o.temp)
      obtain ⟨v4, e4⟩ := h1 .windSpeed (stationData (·.windSpeed) (·.windSpeed) sts) fun _ => none
      obtain ⟨v5, e5⟩ := h1 .windSpeed (stationData (·.gust) (·.gust) sts) fun _ => none
      simp only [MeteoFields.interpolateData, e1, e2, e3, e4, e5, Option.bind_some, Option.map_some]
      split_ifs <;> exact ⟨_, rfl⟩
    have hs : ∃ q, stationsAt (fun _ => "s") true 0 3600 3600 id (some [(⟨1, none, 5, 5, some 900,
        ⟨[0, 3600], [("precip", [some 1, none])]⟩⟩ : Loaded ℝ Records),
        ⟨2, none, 0, 0, some 1000, ⟨[0, 3600], [("temp", [some 270, some 271])]⟩⟩]) 3600 = some q := by
      unfold stationsAt
      rw [Option.bind_some, ha, Option.bind_some, hat]
      exact ⟨_, rfl⟩
    obtain ⟨q, hs⟩ := hs
    obtain ⟨f, hf⟩ := hi q.1 q.2
    exact ⟨f, by unfold fieldsFrom; simp only [hs, Option.bind_some]; exact hf⟩
  obtain ⟨f, hf⟩ := hex
  refine ⟨f, hf, ?_⟩
  refine ((C118_netcdf _ _ _ files _ _ _ _ _ f hf (by decide) ?_ (by decide) files[1] (by simp [files]) 0 0 () (by simp)
    rfl rfl (Or.inl ⟨by simp, by simp⟩) ?_ (by simp [files])).1 271 ⟨_, 1, rfl, rfl, rfl⟩ (by norm_num) (Or.inl rfl)).1
  · intro g hg
    simp only [files, List.mem_cons, List.not_mem_nil, or_false] at hg
    rcases hg with rfl | rfl
    · exact ⟨by decide, by simp⟩
    · exact ⟨by decide, by simp⟩
  · intro q hq hne lo la al hp
    simp only [files, List.mem_cons, List.not_mem_nil, or_false] at hq
    rcases hq with rfl | rfl
    · simp only [Option.some.injEq, Prod.mk.injEq] at hp
      obtain ⟨rfl, rfl, rfl⟩ := hp
      simp
    · exact absurd rfl hne

/-- **C118 (csv files).** The same for csv files, if the transformation of grid coordinates to longitude and latitude
can be inverted. -/
theorem C118_csv (name : ℕ → String) (inp : Input) (toGrid toLonLat back : ℝ × ℝ → ℝ × ℝ)
    (hback : ∀ p, back (toLonLat p) = p) (rows : List (CsvRow ℝ)) (files : ℕ → Option Records)
    (c : Cfgs) (px : ι → Px) (roi : List ι) (t : ℤ) (old f : Fields ι)
    (h : fieldsCsv name inp toGrid toLonLat back rows files c px roi t old = some f)
    (hu : (rows.map CsvRow.id).Nodup) (hreg : ∀ r ∈ rows, ∀ d, files r.id = some d → Regular d)
    (ht : inp.start ≤ t ∧ t ≤ inp.stop) (r : CsvRow ℝ) (hr : r ∈ rows) (d : Records) (hd : files r.id = some d)
    (i : ι) (hi : i ∈ roi) (hz : r.alt = (px i).z) (hx : toGrid (r.x, r.y) = ((px i).x, (px i).y))
    (hpass : Passes inp.bounds inp.exclude inp.inclusion r.id ((px i).x, (px i).y))
    (hother : ∀ q ∈ rows, q.id ≠ r.id → toGrid (q.x, q.y) ≠ ((px i).x, (px i).y)) (hrec : t ∈ d.times) :
    Reproduces c (px i).z (rows.filterMap fun q => files q.id) d t f i := by
  unfold fieldsCsv at h
  cases hls : readCsvFiles inp.bounds inp.exclude inp.inclusion inp.strict toGrid toLonLat
      (prep inp.start inp.stop inp.f) (fun d => d.times.isEmpty) (some rows) files with
  | none => rw [hls] at h; simp [fieldsFrom, stationsAt] at h
  | some ls =>
    rw [hls] at h
    obtain ⟨hnd, hmem, -⟩ := C113_csv _ _ _ _ _ _ _ _ rows files hu ls hls
    have hpr : ∃ d', prep inp.start inp.stop inp.f d = some d' := by
      rw [← Option.ne_none_iff_exists']
      intro hn
      have := (C113_csv_error inp.bounds inp.exclude inp.inclusion inp.strict toGrid toLonLat
        (prep inp.start inp.stop inp.f) (fun d => d.times.isEmpty) (some rows) files
        (by rintro _ ⟨⟩; exact hu)).mpr
        (Or.inr ⟨rows, rfl, Or.inr (Or.inr (Or.inr (Or.inl ⟨r, hr, by rw [hx]; exact hpass, by
          intro d1 hd1
          rw [hd, Option.some.injEq] at hd1
          subst hd1
          exact hn⟩)))⟩)
      rw [hls] at this
      cases this
    obtain ⟨d', hd'⟩ := hpr
    have hne : d'.times ≠ [] := by
      have : t ∈ d'.times := by
        unfold prep at hd'
        split_ifs at hd'
        rw [Option.some.injEq] at hd'
        subst hd'
        exact List.mem_filter.mpr ⟨hrec, by simpa using ht⟩
      exact List.ne_nil_of_mem this
    have hl : (⟨r.id, some r.name, (toLonLat (toGrid (r.x, r.y))).1, (toLonLat (toGrid (r.x, r.y))).2,
        some r.alt, d'⟩ : Loaded ℝ Records) ∈ ls :=
      (hmem _).mpr ⟨r, hr, by rw [hx]; exact hpass, d, d', hd, hd', by simpa using hne, rfl⟩
    refine reproduces_prep hd' (hreg r hr d hd) ht.1 ht.2 ?_
      (fields_core h ?_ hnd _ hl i hi ?_ (congrArg some hz) ?_)
    · intro hh e he rh T h1 h2
      obtain ⟨l, hl, rfl⟩ := List.mem_map.mp he
      obtain ⟨q, hq, hps, d1, d2, hf, hp, -, rfl⟩ := (hmem l).mp hl
      exact hh d1 (List.mem_filterMap.mpr ⟨q, hq, hf⟩) rh T
        ((recorded_prep hp (hreg q hq d1 hf) ht.1 ht.2).mp h1)
        ((recorded_prep hp (hreg q hq d1 hf) ht.1 ht.2).mp h2)
    · intro l hl
      obtain ⟨q, hq, hps, d1, d2, hf, hp, he, rfl⟩ := (hmem l).mp hl
      exact ⟨regular_prep hp (hreg q hq d1 hf), by simpa using he⟩
    · change back (toLonLat (toGrid (r.x, r.y))) = _
      rw [hback, hx]
    · intro l hl hid
      obtain ⟨q, hq, hps, d1, d2, hf, hp, he, rfl⟩ := (hmem l).mp hl
      change back (toLonLat (toGrid (q.x, q.y))) ≠ _
      rw [hback]
      exact hother q hq hid

end

end Verif.ForcingPath
