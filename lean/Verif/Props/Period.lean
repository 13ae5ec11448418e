import Verif.Props.ForcingPath
import Verif.Props.PrecipTable

/-!
# C140: the simulation period does not change the forcing of a date
-/

namespace Verif.MeteoFields

variable {ι : Type*} [DecidableEq ι]

open Verif.MeteoInterp

/-- Two sets of stations with the same complete measurements. -/
def SameData (st st' : List Station) : Prop := ∀ a b : Station → Option ℝ,
  (a, b) ∈ ([(Station.temp, Station.temp), (Station.precip, Station.precip), (Station.relHum, Station.temp),
    (Station.windSpeed, Station.windSpeed), (Station.gust, Station.gust), (Station.windSpeed, Station.windDir),
    (Station.gust, Station.windDir)] : List ((Station → Option ℝ) × (Station → Option ℝ))) →
    stationData a b st = stationData a b st'

theorem interpolateData_same {st st' : List Station} (h : SameData st st') (c : Cfgs) (px : ι → Px) (roi : List ι)
    (old : Fields ι) : interpolateData c px roi st old = interpolateData c px roi st' old := by
  have h1 := h Station.temp Station.temp (by simp)
  have h2 := h Station.precip Station.precip (by simp)
  have h3 := h Station.relHum Station.temp (by simp)
  have h4 := h Station.windSpeed Station.windSpeed (by simp)
  have h5 := h Station.gust Station.gust (by simp)
  have h6 := h Station.windSpeed Station.windDir (by simp)
  have h7 := h Station.gust Station.windDir (by simp)
  unfold interpolateData
  simp only [h1, h2, h3, h4, h5, h6, h7]

theorem listonOpt_none (sw cw : ℝ) (cells : List (Option Cell)) (h : ∀ c ∈ cells, c = none) :
    ∀ o ∈ listonOpt sw cw cells, o = none := by
  intro o ho
  unfold listonOpt at ho
  split at ho
  · obtain ⟨_, -, rfl⟩ := List.mem_map.mp ho
    rfl
  · obtain ⟨k, hk⟩ := List.mem_iff_getElem?.mp ho
    rw [List.getElem?_zipWith] at hk
    cases hc : cells[k]? with
    | none => simp [hc] at hk
    | some c =>
      rw [hc, h c (List.mem_of_getElem? hc)] at hk
      split at hk
      · rename_i h1 h2
        simp only [Option.some.injEq] at h1 hk
        subst h1
        exact hk.symm
      · simp at hk

theorem interpolate_nil {p : Param} (hp : p ≠ .precip) (tr : Trend) (lapse : ℝ) (e : Bool) (t : Target) :
    interpolate p tr lapse e [] t = some none := by
  simp [interpolate, hp]

theorem interpRoi_nil {p : Param} (hp : p ≠ .precip) {c : Cfg} {px : ι → Px} {temp : ι → Option ℝ} {roi : List ι}
    {w : List (Option ℝ)} (h : interpRoi p c [] px temp roi = some w) : ∀ o ∈ w, o = none := by
  intro o ho
  obtain ⟨k, hk⟩ := List.mem_iff_getElem?.mp ho
  obtain ⟨hl, hv⟩ := mapM_spec _ _ _ h
  have hlt : k < roi.length := by
    rw [← hl]
    exact (List.getElem?_eq_some_iff.mp hk).1
  obtain ⟨b, hb, e⟩ := hv k roi[k] (List.getElem?_eq_getElem hlt)
  rw [hk, Option.some.injEq] at hb
  subst hb
  rw [interpolate_nil hp] at e
  simp only [Option.map_some, Option.some.injEq] at e
  rw [← e]
  split <;> simp

theorem listonRoi_nil {c : Cfg} {sw cw : ℝ} {px : ι → Px} {roi : List ι} {w : List (Option (ℝ × ℝ))}
    (h : listonRoi c sw cw [] px roi = some w) : ∀ o ∈ w, o = none := by
  simp only [listonRoi, List.map_nil] at h
  split at h
  · rename_i u v hu hv
    rw [Option.some.injEq] at h
    subst h
    apply listonOpt_none
    intro q hq
    obtain ⟨k, hk⟩ := List.mem_iff_getElem?.mp hq
    rw [List.getElem?_zipWith_eq_some] at hk
    obtain ⟨i, uv, -, h2, rfl⟩ := hk
    have hm := List.mem_of_getElem? h2
    obtain ⟨a, b⟩ := uv
    have ha := interpRoi_nil (by decide) hu a (List.of_mem_zip hm).1
    subst ha
    rfl
  · exact absurd h (by simp)

theorem assign_none {roi : List ι} {w : List (Option ℝ)} (hl : w.length = roi.length) (h : ∀ o ∈ w, o = none) (old : ι → Option ℝ)
    (i : ι) (hi : i ∈ roi) : assign roi w old i = none := by
  obtain ⟨k, v, -, h2, h3⟩ := assign_inside roi w hl i hi
  rw [h3]
  exact h v (List.mem_of_getElem? h2)

/-- Without measurements of gusts they are missing. -/
theorem gust_none {c : Cfgs} {px : ι → Px} {roi : List ι} {st : List Station} {o f : Fields ι}
    (h : interpolateData c px roi st o = some f) (hg : c.hasGusts = true)
    (h1 : stationData (·.gust) (·.gust) st = []) (h2 : stationData (·.gust) (·.windDir) st = []) (i : ι)
    (hi : i ∈ roi) : f.gust i = none := by
  obtain ⟨-, -, -, hw⟩ := data_some h
  rcases hw with ⟨-, -, -, ⟨hf, -⟩ | ⟨-, g, hgu, e⟩⟩ | ⟨sw, cw, -, -, ⟨hf, -⟩ | ⟨-, g, hgu, e⟩⟩
  · rw [hf] at hg
    cases hg
  · rw [h1] at hgu
    rw [e]
    exact assign_none (interpRoi_length hgu) (interpRoi_nil (by decide) hgu) _ i hi
  · rw [hf] at hg
    cases hg
  · rw [h2] at hgu
    rw [e]
    refine assign_none (by rw [List.length_map, listonRoi_length hgu]) ?_ _ i hi
    intro x hx
    obtain ⟨y, hy, rfl⟩ := List.mem_map.mp hx
    rw [listonRoi_nil hgu y hy]
    rfl

/-- The flag for gusts has an effect on the gusts only. -/
theorem interpolateData_flag {c : Cfgs} {px : ι → Px} {roi : List ι} {st : List Station} {o f g : Fields ι}
    (hf : interpolateData { c with hasGusts := true } px roi st o = some f)
    (hg : interpolateData { c with hasGusts := false } px roi st o = some g) :
    f.temp = g.temp ∧ f.precip = g.precip ∧ f.relHum = g.relHum ∧ f.windSpeed = g.windSpeed ∧ f.windDir = g.windDir ∧
    g.gust = o.gust := by
  simp only [interpolateData, Option.bind_eq_some_iff] at hf hg
  obtain ⟨t, ht, p, hp, r, hr, hf⟩ := hf
  obtain ⟨t', ht', p', hp', r', hr', hg⟩ := hg
  rw [ht, Option.some.injEq] at ht'
  subst ht'
  rw [hp, Option.some.injEq] at hp'
  subst hp'
  rw [hr, Option.some.injEq] at hr'
  subst hr'
  cases hm : c.method with
  | idw =>
    simp only [hm, Option.bind_eq_some_iff, if_true, Bool.false_eq_true, if_false, Option.map_eq_some_iff,
      Option.some.injEq] at hf hg
    obtain ⟨w, hw, q, hq, rfl⟩ := hf
    obtain ⟨w', hw', rfl⟩ := hg
    rw [hw, Option.some.injEq] at hw'
    subst hw'
    exact ⟨rfl, rfl, rfl, rfl, rfl, rfl⟩
  | liston sw cw =>
    simp only [hm, Option.bind_eq_some_iff, if_true, Bool.false_eq_true, if_false, Option.map_eq_some_iff,
      Option.some.injEq] at hf hg
    obtain ⟨w, hw, q, hq, rfl⟩ := hf
    obtain ⟨w', hw', rfl⟩ := hg
    rw [hw, Option.some.injEq] at hw'
    subst hw'
    exact ⟨rfl, rfl, rfl, rfl, rfl, rfl⟩
  | other => simp [hm] at hf

end Verif.MeteoFields

namespace Verif.ForcingPath

open Verif.StationFiles Verif.Forcing Verif.MeteoInterp
open Verif.MeteoFields (Cfgs Px Fields stationData SameData Station)

/-- What a station contributes. -/
theorem loadAll_eq {K D : Type*} {readOne : Stations.Station K → Option (Loaded K D)} {prep : D → Option D} {isEmpty : D → Bool} :
    ∀ (sel : List (Stations.Station K)) (ls : List (Loaded K D)), loadAll readOne prep isEmpty sel = some ls →
      ls = sel.filterMap (fun s => (readOne s).bind fun l => (prep l.data).bind fun d =>
        if isEmpty d then none else some { l with data := d }) ∧
      ∀ s ∈ sel, ∃ l d, readOne s = some l ∧ prep l.data = some d := by
  intro sel
  induction sel with
  | nil =>
    intro ls h
    simp only [loadAll, Option.some.injEq] at h
    subst h
    simp
  | cons s ss ih =>
    intro ls h
    rw [loadAll] at h
    cases hr : readOne s with
    | none => simp [hr] at h
    | some l =>
      cases hp : prep l.data with
      | none => simp [hr, hp] at h
      | some d =>
        cases hl : loadAll readOne prep isEmpty ss with
        | none => simp [hr, hp, hl] at h
        | some rest =>
          simp only [hr, hp, hl] at h
          obtain ⟨e1, e2⟩ := ih rest hl
          refine ⟨?_, ?_⟩
          · rw [List.filterMap_cons, ← e1]
            simp only [hr, hp, Option.bind_some]
            by_cases he : isEmpty d = true
            · rw [if_pos he] at h ⊢
              simp at h
              exact h.symm
            · rw [if_neg he] at h ⊢
              simp at h
              exact h.symm
          · intro q hq
            rcases List.mem_cons.mp hq with rfl | hq
            · exact ⟨l, d, hr, hp⟩
            · exact e2 q hq

/-- The selection of the stations does not depend on the period. -/
theorem read_loadAll {K D : Type*} [LinearOrder K] {b : Option (Stations.Bounds K)} {ex inc : Option (List ℕ)} {st1 st2 : Bool}
    {readOne : Stations.Station K → Option (Loaded K D)} {p1 p2 : D → Option D} {isEmpty : D → Bool}
    {table : Option (List (Stations.Station K))} {l1 l2 : List (Loaded K D)}
    (h1 : StationFiles.read b ex inc st1 readOne p1 isEmpty table = some l1) (h2 : StationFiles.read b ex inc st2 readOne p2 isEmpty table = some l2) :
    ∃ sel, loadAll readOne p1 isEmpty sel = some l1 ∧ loadAll readOne p2 isEmpty sel = some l2 := by
  unfold StationFiles.read at h1 h2
  match table, h1, h2 with
  | some (a :: as), h1, h2 =>
    simp only at h1 h2
    cases hs : Stations.applyRules b ex inc (a :: as) with
    | none => simp [hs] at h1
    | some sel =>
      cases sel with
      | nil => simp [hs] at h1
      | cons s ss =>
        simp only [hs] at h1 h2
        refine ⟨s :: ss, ?_, ?_⟩
        · cases hl : loadAll readOne p1 isEmpty (s :: ss) with
          | none => simp [hl] at h1
          | some ls =>
            cases ls with
            | nil =>
              simp only [hl] at h1
              cases st1 <;> simp at h1
              rw [← h1]
            | cons x xs => simpa [hl] using h1
        · cases hl : loadAll readOne p2 isEmpty (s :: ss) with
          | none => simp [hl] at h2
          | some ls =>
            cases ls with
            | nil =>
              simp only [hl] at h2
              cases st2 <;> simp at h2
              rw [← h2]
            | cons x xs => simpa [hl] using h2

/-- Nothing is recorded at a date that is not in the file. -/
theorem at_none {d : Records} {t : ℤ} (ht : t ∉ d.times) (v : String) : (raw d).at v t = none := by
  unfold Ds.at
  have : ((raw d).times.zip ((raw d).vals v)).lookup t = none := by
    rw [List.lookup_eq_none_iff]
    rintro ⟨a, b⟩ hp
    have := (List.of_mem_zip hp).1
    rw [bne_iff_ne]
    rintro rfl
    exact ht this
  rw [this]

theorem prep_times {start stop f : ℤ} {d d' : Records} (h : prep start stop f d = some d') {t : ℤ} :
    t ∈ d'.times ↔ t ∈ d.times ∧ start ≤ t ∧ t ≤ stop := by
  unfold prep at h
  split_ifs at h
  rw [Option.some.injEq] at h
  subst h
  simp

theorem ideal_prep {start stop f : ℤ} {l : Loaded ℝ Records} {d : Records} {toGrid : ℝ × ℝ → ℝ × ℝ} {t : ℤ}
    (h : prep start stop f l.data = some d) (hr : Regular l.data) (h1 : start ≤ t) (h2 : t ≤ stop) :
    ideal toGrid t { l with data := d } = ideal toGrid t l := by
  have e : ∀ v, (raw d).at v t = (raw l.data).at v t := fun v => at_prep h hr "" v t h1 h2
  simp only [ideal, e]

/-- The complete measurements at a date are those of the files of the selected stations. -/
theorem stationData_sel {readOne : Stations.Station ℝ → Option (Loaded ℝ Records)} {start stop f t : ℤ}
    {toGrid : ℝ × ℝ → ℝ × ℝ} {sel : List (Stations.Station ℝ)} {ls : List (Loaded ℝ Records)}
    (h : loadAll readOne (prep start stop f) (fun d => d.times.isEmpty) sel = some ls)
    (hreg : ∀ s l, readOne s = some l → Regular l.data) (h1 : start ≤ t) (h2 : t ≤ stop)
    (a b : MeteoFields.Station → Option ℝ) (v : String) (ha : ∀ l, a (ideal toGrid t l) = (raw l.data).at v t) :
    stationData a b (ls.map (ideal toGrid t)) =
      stationData a b ((sel.filterMap readOne).map (ideal toGrid t)) := by
  obtain ⟨rfl, hall⟩ := loadAll_eq sel ls h
  clear h
  unfold stationData
  rw [List.filterMap_map, List.filterMap_map, List.filterMap_filterMap, List.filterMap_filterMap]
  apply List.filterMap_congr
  intro s hs
  obtain ⟨l, d, hl, hd⟩ := hall s hs
  simp only [hl, hd, Option.bind_some, Function.comp]
  by_cases he : d.times.isEmpty = true
  · rw [if_pos he, Option.bind_none]
    have : a (ideal toGrid t l) = none := by
      rw [ha, ← at_prep hd (hreg s l hl) "" v t h1 h2]
      refine at_none ?_ v
      rw [List.isEmpty_iff] at he
      rw [he]
      simp
    simp [MeteoFields.stationRec, this]
  · rw [if_neg he, Option.bind_some, ideal_prep hd (hreg s l hl) h1 h2]

theorem sameData_sel {readOne : Stations.Station ℝ → Option (Loaded ℝ Records)} {start stop f t : ℤ}
    {toGrid : ℝ × ℝ → ℝ × ℝ} {sel : List (Stations.Station ℝ)} {ls : List (Loaded ℝ Records)}
    (h : loadAll readOne (prep start stop f) (fun d => d.times.isEmpty) sel = some ls)
    (hreg : ∀ s l, readOne s = some l → Regular l.data) (h1 : start ≤ t) (h2 : t ≤ stop) :
    SameData (ls.map (ideal toGrid t)) ((sel.filterMap readOne).map (ideal toGrid t)) := by
  intro a b hab
  simp only [List.mem_cons, List.not_mem_nil, or_false, Prod.mk.injEq] at hab
  rcases hab with ⟨rfl, rfl⟩ | ⟨rfl, rfl⟩ | ⟨rfl, rfl⟩ | ⟨rfl, rfl⟩ | ⟨rfl, rfl⟩ | ⟨rfl, rfl⟩ | ⟨rfl, rfl⟩
  · exact stationData_sel h hreg h1 h2 _ _ "temp" fun _ => rfl
  · exact stationData_sel h hreg h1 h2 _ _ "precip" fun _ => rfl
  · exact stationData_sel h hreg h1 h2 _ _ "rel_hum" fun _ => rfl
  · exact stationData_sel h hreg h1 h2 _ _ "wind_speed" fun _ => rfl
  · exact stationData_sel h hreg h1 h2 _ _ "wind_speed_gust" fun _ => rfl
  · exact stationData_sel h hreg h1 h2 _ _ "wind_speed" fun _ => rfl
  · exact stationData_sel h hreg h1 h2 _ _ "wind_speed_gust" fun _ => rfl

/-! ## The property -/

variable {ι : Type*} [DecidableEq ι]

/-- The same fields at all pixels; gusts in the region of interest `roi` if they were missing before (`old`). -/
def SameForcing (roi : List ι) (old f g : Fields ι) : Prop :=
  f.temp = g.temp ∧ f.precip = g.precip ∧ f.relHum = g.relHum ∧ f.windSpeed = g.windSpeed ∧ f.windDir = g.windDir ∧
  ((∀ i, old.gust i = none) → ∀ i ∈ roi, f.gust i = g.gust i)

/-- No station of the loaded ones has gusts if the flag is not set. -/
theorem no_gust {name : ℕ → String} {strict : Bool} {start stop f : ℤ} {toGrid : ℝ × ℝ → ℝ × ℝ}
    {ls : List (Loaded ℝ Records)} {t : ℤ} {out : List MeteoFields.Station × Bool}
    (h : stationsAt name strict start stop f toGrid (some ls) t = some out)
    (hreg : ∀ l ∈ ls, Regular l.data ∧ l.data.times ≠ []) (hf : out.2 = false) :
    ∀ b, stationData (·.gust) b (ls.map (ideal toGrid t)) = [] := by
  intro b
  apply MeteoFields.stationData_nil
  intro s hs
  obtain ⟨l, hl, rfl⟩ := List.mem_map.mp hs
  refine Or.inl ?_
  have hn : l.data.vars.lookup "wind_speed_gust" = none := by
    cases e : l.data.vars.lookup "wind_speed_gust" with
    | none => rfl
    | some x =>
      have := (stationsAt_ideal h hreg).2 l hl x e
      rw [hf] at this
      cases this
  show (raw l.data).at "wind_speed_gust" t = none
  cases e : (raw l.data).at "wind_speed_gust" t with
  | none => rfl
  | some x =>
    obtain ⟨y, k, hy, -⟩ := (recorded_at (hreg l hl).1).mpr e
    rw [hn] at hy
    cases hy

theorem fields_period {name : ℕ → String} {inp inp' : Input} {toGrid : ℝ × ℝ → ℝ × ℝ}
    {readOne : Stations.Station ℝ → Option (Loaded ℝ Records)} {sel : List (Stations.Station ℝ)}
    {ls ls' : List (Loaded ℝ Records)} {c : Cfgs} {px : ι → Px} {roi : List ι} {t : ℤ} {old f g : Fields ι}
    (hl : loadAll readOne (prep inp.start inp.stop inp.f) (fun d => d.times.isEmpty) sel = some ls)
    (hl' : loadAll readOne (prep inp'.start inp'.stop inp'.f) (fun d => d.times.isEmpty) sel = some ls')
    (hreg : ∀ s l, readOne s = some l → Regular l.data)
    (ht : inp.start ≤ t ∧ t ≤ inp.stop) (ht' : inp'.start ≤ t ∧ t ≤ inp'.stop)
    (h : fieldsFrom name inp toGrid (some ls) c px roi t old = some f)
    (h' : fieldsFrom name inp' toGrid (some ls') c px roi t old = some g) : SameForcing roi old f g := by
  have reg : ∀ (i : Input) (ls : List (Loaded ℝ Records)),
      loadAll readOne (prep i.start i.stop i.f) (fun d => d.times.isEmpty) sel = some ls →
      ∀ l ∈ ls, Regular l.data ∧ l.data.times ≠ [] := by
    intro i ls hl l hm
    obtain ⟨rfl, -⟩ := loadAll_eq sel ls hl
    obtain ⟨s, -, e⟩ := List.mem_filterMap.mp hm
    simp only [Option.bind_eq_some_iff] at e
    obtain ⟨l', hs, d, hd, e⟩ := e
    split at e
    · cases e
    · rename_i he
      rw [Option.some.injEq] at e
      subst e
      exact ⟨regular_prep hd (hreg s l' hs), by simpa using he⟩
  have s1 := sameData_sel (toGrid := toGrid) hl hreg ht.1 ht.2
  have s2 := sameData_sel (toGrid := toGrid) hl' hreg ht'.1 ht'.2
  have s : SameData (ls.map (ideal toGrid t)) (ls'.map (ideal toGrid t)) := fun a b hab => (s1 a b hab).trans (s2 a b hab).symm
  simp only [fieldsFrom, Option.bind_eq_some_iff] at h h'
  obtain ⟨o, ho, h⟩ := h
  obtain ⟨o', ho', h'⟩ := h'
  rw [(stationsAt_ideal ho (reg inp ls hl)).1] at h
  rw [(stationsAt_ideal ho' (reg inp' ls' hl')).1] at h'
  have g1 := s Station.gust Station.gust (by simp)
  have g2 := s Station.gust Station.windDir (by simp)
  rw [MeteoFields.interpolateData_same s] at h
  cases e : o.2 with
  | true =>
    cases e' : o'.2 with
    | true =>
      rw [e] at h
      rw [e', h, Option.some.injEq] at h'
      subst h'
      exact ⟨rfl, rfl, rfl, rfl, rfl, fun _ _ _ => rfl⟩
    | false =>
      rw [e] at h
      rw [e'] at h'
      obtain ⟨a1, a2, a3, a4, a5, a6⟩ := MeteoFields.interpolateData_flag h h'
      refine ⟨a1, a2, a3, a4, a5, fun hold i hi => ?_⟩
      have z := no_gust ho' (reg inp' ls' hl') e'
      rw [a6, hold, MeteoFields.gust_none h rfl (z _) (z _) i hi]
  | false =>
    cases e' : o'.2 with
    | true =>
      rw [e] at h
      rw [e'] at h'
      obtain ⟨a1, a2, a3, a4, a5, a6⟩ := MeteoFields.interpolateData_flag h' h
      refine ⟨a1.symm, a2.symm, a3.symm, a4.symm, a5.symm, fun hold i hi => ?_⟩
      have z := no_gust ho (reg inp ls hl) e
      rw [a6, hold, MeteoFields.gust_none h' rfl (g1 ▸ z _) (g2 ▸ z _) i hi]
    | false =>
      rw [e] at h
      rw [e', h, Option.some.injEq] at h'
      subst h'
      exact ⟨rfl, rfl, rfl, rfl, rfl, fun _ _ _ => rfl⟩

/-- **C140 (netCDF files).** The fields of a date are the same in two simulations over different periods that contain
it and use the same files and settings. -/
theorem C140_netcdf (name : ℕ → String) (inp : Input) (start' stop' : ℤ) (strict' : Bool) (toGrid : ℝ × ℝ → ℝ × ℝ)
    (files : List (NcFile ℝ Records)) (c : Cfgs) (px : ι → Px) (roi : List ι) (t : ℤ) (old f g : Fields ι)
    (hreg : ∀ g ∈ files, Regular g.data) (ht : inp.start ≤ t ∧ t ≤ inp.stop) (ht' : start' ≤ t ∧ t ≤ stop')
    (h : fieldsNetcdf name inp toGrid files c px roi t old = some f)
    (h' : fieldsNetcdf name { inp with start := start', stop := stop', strict := strict' } toGrid files c px roi t old =
      some g) : SameForcing roi old f g := by
  unfold fieldsNetcdf at h h'
  cases hls : readNetcdf inp.bounds inp.exclude inp.inclusion inp.strict toGrid (prep inp.start inp.stop inp.f)
      (fun d => d.times.isEmpty) files with
  | none => rw [hls] at h; simp [fieldsFrom, stationsAt] at h
  | some ls =>
    cases hls' : readNetcdf inp.bounds inp.exclude inp.inclusion strict' toGrid (prep start' stop' inp.f)
        (fun d => d.times.isEmpty) files with
    | none =>
      simp only at h'
      rw [hls'] at h'
      simp [fieldsFrom, stationsAt] at h'
    | some ls' =>
      rw [hls] at h
      simp only at h'
      rw [hls'] at h'
      unfold readNetcdf at hls hls'
      obtain ⟨sel, l1, l2⟩ := read_loadAll hls hls'
      refine fields_period (inp' := { inp with start := start', stop := stop', strict := strict' }) l1 l2 ?_ ht ht' h h'
      intro s l hsl
      unfold readNc at hsl
      split at hsl
      · cases hsl
      · rename_i q hq
        split at hsl
        · cases hsl
        · rw [Option.some.injEq] at hsl
          subst hsl
          exact hreg q (List.mem_of_find?_eq_some hq)

/-- The hypotheses can be met: the second station has records (of gusts, too) in the longer period only. -/
example (o : Fields Unit) :
    let cfg : MeteoFields.Cfg := ⟨.fixed, 1 / 100, true⟩
    let files : List (NcFile ℝ Records) := [⟨1, some (0, 0, 1000), none, ⟨[0, 3600], [("temp", [some 270, some 271])]⟩⟩,
      ⟨2, some (5, 5, 900), none, ⟨[7200], [("wind_speed_gust", [some 4]), ("temp", [some 275])]⟩⟩]
    let c : Cfgs := ⟨cfg, cfg, cfg, cfg, .idw, false⟩
    let px : Unit → Px := fun _ => ⟨0, 0, 1000, 0, 0, 0⟩
    (∃ f, fieldsNetcdf (fun _ => "s") ⟨none, none, none, false, 0, 3600, 3600⟩ id files c px [()] 3600 o = some f) ∧
    (∃ g, fieldsNetcdf (fun _ => "s") ⟨none, none, none, false, 0, 7200, 3600⟩ id files c px [()] 3600 o = some g) ∧
    ∀ g ∈ files, Regular g.data := by
  intro cfg files c px
  have hi : ∀ (sts : List MeteoFields.Station) (b : Bool), ∃ f, MeteoFields.interpolateData
      ⟨cfg, cfg, cfg, cfg, .idw, b⟩ px [()] sts o = some f := by
    intro sts b
    have h1 : ∀ p st tm, ∃ v, MeteoFields.interpRoi p cfg st px tm [()] = some v := by
      intro p st tm
      have h2 : ∀ tg, ∃ r, interpolate p cfg.trend cfg.lapse cfg.extrapolate st tg = some r := by
        intro tg
        simp only [interpolate, cfg, trended]
        split_ifs <;> exact ⟨_, rfl⟩
      obtain ⟨r, hr⟩ := h2 ⟨0, 0, 1000, (tm ()).getD 0⟩
      refine ⟨[if p = .relHum then (tm ()).bind fun _ => r else r], ?_⟩
      simp only [MeteoFields.interpRoi, List.mapM_cons, List.mapM_nil, px, hr]
      rfl
    obtain ⟨v1, e1⟩ := h1 .temp (stationData (·.temp) (·.temp) sts) fun _ => none
    obtain ⟨v2, e2⟩ := h1 .precip (stationData (·.precip) (·.precip) sts) fun _ => none
    obtain ⟨v3, e3⟩ := h1 .relHum (stationData (·.relHum) (·.temp) sts) (MeteoFields.assign [()] v1 o.temp)
    obtain ⟨v4, e4⟩ := h1 .windSpeed (stationData (·.windSpeed) (·.windSpeed) sts) fun _ => none
    obtain ⟨v5, e5⟩ := h1 .windSpeed (stationData (·.gust) (·.gust) sts) fun _ => none
    simp only [MeteoFields.interpolateData, e1, e2, e3, e4, e5, Option.bind_some, Option.map_some]
    split_ifs <;> exact ⟨_, rfl⟩
  have hff : ∀ (inp : Input) ls a, assemble inp.strict inp.start inp.stop inp.f (ls.map (dataset fun _ => "s")) = some a →
      (∃ p, a.times.idxOf? 3600 = some p) →
      ∃ f, fieldsFrom (fun _ => "s") inp id (some ls) c px [()] 3600 o = some f := by
    intro inp ls a ha ⟨p, hp⟩
    have hs : ∃ q, stationsAt (fun _ => "s") inp.strict inp.start inp.stop inp.f id (some ls) 3600 = some q := by
      unfold stationsAt
      rw [Option.bind_some, ha, Option.bind_some, hp]
      exact ⟨_, rfl⟩
    obtain ⟨q, hs⟩ := hs
    obtain ⟨f, hf⟩ := hi q.1 q.2
    exact ⟨f, by unfold fieldsFrom; simp only [hs, Option.bind_some]; exact hf⟩
  refine ⟨?_, ?_, ?_⟩
  · have hr : readNetcdf (K := ℝ) none none none false id (prep 0 3600 3600) (fun d => d.times.isEmpty) files =
        some [⟨1, none, 0, 0, some 1000, ⟨[0, 3600], [("temp", [some 270, some 271])]⟩⟩] := by
      simp [readNetcdf, StationFiles.read, ncMeta, files, Stations.applyRules, Stations.kept, Stations.dedup, loadAll,
        readNc, prep, sliceVals]
    have ha : ∃ a, assemble false 0 3600 3600 ([(⟨1, none, 0, 0, some 1000, ⟨[0, 3600],
        [("temp", [some 270, some 271])]⟩⟩ : Loaded ℝ Records)].map (dataset fun _ => "s")) = some a ∧
        a.times = [0, 3600] := by
      simp [assemble, combine, dataset]
    obtain ⟨a, ha, hat⟩ := ha
    unfold fieldsNetcdf
    rw [hr]
    exact hff ⟨none, none, none, false, 0, 3600, 3600⟩ _ a ha ⟨1, by rw [hat]; rfl⟩
  · have hr : readNetcdf (K := ℝ) none none none false id (prep 0 7200 3600) (fun d => d.times.isEmpty) files =
        some [⟨1, none, 0, 0, some 1000, ⟨[0, 3600], [("temp", [some 270, some 271])]⟩⟩,
          ⟨2, none, 5, 5, some 900, ⟨[7200], [("wind_speed_gust", [some 4]), ("temp", [some 275])]⟩⟩] := by
      simp [readNetcdf, StationFiles.read, ncMeta, files, Stations.applyRules, Stations.kept, Stations.dedup, loadAll,
        readNc, prep, sliceVals]
    have hms : ([0, 3600, 7200] : List ℤ).mergeSort (fun a b => decide (a ≤ b)) = [0, 3600, 7200] :=
      List.mergeSort_of_pairwise (by decide)
    have ha : ∃ a, assemble false 0 7200 3600 ([(⟨1, none, 0, 0, some 1000, ⟨[0, 3600],
        [("temp", [some 270, some 271])]⟩⟩ : Loaded ℝ Records),
        ⟨2, none, 5, 5, some 900, ⟨[7200], [("wind_speed_gust", [some 4]), ("temp", [some 275])]⟩⟩].map
          (dataset fun _ => "s")) = some a ∧ a.times = [0, 3600, 7200] := by
      simp [assemble, combine, dataset, hms]
    obtain ⟨a, ha, hat⟩ := ha
    unfold fieldsNetcdf
    rw [hr]
    exact hff ⟨none, none, none, false, 0, 7200, 3600⟩ _ a ha ⟨1, by rw [hat]; rfl⟩
  · intro g hg
    simp only [files, List.mem_cons, List.not_mem_nil, or_false] at hg
    rcases hg with rfl | rfl
    · exact ⟨by decide, by simp⟩
    · exact ⟨by decide, by simp⟩

/-- **C140 (csv files).** The same for csv files. -/
theorem C140_csv (name : ℕ → String) (inp : Input) (start' stop' : ℤ) (strict' : Bool)
    (toGrid toLonLat back : ℝ × ℝ → ℝ × ℝ) (rows : List (CsvRow ℝ)) (files : ℕ → Option Records)
    (c : Cfgs) (px : ι → Px) (roi : List ι) (t : ℤ) (old f g : Fields ι)
    (hreg : ∀ i d, files i = some d → Regular d) (ht : inp.start ≤ t ∧ t ≤ inp.stop)
    (ht' : start' ≤ t ∧ t ≤ stop')
    (h : fieldsCsv name inp toGrid toLonLat back rows files c px roi t old = some f)
    (h' : fieldsCsv name { inp with start := start', stop := stop', strict := strict' } toGrid toLonLat back rows files c
      px roi t old = some g) : SameForcing roi old f g := by
  unfold fieldsCsv at h h'
  cases hls : readCsvFiles inp.bounds inp.exclude inp.inclusion inp.strict toGrid toLonLat
      (prep inp.start inp.stop inp.f) (fun d => d.times.isEmpty) (some rows) files with
  | none => rw [hls] at h; simp [fieldsFrom, stationsAt] at h
  | some ls =>
    cases hls' : readCsvFiles inp.bounds inp.exclude inp.inclusion strict' toGrid toLonLat (prep start' stop' inp.f)
        (fun d => d.times.isEmpty) (some rows) files with
    | none =>
      simp only at h'
      rw [hls'] at h'
      simp [fieldsFrom, stationsAt] at h'
    | some ls' =>
      rw [hls] at h
      simp only at h'
      rw [hls'] at h'
      unfold readCsvFiles at hls hls'
      obtain ⟨sel, l1, l2⟩ := read_loadAll hls hls'
      refine fields_period (inp' := { inp with start := start', stop := stop', strict := strict' }) l1 l2 ?_ ht ht' h h'
      intro s l hsl
      unfold readCsv at hsl
      split at hsl
      · cases hsl
      · rename_i d hd
        rw [Option.some.injEq] at hsl
        subst hsl
        exact hreg _ _ hd

end Verif.ForcingPath

namespace Verif.PrecipTable

theorem mapM_append {α β : Type} (f : α → Option β) (l l' : List α) :
    (l ++ l').mapM f = (l.mapM f).bind fun a => (l'.mapM f).map fun b => a ++ b := by
  induction l with
  | nil => simp
  | cons x xs ih =>
    rw [List.cons_append, List.mapM_cons, List.mapM_cons, ih]
    cases f x <;> cases xs.mapM f <;> cases l'.mapM f <;> simp

/-- **C140: corrected precipitation.** The correction of a table of dates is that of its parts: what precedes or follows
a date has no influence on it. -/
theorem C140_corrections (s : Settings) (es : List Entry) (ds ds' : List (FillStations.Config × List FillStations.Rec))
    (out : List (List FillStations.Rec)) (h : correctTable s es (ds ++ ds') = some out) :
    ∃ a b, correctTable s es ds = some a ∧ correctTable s es ds' = some b ∧ a.length = ds.length ∧ out = a ++ b := by
  unfold correctTable at h ⊢
  by_cases he : es.length = 0
  · simp only [if_pos he, Option.some.injEq] at h ⊢
    subst h
    exact ⟨_, _, rfl, rfl, by simp, by simp⟩
  simp only [if_neg he, Option.bind_eq_some_iff] at h ⊢
  obtain ⟨filled, hf, h⟩ := h
  unfold FillStations.fillAll at hf ⊢
  rw [mapM_append, Option.bind_eq_some_iff] at hf
  obtain ⟨fa, hfa, hf⟩ := hf
  rw [Option.map_eq_some_iff] at hf
  obtain ⟨fb, hfb, rfl⟩ := hf
  have hla := (MeteoFields.mapM_spec _ _ _ hfa).1
  rw [List.map_append, List.zip_append (by rw [List.length_map, hla]), mapM_append, Option.bind_eq_some_iff] at h
  obtain ⟨a, ha, h⟩ := h
  rw [Option.map_eq_some_iff] at h
  obtain ⟨b, hb, rfl⟩ := h
  refine ⟨a, b, ⟨fa, hfa, ha⟩, ⟨fb, hfb, hb⟩, ?_, rfl⟩
  rw [(MeteoFields.mapM_spec _ _ _ ha).1, List.length_zip, List.length_map, hla, min_self]

/-- The hypothesis can be met: a date with snowfall and a dry one. -/
example : ∃ s es ds ds' out, correctTable s es (ds ++ ds') = some out ∧ ds.length = 1 ∧ ds'.length = 1 ∧
    (out[0]?.bind (·[0]?)).map FillStations.Rec.precip = some (some (9 / 2)) := by
  obtain ⟨⟨out, h1, h2⟩, -⟩ := sample_corrected
  exact ⟨_, _, [_], [_], out, h1, rfl, rfl, h2⟩

end Verif.PrecipTable
