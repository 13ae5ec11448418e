import Verif.Model.MeteoFields
import Verif.Props.MeteoInterp

/-!
# C104: interpolated fields of a time step
-/

set_option linter.unusedSectionVars false

namespace Verif.MeteoFields

open Verif.MeteoInterp Verif.Atmosphere

variable {ι : Type*} [DecidableEq ι]

/-! ## Lemmas -/

theorem assign_cons (a : ι) (r : List ι) (v : Option ℝ) (vs : List (Option ℝ)) (old : ι → Option ℝ) :
    assign (a :: r) (v :: vs) old = assign r vs (Function.update old a v) := rfl

theorem assign_outside (roi : List ι) (vals : List (Option ℝ)) (old : ι → Option ℝ) (i : ι) (h : i ∉ roi) :
    assign roi vals old i = old i := by
  induction roi generalizing vals old with
  | nil => rfl
  | cons a r ih =>
    rw [List.mem_cons, not_or] at h
    cases vals with
    | nil => rfl
    | cons v vs =>
      rw [assign_cons, ih _ _ h.2, Function.update_of_ne h.1]

theorem assign_inside (roi : List ι) (vals : List (Option ℝ)) (hl : vals.length = roi.length) (i : ι)
    (h : i ∈ roi) : ∃ (k : ℕ) (v : Option ℝ), roi[k]? = some i ∧ vals[k]? = some v ∧
      ∀ old, assign roi vals old i = v := by
  induction roi generalizing vals with
  | nil => exact absurd h (by simp)
  | cons a r ih =>
    cases vals with
    | nil => simp at hl
    | cons v vs =>
      by_cases hr : i ∈ r
      · obtain ⟨k, w, h1, h2, h3⟩ := ih vs (by simpa using hl) hr
        exact ⟨k + 1, w, by simpa using h1, by simpa using h2, fun old => by rw [assign_cons, h3]⟩
      · have hi : i = a := by simpa [hr] using h
        subst hi
        exact ⟨0, v, rfl, rfl, fun old => by
          rw [assign_cons, assign_outside _ _ _ _ hr, Function.update_self]⟩

theorem assign_indep (roi : List ι) (vals : List (Option ℝ)) (hl : vals.length = roi.length)
    (o o' : ι → Option ℝ) (i : ι) (h : i ∈ roi) : assign roi vals o i = assign roi vals o' i := by
  obtain ⟨k, v, -, -, e⟩ := assign_inside roi vals hl i h
  rw [e, e]

theorem mapM_spec {α : Type*} {β : Type} (f : α → Option β) (l : List α) (l' : List β)
    (h : l.mapM f = some l') :
    l'.length = l.length ∧ ∀ (i : ℕ) (a : α), l[i]? = some a → ∃ b, l'[i]? = some b ∧ f a = some b := by
  induction l generalizing l' with
  | nil =>
    simp at h
    subst h
    simp
  | cons a t ih =>
    simp only [List.mapM_cons, Option.pure_def, Option.bind_eq_bind, Option.bind_eq_some_iff,
      Option.some.injEq] at h
    obtain ⟨b, hb, t', ht, rfl⟩ := h
    obtain ⟨h1, h2⟩ := ih t' ht
    refine ⟨by simp [h1], ?_⟩
    intro i x hx
    cases i with
    | zero =>
      simp at hx
      subst hx
      exact ⟨b, rfl, hb⟩
    | succ i =>
      obtain ⟨y, hy, hf⟩ := h2 i x (by simpa using hx)
      exact ⟨y, by simpa using hy, hf⟩

theorem mapM_congr_mem {α : Type*} {β : Type} (f g : α → Option β) (l : List α)
    (h : ∀ a ∈ l, f a = g a) : l.mapM f = l.mapM g := by
  induction l with
  | nil => rfl
  | cons a t ih =>
    simp only [List.mapM_cons]
    rw [h a (List.mem_cons_self ..), ih fun b hb => h b (List.mem_cons_of_mem _ hb)]

/-- Value assigned to a pixel of the region of interest. -/
theorem interp_inside {p : Param} {c : Cfg} {st : List Stn} {px : ι → Px} {temp : ι → Option ℝ}
    {roi : List ι} {vals : List (Option ℝ)} (h : interpRoi p c st px temp roi = some vals) (i : ι)
    (hi : i ∈ roi) : ∃ r, interpolate p c.trend c.lapse c.extrapolate st
        ⟨(px i).x, (px i).y, (px i).z, (temp i).getD 0⟩ = some r ∧
      ∀ old, assign roi vals old i = if p = .relHum then (temp i).bind fun _ => r else r := by
  obtain ⟨hl, hv⟩ := mapM_spec _ _ _ h
  obtain ⟨k, v, h1, h2, h3⟩ := assign_inside roi vals hl i hi
  obtain ⟨b, hb, hf⟩ := hv k i h1
  rw [h2, Option.some.injEq] at hb
  subst hb
  rw [Option.map_eq_some_iff] at hf
  obtain ⟨r, hr, e⟩ := hf
  exact ⟨r, hr, fun old => by rw [h3, e]⟩

theorem listonOpt_length (sw cw : ℝ) (cells : List (Option Cell)) :
    (listonOpt sw cw cells).length = cells.length := by
  unfold listonOpt
  split
  · simp
  · rename_i ss hs
    unfold Verif.Config.normalize at hs
    simp only at hs
    split at hs
    · split_ifs at hs
      rw [Option.some.injEq] at hs
      subst hs
      simp
    · exact absurd hs (by simp)

theorem listonRoi_length {c : Cfg} {sw cw : ℝ} {st : List Stn} {px : ι → Px} {roi : List ι}
    {w : List (Option (ℝ × ℝ))} (h : listonRoi c sw cw st px roi = some w) : w.length = roi.length := by
  simp only [listonRoi] at h
  split at h
  · rename_i u v hu hv
    rw [Option.some.injEq] at h
    subst h
    rw [listonOpt_length, List.length_zipWith, List.length_zip, (mapM_spec _ _ _ hu).1,
      (mapM_spec _ _ _ hv).1]
    omega
  · exact absurd h (by simp)

/-- The steps of a successful interpolation. -/
theorem data_some {c : Cfgs} {px : ι → Px} {roi : List ι} {st : List Station} {old f : Fields ι}
    (h : interpolateData c px roi st old = some f) :
    (∃ t, interpRoi .temp c.temp (stationData (·.temp) (·.temp) st) px (fun _ => none) roi = some t ∧
      f.temp = assign roi t old.temp) ∧
    (∃ p, interpRoi .precip c.precip (stationData (·.precip) (·.precip) st) px (fun _ => none) roi = some p ∧
      f.precip = assign roi p old.precip) ∧
    (∃ r, interpRoi .relHum c.hum (stationData (·.relHum) (·.temp) st) px f.temp roi = some r ∧
      f.relHum = assign roi r old.relHum) ∧
    ((c.method = .idw ∧ f.windDir = old.windDir ∧
        (∃ w, interpRoi .windSpeed c.wind (stationData (·.windSpeed) (·.windSpeed) st) px (fun _ => none) roi
          = some w ∧ f.windSpeed = assign roi w old.windSpeed) ∧
        ((c.hasGusts = false ∧ f.gust = old.gust) ∨ (c.hasGusts = true ∧ ∃ g,
          interpRoi .windSpeed c.wind (stationData (·.gust) (·.gust) st) px (fun _ => none) roi = some g ∧
          f.gust = assign roi g old.gust))) ∨
      ∃ sw cw, c.method = .liston sw cw ∧
        (∃ w, listonRoi c.wind sw cw (stationData (·.windSpeed) (·.windDir) st) px roi = some w ∧
          f.windSpeed = assign roi (w.map fun o => o.map Prod.fst) old.windSpeed ∧
          f.windDir = assign roi (w.map fun o => o.map Prod.snd) old.windDir) ∧
        ((c.hasGusts = false ∧ f.gust = old.gust) ∨ (c.hasGusts = true ∧ ∃ g,
          listonRoi c.wind sw cw (stationData (·.gust) (·.windDir) st) px roi = some g ∧
          f.gust = assign roi (g.map fun o => o.map Prod.fst) old.gust))) := by
  simp only [interpolateData, Option.bind_eq_some_iff] at h
  obtain ⟨t, ht, p, hp, r, hr, h⟩ := h
  cases hm : c.method with
  | idw =>
    simp only [hm, Option.bind_eq_some_iff] at h
    obtain ⟨w, hw, h⟩ := h
    cases hg : c.hasGusts with
    | false =>
      simp only [hg, Bool.false_eq_true, if_false, Option.some.injEq] at h
      subst h
      exact ⟨⟨t, ht, rfl⟩, ⟨p, hp, rfl⟩, ⟨r, hr, rfl⟩, Or.inl ⟨rfl, rfl, ⟨w, hw, rfl⟩, Or.inl ⟨rfl, rfl⟩⟩⟩
    | true =>
      simp only [hg, if_true, Option.map_eq_some_iff] at h
      obtain ⟨g, hgu, h⟩ := h
      subst h
      exact ⟨⟨t, ht, rfl⟩, ⟨p, hp, rfl⟩, ⟨r, hr, rfl⟩,
        Or.inl ⟨rfl, rfl, ⟨w, hw, rfl⟩, Or.inr ⟨rfl, g, hgu, rfl⟩⟩⟩
  | liston sw cw =>
    simp only [hm, Option.bind_eq_some_iff] at h
    obtain ⟨w, hw, h⟩ := h
    cases hg : c.hasGusts with
    | false =>
      simp only [hg, Bool.false_eq_true, if_false, Option.some.injEq] at h
      subst h
      exact ⟨⟨t, ht, rfl⟩, ⟨p, hp, rfl⟩, ⟨r, hr, rfl⟩,
        Or.inr ⟨sw, cw, rfl, ⟨w, hw, rfl, rfl⟩, Or.inl ⟨rfl, rfl⟩⟩⟩
    | true =>
      simp only [hg, if_true, Option.map_eq_some_iff] at h
      obtain ⟨g, hgu, h⟩ := h
      subst h
      exact ⟨⟨t, ht, rfl⟩, ⟨p, hp, rfl⟩, ⟨r, hr, rfl⟩,
        Or.inr ⟨sw, cw, rfl, ⟨w, hw, rfl, rfl⟩, Or.inr ⟨rfl, g, hgu, rfl⟩⟩⟩
  | other => simp [hm] at h

theorem interpRoi_temp_congr {p : Param} {c : Cfg} {st : List Stn} {px : ι → Px} {a b : ι → Option ℝ}
    {roi : List ι} (h : ∀ i ∈ roi, a i = b i) : interpRoi p c st px a roi = interpRoi p c st px b roi := by
  unfold interpRoi
  apply mapM_congr_mem
  intro i hi
  rw [h i hi]

theorem interpRoi_length {p : Param} {c : Cfg} {st : List Stn} {px : ι → Px} {a : ι → Option ℝ}
    {roi : List ι} {vals : List (Option ℝ)} (h : interpRoi p c st px a roi = some vals) :
    vals.length = roi.length := (mapM_spec _ _ _ h).1

/-- **C104 (no memory).** Whether the interpolation succeeds and the fields in the region of interest do not
depend on the previous fields (the wind direction is only calculated by the terrain-based method, gusts only
if there are measurements). -/
theorem C104_no_memory (c : Cfgs) (px : ι → Px) (roi : List ι) (st : List Station) (o o' f : Fields ι)
    (h : interpolateData c px roi st o = some f) :
    ∃ f', interpolateData c px roi st o' = some f' ∧ ∀ i ∈ roi,
      f'.temp i = f.temp i ∧ f'.precip i = f.precip i ∧ f'.relHum i = f.relHum i ∧
      f'.windSpeed i = f.windSpeed i ∧ (c.method ≠ .idw → f'.windDir i = f.windDir i) ∧
      (c.hasGusts = true → f'.gust i = f.gust i) := by
  obtain ⟨⟨t, ht, et⟩, ⟨p, hp, ep⟩, ⟨r, hr, er⟩, hw⟩ := data_some h
  have htemp : ∀ i ∈ roi, assign roi t o'.temp i = assign roi t o.temp i :=
    fun i hi => assign_indep _ _ (interpRoi_length ht) _ _ _ hi
  have hr' : interpRoi .relHum c.hum (stationData (·.relHum) (·.temp) st) px (assign roi t o'.temp) roi =
      some r := by
    rw [interpRoi_temp_congr htemp, ← et]
    exact hr
  have key : ∀ {vals : List (Option ℝ)} {a b : ι → Option ℝ}, vals.length = roi.length → ∀ i ∈ roi,
      assign roi vals a i = assign roi vals b i := fun hl i hi => assign_indep _ _ hl _ _ _ hi
  rcases hw with ⟨hm, -, ⟨w, hw, ew⟩, hg⟩ | ⟨sw, cw, hm, ⟨w, hw, ew, ed⟩, hg⟩
  · rcases hg with ⟨hg, -⟩ | ⟨hg, g, hgu, eg⟩
    · refine ⟨⟨assign roi t o'.temp, assign roi p o'.precip, assign roi r o'.relHum,
        assign roi w o'.windSpeed, o'.windDir, o'.gust⟩, ?_, ?_⟩
      · simp [interpolateData, ht, hp, hr', hm, hw, hg]
      · intro i hi
        refine ⟨?_, ?_, ?_, ?_, fun hne => absurd hm hne, fun hgt => by simp [hg] at hgt⟩
        · rw [et]; exact htemp i hi
        · rw [ep]; exact key (interpRoi_length hp) i hi
        · rw [er]; exact key (interpRoi_length hr) i hi
        · rw [ew]; exact key (interpRoi_length hw) i hi
    · refine ⟨⟨assign roi t o'.temp, assign roi p o'.precip, assign roi r o'.relHum,
        assign roi w o'.windSpeed, o'.windDir, assign roi g o'.gust⟩, ?_, ?_⟩
      · simp [interpolateData, ht, hp, hr', hm, hw, hg, hgu]
      · intro i hi
        refine ⟨?_, ?_, ?_, ?_, fun hne => absurd hm hne, fun _ => ?_⟩
        · rw [et]; exact htemp i hi
        · rw [ep]; exact key (interpRoi_length hp) i hi
        · rw [er]; exact key (interpRoi_length hr) i hi
        · rw [ew]; exact key (interpRoi_length hw) i hi
        · rw [eg]; exact key (interpRoi_length hgu) i hi
  · have hl := listonRoi_length hw
    rcases hg with ⟨hg, -⟩ | ⟨hg, g, hgu, eg⟩
    · refine ⟨⟨assign roi t o'.temp, assign roi p o'.precip, assign roi r o'.relHum,
        assign roi (w.map fun o => o.map Prod.fst) o'.windSpeed,
        assign roi (w.map fun o => o.map Prod.snd) o'.windDir, o'.gust⟩, ?_, ?_⟩
      · simp [interpolateData, ht, hp, hr', hm, hw, hg]
      · intro i hi
        refine ⟨?_, ?_, ?_, ?_, fun _ => ?_, fun hgt => by simp [hg] at hgt⟩
        · rw [et]; exact htemp i hi
        · rw [ep]; exact key (interpRoi_length hp) i hi
        · rw [er]; exact key (interpRoi_length hr) i hi
        · rw [ew]; exact key (by simpa using hl) i hi
        · rw [ed]; exact key (by simpa using hl) i hi
    · refine ⟨⟨assign roi t o'.temp, assign roi p o'.precip, assign roi r o'.relHum,
        assign roi (w.map fun o => o.map Prod.fst) o'.windSpeed,
        assign roi (w.map fun o => o.map Prod.snd) o'.windDir,
        assign roi (g.map fun o => o.map Prod.fst) o'.gust⟩, ?_, ?_⟩
      · simp [interpolateData, ht, hp, hr', hm, hw, hg, hgu]
      · intro i hi
        refine ⟨?_, ?_, ?_, ?_, fun _ => ?_, fun _ => ?_⟩
        · rw [et]; exact htemp i hi
        · rw [ep]; exact key (interpRoi_length hp) i hi
        · rw [er]; exact key (interpRoi_length hr) i hi
        · rw [ew]; exact key (by simpa using hl) i hi
        · rw [ed]; exact key (by simpa using hl) i hi
        · rw [eg]; exact key (by simpa using listonRoi_length hgu) i hi

/-- **C104 (outside).** Pixels outside of the region of interest are not touched. -/
theorem C104_outside (c : Cfgs) (px : ι → Px) (roi : List ι) (st : List Station) (o f : Fields ι)
    (h : interpolateData c px roi st o = some f) (i : ι) (hi : i ∉ roi) :
    f.temp i = o.temp i ∧ f.precip i = o.precip i ∧ f.relHum i = o.relHum i ∧
      f.windSpeed i = o.windSpeed i ∧ f.windDir i = o.windDir i ∧ f.gust i = o.gust i := by
  obtain ⟨⟨t, ht, et⟩, ⟨p, hp, ep⟩, ⟨r, hr, er⟩, hw⟩ := data_some h
  have key : ∀ (vals : List (Option ℝ)) (a : ι → Option ℝ), assign roi vals a i = a i :=
    fun vals a => assign_outside _ _ _ _ hi
  refine ⟨by rw [et, key], by rw [ep, key], by rw [er, key], ?_⟩
  rcases hw with ⟨hm, ed, ⟨w, hw, ew⟩, hg⟩ | ⟨sw, cw, hm, ⟨w, hw, ew, ed⟩, hg⟩
  · refine ⟨by rw [ew, key], by rw [ed], ?_⟩
    rcases hg with ⟨-, eg⟩ | ⟨-, g, -, eg⟩
    · rw [eg]
    · rw [eg, key]
  · refine ⟨by rw [ew, key], by rw [ed, key], ?_⟩
    rcases hg with ⟨-, eg⟩ | ⟨-, g, -, eg⟩
    · rw [eg]
    · rw [eg, key]

theorem stationData_drop (a b : Station → Option ℝ) (pre post : List Station) (s : Station)
    (h : a s = none ∨ b s = none ∨ s.x = none ∨ s.y = none ∨ s.alt = none) :
    stationData a b (pre ++ s :: post) = stationData a b (pre ++ post) := by
  simp only [stationData, List.filterMap_append, List.filterMap_cons]
  have : stationRec a b s = none := by
    unfold stationRec
    rcases h with h | h | h | h | h <;> rw [h] <;> split <;> first | rfl | simp_all
  rw [this]

/-- **C104 (stations without coordinates).** A station with a missing coordinate has no influence at all. -/
theorem C104_no_coordinates (c : Cfgs) (px : ι → Px) (roi : List ι) (pre post : List Station) (s : Station)
    (h : s.x = none ∨ s.y = none ∨ s.alt = none) (o : Fields ι) :
    interpolateData c px roi (pre ++ s :: post) o = interpolateData c px roi (pre ++ post) o := by
  have key := fun a b => stationData_drop a b pre post s (Or.inr (Or.inr h))
  simp only [interpolateData, key]

/-- **C104 (missing data).** A station without a temperature has no influence on temperatures and humidities;
one without precipitation none on precipitation; one without humidity influences humidities only through the
temperature field; one without wind speed has no influence on wind speeds, one without wind direction no
influence on the wind fields of the terrain-based method. -/
theorem C104_missing (c : Cfgs) (px : ι → Px) (roi : List ι) (pre post : List Station) (s : Station)
    (o f f' : Fields ι) (h : interpolateData c px roi (pre ++ s :: post) o = some f)
    (h' : interpolateData c px roi (pre ++ post) o = some f') :
    (s.temp = none → f.temp = f'.temp ∧ f.relHum = f'.relHum) ∧
    (s.precip = none → f.precip = f'.precip) ∧
    (s.relHum = none → f.temp = f'.temp → f.relHum = f'.relHum) ∧
    (s.windSpeed = none → f.windSpeed = f'.windSpeed ∧ f.windDir = f'.windDir) ∧
    (s.windDir = none → c.method ≠ .idw →
      f.windSpeed = f'.windSpeed ∧ f.windDir = f'.windDir ∧ f.gust = f'.gust) ∧
    (s.gust = none → f.gust = f'.gust) := by
  obtain ⟨⟨t, ht, et⟩, ⟨p, hp, ep⟩, ⟨r, hr, er⟩, hw⟩ := data_some h
  obtain ⟨⟨t', ht', et'⟩, ⟨p', hp', ep'⟩, ⟨r', hr', er'⟩, hw'⟩ := data_some h'
  have drop := fun a b hn => stationData_drop a b pre post s hn
  have htemp : s.temp = none → f.temp = f'.temp := by
    intro hn
    rw [drop _ _ (Or.inl hn), ht', Option.some.injEq] at ht
    rw [et, et', ht]
  have hhum : (s.relHum = none ∨ s.temp = none) → f.temp = f'.temp → f.relHum = f'.relHum := by
    intro hn e
    rw [drop _ _ (by tauto), e, hr', Option.some.injEq] at hr
    rw [er, er', hr]
  refine ⟨fun hn => ⟨htemp hn, hhum (Or.inr hn) (htemp hn)⟩, ?_, fun hn e => hhum (Or.inl hn) e, ?_⟩
  · intro hn
    rw [drop _ _ (Or.inl hn), hp', Option.some.injEq] at hp
    rw [ep, ep', hp]
  · rcases hw with ⟨hm, ed, ⟨w, hw, ew⟩, hg⟩ | ⟨sw, cw, hm, ⟨w, hw, ew, ed⟩, hg⟩
    · rcases hw' with ⟨-, ed', ⟨w', hw', ew'⟩, hg'⟩ | ⟨_, _, hm', -⟩
      · refine ⟨?_, fun _ hne => absurd hm hne, ?_⟩
        · intro hn
          rw [drop _ _ (Or.inl hn), hw', Option.some.injEq] at hw
          rw [ew, ew', hw, ed, ed']
          exact ⟨rfl, rfl⟩
        · intro hn
          rcases hg with ⟨hg, eg⟩ | ⟨hg, g, hgu, eg⟩
          · rcases hg' with ⟨-, eg'⟩ | ⟨hg', -⟩
            · rw [eg, eg']
            · rw [hg] at hg'; exact absurd hg' (by simp)
          · rcases hg' with ⟨hg', -⟩ | ⟨-, g', hgu', eg'⟩
            · rw [hg] at hg'; exact absurd hg' (by simp)
            · rw [drop _ _ (Or.inl hn), hgu', Option.some.injEq] at hgu
              rw [eg, eg', hgu]
      · rw [hm] at hm'; exact absurd hm' (by simp)
    · rcases hw' with ⟨hm', -⟩ | ⟨sw', cw', hm', ⟨w', hw', ew', ed'⟩, hg'⟩
      · rw [hm] at hm'; exact absurd hm' (by simp)
      · rw [hm, WindMethod.liston.injEq] at hm'
        obtain ⟨rfl, rfl⟩ := hm'
        have hspeed : (s.windSpeed = none ∨ s.windDir = none) →
            f.windSpeed = f'.windSpeed ∧ f.windDir = f'.windDir := by
          intro hn
          rw [drop _ _ (by tauto), hw', Option.some.injEq] at hw
          rw [ew, ew', ed, ed', hw]
          exact ⟨rfl, rfl⟩
        have hgust : (s.gust = none ∨ s.windDir = none) → f.gust = f'.gust := by
          intro hn
          rcases hg with ⟨hg, eg⟩ | ⟨hg, g, hgu, eg⟩
          · rcases hg' with ⟨-, eg'⟩ | ⟨hg', -⟩
            · rw [eg, eg']
            · rw [hg] at hg'; exact absurd hg' (by simp)
          · rcases hg' with ⟨hg', -⟩ | ⟨-, g', hgu', eg'⟩
            · rw [hg] at hg'; exact absurd hg' (by simp)
            · rw [drop _ _ (by tauto), hgu', Option.some.injEq] at hgu
              rw [eg, eg', hgu]
        exact ⟨fun hn => hspeed (Or.inl hn),
          fun hn _ => ⟨(hspeed (Or.inr hn)).1, (hspeed (Or.inr hn)).2, hgust (Or.inr hn)⟩,
          fun hn => hgust (Or.inl hn)⟩

theorem stationData_nil (a b : Station → Option ℝ) (st : List Station) (h : ∀ s ∈ st, a s = none ∨ b s = none) :
    stationData a b st = [] := by
  rw [stationData, List.filterMap_eq_nil_iff]
  intro s hs
  unfold stationRec
  rcases h s hs with h | h <;> rw [h] <;> split <;> first | rfl | simp_all

/-- **C104 (no stations).** Without any measurement of a variable precipitation is 0 and the other fields
are missing in the region of interest. -/
theorem C104_no_stations (c : Cfgs) (px : ι → Px) (roi : List ι) (st : List Station) (o f : Fields ι)
    (h : interpolateData c px roi st o = some f) (i : ι) (hi : i ∈ roi) :
    ((∀ s ∈ st, s.temp = none) → f.temp i = none) ∧
    ((∀ s ∈ st, s.precip = none) → f.precip i = some 0) ∧
    ((∀ s ∈ st, s.relHum = none ∨ s.temp = none) → f.relHum i = none) ∧
    (c.method = .idw → (∀ s ∈ st, s.windSpeed = none) → f.windSpeed i = none) := by
  obtain ⟨⟨t, ht, et⟩, ⟨p, hp, ep⟩, ⟨r, hr, er⟩, hw⟩ := data_some h
  refine ⟨?_, ?_, ?_, ?_⟩
  · intro hn
    rw [stationData_nil _ _ _ fun s hs => Or.inl (hn s hs)] at ht
    obtain ⟨v, hv, e⟩ := interp_inside ht i hi
    simp [interpolate] at hv
    rw [et, e, ← hv]
    simp
  · intro hn
    rw [stationData_nil _ _ _ fun s hs => Or.inl (hn s hs)] at hp
    obtain ⟨v, hv, e⟩ := interp_inside hp i hi
    simp [interpolate] at hv
    rw [ep, e, ← hv]
    simp
  · intro hn
    rw [stationData_nil _ _ _ hn] at hr
    obtain ⟨v, hv, e⟩ := interp_inside hr i hi
    simp [interpolate] at hv
    rw [er, e, ← hv]
    cases f.temp i <;> simp
  · intro hm hn
    rcases hw with ⟨-, -, ⟨w, hw, ew⟩, -⟩ | ⟨sw, cw, hm', -⟩
    · rw [stationData_nil _ _ _ fun s hs => Or.inl (hn s hs)] at hw
      obtain ⟨v, hv, e⟩ := interp_inside hw i hi
      simp [interpolate] at hv
      rw [ew, e, ← hv]
      simp
    · rw [hm] at hm'; exact absurd hm' (by simp)

theorem interpolate_range {p : Param} {tr : Trend} {lapse : ℝ} {e : Bool} {st : List Stn} {t : Target}
    {x : ℝ} (h : interpolate p tr lapse e st t = some (some x)) :
    (p = .temp → 0 ≤ x) ∧ (p = .precip → 0 ≤ x) ∧ (p = .relHum → 0 ≤ x ∧ x ≤ 100) ∧
      (p = .windSpeed → 1 / 10 ≤ x) := by
  unfold interpolate at h
  by_cases h0 : st.length = 0
  · rw [if_pos h0] at h
    split_ifs at h with h1
    on_goal 2 => exact absurd h (by simp)
    rw [Option.some.injEq, Option.some.injEq] at h
    subst h
    refine ⟨fun _ => le_rfl, fun _ => le_rfl, fun e => ?_, fun e => ?_⟩ <;> rw [e] at h1 <;> simp at h1
  · rw [if_neg h0] at h
    simp only [Option.map_eq_some_iff] at h
    obtain ⟨r, -, a, ha, rfl⟩ := h
    refine ⟨?_, ?_, ?_, ?_⟩ <;> rintro rfl <;> simp [clipAllowed, Param.allowed, clip]

theorem listonOpt_range (sw cw : ℝ) (cells : List (Option Cell)) (k : ℕ) (x d : ℝ)
    (h : (listonOpt sw cw cells)[k]? = some (some (x, d))) : 1 / 10 ≤ x := by
  unfold listonOpt at h
  split at h
  · rw [List.getElem?_map, Option.map_eq_some_iff] at h
    obtain ⟨_, _, h⟩ := h
    exact absurd h (by simp)
  · rw [List.getElem?_zipWith_eq_some] at h
    obtain ⟨a, b, -, -, h⟩ := h
    cases a with
    | none => exact absurd h (by simp)
    | some a =>
      simp only [Option.bind_some, Option.map_eq_some_iff, Prod.mk.injEq] at h
      obtain ⟨s, -, h, -⟩ := h
      rw [← h]
      exact le_max_left _ _

/-- **C104 (ranges).** All values in the region of interest are in the physical range of the variable,
whatever the stations report. -/
theorem C104_ranges (c : Cfgs) (px : ι → Px) (roi : List ι) (st : List Station) (o f : Fields ι)
    (h : interpolateData c px roi st o = some f) (i : ι) (hi : i ∈ roi) (x : ℝ) :
    (f.temp i = some x → 0 ≤ x) ∧ (f.precip i = some x → 0 ≤ x) ∧
    (f.relHum i = some x → 0 ≤ x ∧ x ≤ 100) ∧ (f.windSpeed i = some x → 1 / 10 ≤ x) := by
  obtain ⟨⟨t, ht, et⟩, ⟨p, hp, ep⟩, ⟨r, hr, er⟩, hw⟩ := data_some h
  refine ⟨?_, ?_, ?_, ?_⟩
  · intro hx
    obtain ⟨v, hv, e⟩ := interp_inside ht i hi
    rw [et, e] at hx
    simp at hx
    subst hx
    exact (interpolate_range hv).1 rfl
  · intro hx
    obtain ⟨v, hv, e⟩ := interp_inside hp i hi
    rw [ep, e] at hx
    simp at hx
    subst hx
    exact (interpolate_range hv).2.1 rfl
  · intro hx
    obtain ⟨v, hv, e⟩ := interp_inside hr i hi
    rw [er, e, if_pos rfl, Option.bind_eq_some_iff] at hx
    obtain ⟨_, -, hx⟩ := hx
    subst hx
    exact (interpolate_range hv).2.2.1 rfl
  · intro hx
    rcases hw with ⟨-, -, ⟨w, hw, ew⟩, -⟩ | ⟨sw, cw, -, ⟨w, hw, ew, -⟩, -⟩
    · obtain ⟨v, hv, e⟩ := interp_inside hw i hi
      rw [ew, e] at hx
      simp at hx
      subst hx
      exact (interpolate_range hv).2.2.2 rfl
    · obtain ⟨k, v, -, hk, e⟩ := assign_inside roi (w.map fun o => o.map Prod.fst)
        (by simpa using listonRoi_length hw) i hi
      rw [ew, e] at hx
      subst hx
      rw [List.getElem?_map, Option.map_eq_some_iff] at hk
      obtain ⟨q, hq, hk⟩ := hk
      rw [Option.map_eq_some_iff] at hk
      obtain ⟨⟨a, d⟩, rfl, rfl⟩ := hk
      simp only [listonRoi] at hw
      split at hw
      · rw [Option.some.injEq] at hw
        subst hw
        exact listonOpt_range _ _ _ _ _ _ hq
      · exact absurd hw (by simp)

/-- The correction with missing cells extends the one of C65: without missing cells they agree. -/
theorem C104_liston (sw cw : ℝ) (cells : List Cell) :
    listonOpt sw cw (cells.map some) = liston sw cw cells := by
  unfold listonOpt liston
  rw [List.map_map]
  have : ((fun c : Option Cell => c.map windSlope) ∘ some) = fun c => some (windSlope c) := rfl
  rw [this]
  cases Verif.Config.normalize (cells.map fun c => some (windSlope c)) (-(1 / 2)) (1 / 2) with
  | none => rw [List.map_map]; rfl
  | some ss =>
    simp only
    rw [List.zipWith_map_left]
    rfl

theorem normalize_half {data ss : List (Option ℝ)}
    (h : Verif.Config.normalize data (-(1 / 2)) (1 / 2) = some ss) (k : ℕ) (y : ℝ)
    (hk : ss[k]? = some (some y)) : -(1 / 2) ≤ y ∧ y ≤ 1 / 2 := by
  have h' := h
  unfold Verif.Config.normalize at h'
  simp only at h'
  split at h'
  · rename_i a b ha hb
    split_ifs at h' with hab
    have hv : ∀ x, x ∈ data.filterMap id ↔ some x ∈ data := by intro x; simp
    obtain ⟨a1, a2⟩ := List.min?_eq_some_iff.mp ha
    obtain ⟨b1, b2⟩ := List.max?_eq_some_iff.mp hb
    obtain ⟨out, e1, e2, e3⟩ := Verif.Config.C55_normalize data (-(1 / 2)) (1 / 2) a b ((hv _).mp a1)
      ((hv _).mp b1) (fun x hx => a2 x ((hv x).mpr hx)) (fun x hx => b2 x ((hv x).mpr hx))
      (fun e => hab (by rw [e, sub_self]))
    rw [h, Option.some.injEq] at e1
    subst e1
    have hlt : k < data.length := by
      rw [← e2]
      by_contra hge
      rw [List.getElem?_eq_none (by omega)] at hk
      simp at hk
    cases hd : data[k] with
    | none =>
      rw [(e3 k).1 (by rw [List.getElem?_eq_getElem hlt, hd])] at hk
      simp at hk
    | some x =>
      obtain ⟨y', h1, -, -, -, h2⟩ := (e3 k).2 x (by rw [List.getElem?_eq_getElem hlt, hd])
      rw [hk, Option.some.injEq, Option.some.injEq] at h1
      subst h1
      exact h2 (by norm_num)
  · exact absurd h' (by simp)

theorem listonOpt_at (sw cw : ℝ) (cells : List (Option Cell)) (k : ℕ) (c : Cell) (x d : ℝ)
    (hc : cells[k]? = some (some c)) (h : (listonOpt sw cw cells)[k]? = some (some (x, d))) :
    ∃ s, -(1 / 2) ≤ s ∧ s ≤ 1 / 2 ∧ x = max (1 / 10) (correctCell sw cw s c).1 ∧
      d = (correctCell sw cw s c).2 := by
  unfold listonOpt at h
  split at h
  · rw [List.getElem?_map, Option.map_eq_some_iff] at h
    obtain ⟨_, _, h⟩ := h
    exact absurd h (by simp)
  · rename_i ss hss
    rw [List.getElem?_zipWith_eq_some] at h
    obtain ⟨a, b, ha, hb, h⟩ := h
    rw [hc, Option.some.injEq] at ha
    subst ha
    simp only [Option.bind_some, Option.map_eq_some_iff, Prod.mk.injEq] at h
    obtain ⟨s, rfl, h1, h2⟩ := h
    obtain ⟨h3, h4⟩ := normalize_half hss k s hb
    exact ⟨s, h3, h4, h1.symm, h2.symm⟩

/-- Wind component interpolated to the pixel of a station. -/
theorem comp_station (g : Stn → Stn) (hg : ∀ q, (g q).x = q.x ∧ (g q).y = q.y ∧ (g q).z = q.z) {c : Cfg}
    (htr : c.trend = .fixed ∨ c.trend = .fractional) {pre post : List Stn} {s : Stn} {v : ℝ}
    {px : ι → Px} {roi : List ι} {vals : List (Option ℝ)}
    (h : interpRoi .windVec c ((pre ++ s :: post).map g) px (fun _ => none) roi = some vals)
    (hv : (g s).v = some v) (i : ι) (hx : s.x = (px i).x) (hy : s.y = (px i).y) (hz : s.z = (px i).z)
    (hpre : ∀ q ∈ pre, ¬ (q.x = (px i).x ∧ q.y = (px i).y)) (k : ℕ) (hk : roi[k]? = some i) :
    vals[k]? = some (some v) := by
  obtain ⟨-, hall⟩ := mapM_spec _ _ _ h
  obtain ⟨b, hb, hf⟩ := hall k i hk
  have hst := C57_station .windVec (by simp) c.trend (by rcases htr with e | e <;> simp [e]) c.lapse c.extrapolate
    (pre.map g) (post.map g) (g s) v ⟨(px i).x, (px i).y, (px i).z, (none : Option ℝ).getD 0⟩ hv trivial
    (by rcases htr with e | e <;> rw [e] <;> exact trivial)
    (by rw [(hg s).1, hx]) (by rw [(hg s).2.1, hy]) (by rw [(hg s).2.2, hz])
    (by
      intro q hq _
      obtain ⟨q', hq', rfl⟩ := List.mem_map.mp hq
      rw [(hg q').1, (hg q').2.1]
      exact hpre q' hq')
  rw [List.map_append, List.map_cons] at hf
  rw [hst] at hf
  simp at hf
  rw [hb, hf]

/-- The trend is calculated so that stations get their own value (C57). -/
def Exact (c : Cfg) (st : List Stn) : Prop := c.trend ≠ .adjustment ∧ Reproducing c.trend st

theorem stationData_split (a b : Station → Option ℝ) (pre post : List Station) (s : Station) (v w x y z : ℝ)
    (hv : a s = some v) (hw : b s = some w) (hx : s.x = some x) (hy : s.y = some y) (hz : s.alt = some z) :
    stationData a b (pre ++ s :: post) = stationData a b pre ++ ⟨x, y, z, some v, w⟩ :: stationData a b post := by
  unfold stationData
  rw [List.filterMap_append, List.filterMap_cons_some (b := (⟨x, y, z, some v, w⟩ : Stn))]
  unfold stationRec
  rw [hv, hw, hx, hy, hz]

theorem stationData_pos (a b : Station → Option ℝ) (pre : List Station) (x y : ℝ)
    (hpre : ∀ q ∈ pre, ¬ (q.x = some x ∧ q.y = some y)) :
    ∀ q ∈ stationData a b pre, ¬ (q.x = x ∧ q.y = y) := by
  intro q hq
  unfold stationData at hq
  obtain ⟨s, hs, he⟩ := List.mem_filterMap.mp hq
  unfold stationRec at he
  split at he
  · rename_i h1 h2 h3 h4 h5
    rw [Option.some.injEq] at he
    subst he
    rintro ⟨e1, e2⟩
    exact hpre s hs ⟨by rw [h3, ← e1], by rw [h4, ← e2]⟩
  · simp at he

/-- One parameter at the pixel of a station. -/
theorem param_station {p : Param} (hp : p ≠ .relHum) {c : Cfg} {a : Station → Option ℝ} {pre post : List Station}
    {s : Station} {v : ℝ} {px : ι → Px} {roi : List ι} {vals : List (Option ℝ)}
    (h : interpRoi p c (stationData a a (pre ++ s :: post)) px (fun _ => none) roi = some vals)
    (hv : a s = some v) (hphys : Physical p v) (hex : Exact c (stationData a a (pre ++ s :: post)))
    (i : ι) (hi : i ∈ roi) (hx : s.x = some (px i).x) (hy : s.y = some (px i).y) (hz : s.alt = some (px i).z)
    (hpre : ∀ q ∈ pre, ¬ (q.x = some (px i).x ∧ q.y = some (px i).y)) (old : ι → Option ℝ) :
    assign roi vals old i = some v := by
  obtain ⟨r, hr, e⟩ := interp_inside h i hi
  have hs := stationData_split a a pre post s v v _ _ _ hv hv hx hy hz
  obtain ⟨h1, h2⟩ := hex
  rw [hs] at hr h2
  rw [C57_station p hp c.trend h1 c.lapse c.extrapolate _ _ _ v _ rfl hphys h2 rfl rfl rfl
    fun q hq _ => stationData_pos a a pre _ _ hpre q hq, Option.some.injEq] at hr
  rw [e, if_neg hp, ← hr]

/-- **C104 (at a station).** A pixel at the position and elevation of a station gets the physical values measured
there, in every interpolated field (humidity together with the temperature), whatever the other stations measure, as
long as no preceding station has the same position. -/
theorem C104_station (c : Cfgs) (px : ι → Px) (roi : List ι) (pre post : List Station) (s : Station)
    (o f : Fields ι) (h : interpolateData c px roi (pre ++ s :: post) o = some f) (i : ι) (hi : i ∈ roi)
    (hx : s.x = some (px i).x) (hy : s.y = some (px i).y) (hz : s.alt = some (px i).z)
    (hpre : ∀ q ∈ pre, ¬ (q.x = some (px i).x ∧ q.y = some (px i).y)) :
    (∀ v, s.temp = some v → 0 ≤ v → Exact c.temp (stationData (·.temp) (·.temp) (pre ++ s :: post)) →
      f.temp i = some v ∧
      ∀ rh, s.relHum = some rh → 0 < rh → rh ≤ 100 → T0 - 23418 / 100 < v → c.hum.extrapolate = true →
        Exact c.hum (toDew (stationData (·.relHum) (·.temp) (pre ++ s :: post))) → f.relHum i = some rh) ∧
    (∀ v, s.precip = some v → 0 ≤ v → Exact c.precip (stationData (·.precip) (·.precip) (pre ++ s :: post)) →
      f.precip i = some v) ∧
    (c.method = .idw →
      (∀ v, s.windSpeed = some v → 1 / 10 ≤ v →
        Exact c.wind (stationData (·.windSpeed) (·.windSpeed) (pre ++ s :: post)) → f.windSpeed i = some v) ∧
      ∀ v, c.hasGusts = true → s.gust = some v → 1 / 10 ≤ v →
        Exact c.wind (stationData (·.gust) (·.gust) (pre ++ s :: post)) → f.gust i = some v) := by
  obtain ⟨⟨t, ht, et⟩, ⟨p, hp, ep⟩, ⟨r, hr, er⟩, hw⟩ := data_some h
  refine ⟨fun v hv h0 hex => ?_, fun v hv h0 hex => ?_, fun hm => ⟨fun v hv h0 hex => ?_, fun v hg hv h0 hex => ?_⟩⟩
  · have hft : f.temp i = some v := by
      rw [et]
      exact param_station (by simp) ht hv h0 hex i hi hx hy hz hpre _
    refine ⟨hft, fun rh hrh hr0 hr1 hT hext hexh => ?_⟩
    obtain ⟨x, hx', e⟩ := interp_inside hr i hi
    have hs := stationData_split (·.relHum) (·.temp) pre post s rh v _ _ _ hrh hv hx hy hz
    obtain ⟨h1, h2⟩ := hexh
    rw [hs] at hx' h2
    rw [hft, hext, C57_station_humidity c.hum.trend h1 c.hum.lapse _ _ _ rh _ rfl hr0 hr1 (by simpa using hT) h2 rfl rfl rfl
      (by simp) fun q hq => stationData_pos _ _ pre _ _ hpre q hq, Option.some.injEq] at hx'
    rw [er, e, if_pos rfl, hft, Option.bind_some, ← hx']
  · rw [ep]
    exact param_station (by simp) hp hv h0 hex i hi hx hy hz hpre _
  · rcases hw with ⟨-, -, ⟨w, hw, ew⟩, -⟩ | ⟨sw, cw, hm', -⟩
    · rw [ew]
      exact param_station (by simp) hw hv h0 hex i hi hx hy hz hpre _
    · rw [hm] at hm'; exact absurd hm' (by simp)
  · rcases hw with ⟨-, -, -, hw⟩ | ⟨sw, cw, hm', -⟩
    · rcases hw with ⟨hg', -⟩ | ⟨-, g, hgi, eg⟩
      · rw [hg] at hg'; exact absurd hg' (by simp)
      · rw [eg]
        exact param_station (by simp) hgi hv h0 hex i hi hx hy hz hpre _
    · rw [hm] at hm'; exact absurd hm' (by simp)

/-- With the lapse rate trends there is no further condition on the stations. -/
theorem exact_of_lapse (c : Cfg) (st : List Stn) (h : c.trend = .fixed ∨ c.trend = .fractional) : Exact c st := by
  unfold Exact
  rcases h with e | e <;> rw [e] <;> exact ⟨by simp, trivial⟩

/-- **C104 (wind at a station).** With the Liston method and a lapse rate trend a pixel at a station with wind gets a
wind (unless the slope in wind direction is the same everywhere, C65) whose direction is within a quarter of a degree
of the measured one and whose speed is the measured one up to the weights of slope and curvature. -/
theorem C104_wind_station (c : Cfgs) (px : ι → Px) (roi : List ι) (hroi : roi.Nodup) (pre post : List Station)
    (s : Station) (o f : Fields ι) (sw cw : ℝ) (hsw : 0 ≤ sw) (hcw : 0 ≤ cw) (hm : c.method = .liston sw cw)
    (htr : c.wind.trend = .fixed ∨ c.wind.trend = .fractional)
    (h : interpolateData c px roi (pre ++ s :: post) o = some f) (ws wd : ℝ) (hws : s.windSpeed = some ws)
    (hpos : 0 < ws) (hwd : s.windDir = some wd) (i : ι) (hi : i ∈ roi) (hx : s.x = some (px i).x)
    (hy : s.y = some (px i).y) (hz : s.alt = some (px i).z)
    (hpre : ∀ q ∈ pre, ¬ (q.x = some (px i).x ∧ q.y = some (px i).y)) (hcurv : |(px i).curv| ≤ 1 / 2) (x : ℝ)
    (hfx : f.windSpeed i = some x) :
    max (1 / 10) (ws * (1 - (sw + cw) / 2)) ≤ x ∧ x ≤ max (1 / 10) (ws * (1 + (sw + cw) / 2)) ∧
    ∃ (d : ℝ) (n : ℤ), f.windDir i = some d ∧ 0 ≤ d ∧ d < 360 ∧ |d - (wd + 360 * n)| ≤ 1 / 4 := by
  obtain ⟨-, -, -, hw⟩ := data_some h
  rcases hw with ⟨hm', -⟩ | ⟨sw', cw', hm', ⟨w, hw, ew, ed⟩, -⟩
  · rw [hm] at hm'; exact absurd hm' (by simp)
  rw [hm, WindMethod.liston.injEq] at hm'
  obtain ⟨rfl, rfl⟩ := hm'
  have hlen := listonRoi_length hw
  obtain ⟨k, v, h1, hk, e⟩ := assign_inside roi (w.map fun o => o.map Prod.fst) (by simpa using hlen) i hi
  obtain ⟨k', v', h1', hk', e'⟩ := assign_inside roi (w.map fun o => o.map Prod.snd) (by simpa using hlen) i hi
  have hklt : k < roi.length := by
    by_contra hge
    rw [List.getElem?_eq_none (by omega)] at h1
    simp at h1
  have hkk : k = k' := (List.getElem?_inj hklt hroi).mp (by rw [h1, h1'])
  subst hkk
  rw [ew, e] at hfx
  subst hfx
  rw [List.getElem?_map, Option.map_eq_some_iff] at hk
  obtain ⟨q, hq, hk⟩ := hk
  rw [Option.map_eq_some_iff] at hk
  obtain ⟨⟨a, d⟩, rfl, rfl⟩ := hk
  rw [List.getElem?_map, hq, Option.map_some, Option.map_some, Option.some.injEq] at hk'
  -- the stations
  have hrec : stationRec (·.windSpeed) (·.windDir) s = some ⟨(px i).x, (px i).y, (px i).z, some ws, wd⟩ := by
    simp [stationRec, hws, hwd, hx, hy, hz]
  have hst : stationData (·.windSpeed) (·.windDir) (pre ++ s :: post) =
      stationData (·.windSpeed) (·.windDir) pre ++
        ⟨(px i).x, (px i).y, (px i).z, some ws, wd⟩ :: stationData (·.windSpeed) (·.windDir) post := by
    simp only [stationData, List.filterMap_append, List.filterMap_cons, hrec]
  have hpre' : ∀ q ∈ stationData (·.windSpeed) (·.windDir) pre, ¬ (q.x = (px i).x ∧ q.y = (px i).y) := by
    intro q hq hc
    rw [stationData, List.mem_filterMap] at hq
    obtain ⟨p, hp, hr⟩ := hq
    simp only [stationRec] at hr
    split at hr
    · rename_i ex ey _
      rw [Option.some.injEq] at hr
      subst hr
      exact hpre p hp ⟨by rw [ex]; exact congrArg some hc.1, by rw [ey]; exact congrArg some hc.2⟩
    · exact absurd hr (by simp)
  simp only [listonRoi, hst] at hw
  split at hw
  on_goal 2 => exact absurd hw (by simp)
  rename_i u vv hu hv
  rw [Option.some.injEq] at hw
  subst hw
  have eu := comp_station (fun s => { s with v := s.v.map fun v => (windToUv v s.temp).1 })
    (fun q => ⟨rfl, rfl, rfl⟩) htr hu (v := (windToUv ws wd).1) rfl i rfl rfl rfl hpre' k h1
  have ev := comp_station (fun s => { s with v := s.v.map fun v => (windToUv v s.temp).2 })
    (fun q => ⟨rfl, rfl, rfl⟩) htr hv (v := (windToUv ws wd).2) rfl i rfl rfl rfl hpre' k h1
  obtain ⟨t, ht1, ht2, rfl, rfl⟩ := listonOpt_at _ _ _ k
    ⟨ws, fmod wd 360, (px i).slope, (px i).aspect, (px i).curv⟩ _ _ (by
      rw [List.getElem?_zipWith, h1]
      have : (u.zip vv)[k]? = some (some (windToUv ws wd).1, some (windToUv ws wd).2) := by
        rw [List.getElem?_zip_eq_some]; exact ⟨eu, ev⟩
      rw [this]
      simp only [C62_round_trip ws wd hpos]) hq
  obtain ⟨c1, c2⟩ := abs_le.mp hcurv
  refine ⟨?_, ?_, (correctCell sw cw t ⟨ws, fmod wd 360, (px i).slope, (px i).aspect, (px i).curv⟩).2,
    -⌊wd / 360⌋ -
    ⌊(fmod wd 360 + -(1 / 2) * t * Real.sin (-2 * rad (fmod wd 360 - (px i).aspect))) / 360⌋, by rw [ed, e', ← hk'],
    (Atmosphere.fmod_mem _ _ (by norm_num)).1, (Atmosphere.fmod_mem _ _ (by norm_num)).2, ?_⟩
  · apply max_le_max_left
    simp only [correctCell]
    apply mul_le_mul_of_nonneg_left _ hpos.le
    nlinarith
  · apply max_le_max_left
    simp only [correctCell]
    apply mul_le_mul_of_nonneg_left _ hpos.le
    nlinarith
  · simp only [correctCell]
    obtain ⟨si, hsi⟩ : ∃ si, Real.sin (-2 * rad (fmod wd 360 - (px i).aspect)) = si := ⟨_, rfl⟩
    have hb1 : -1 ≤ si := by rw [← hsi]; exact Real.neg_one_le_sin _
    have hb2 : si ≤ 1 := by rw [← hsi]; exact Real.sin_le_one _
    rw [hsi]
    obtain ⟨n, hn⟩ : ∃ n, ⌊(fmod wd 360 + -(1 / 2) * t * si) / 360⌋ = n := ⟨_, rfl⟩
    have e1 : fmod (fmod wd 360 + -(1 / 2) * t * si) 360 = fmod wd 360 + -(1 / 2) * t * si - 360 * n := by
      rw [← hn]; rfl
    have e2 : fmod wd 360 = wd - 360 * ⌊wd / 360⌋ := rfl
    rw [hn, e1, e2]
    push_cast
    rw [show wd - 360 * (⌊wd / 360⌋ : ℝ) + -(1 / 2) * t * si - 360 * (n : ℝ) -
      (wd + 360 * (-(⌊wd / 360⌋ : ℝ) - n)) = -(1 / 2) * t * si by ring]
    rw [abs_le]
    constructor <;> nlinarith

theorem single_station (s : Stn) (v : ℝ) (hv : s.v = some v) (e : Bool) (t : Target) :
    interpolate .windVec .fixed 0 e [s] t = some (some v) := by
  have hl : Verif.Idw.loop 2 0 t.x t.y [(⟨s.x, s.y, v⟩ : Verif.Idw.Pt)] 0 0 = v := by
    by_cases hd : Verif.Idw.dist 0 (⟨s.x, s.y, v⟩ : Verif.Idw.Pt) t.x t.y = 0
    · simpa using Verif.Idw.loop_of_hit 2 0 t.x t.y [] [] ⟨s.x, s.y, v⟩ 0 0 (by simp) hd
    · rw [Verif.Idw.loop_of_all_pos _ _ _ _ _ _ _ (by simpa using hd)]
      have := Verif.Idw.weight_pos (power := 2) hd
      simp only [List.map_cons, List.map_nil, List.sum_cons, List.sum_nil, zero_add, add_zero]
      rw [mul_div_assoc, mul_comm, div_mul_cancel₀ _ this.ne']
  have hi : trended .fixed 0 [s] t = some (some v) := by
    simp [trended, trendInterp, idwAt, pts, hv, hl]
  unfold interpolate
  rw [if_neg (by simp)]
  simp only [reduceCtorEq, if_false, hi, Option.map_some, Option.some.injEq]
  have : vals [s] = [v] := by simp [vals, hv]
  rw [this]
  cases e <;> simp [clipData, clipAllowed, Param.allowed, clip]

theorem comp_single {px : ι → Px} {roi : List ι} {e : Bool} (s : Stn) (v : ℝ) (hv : s.v = some v) :
    interpRoi .windVec ⟨.fixed, 0, e⟩ [s] px (fun _ => none) roi = some (roi.map fun _ => some v) := by
  unfold interpRoi
  rw [mapM_congr_mem _ (fun _ => some (some v)) roi (fun i _ => by simp [single_station s v hv])]
  induction roi with
  | nil => rfl
  | cons i r ih => simp [List.mapM_cons, ih]

/-- **C104 (wind of a single station).** If one station measures wind and there is no lapse rate, every pixel of the
region of interest gets a wind within the bounds of `C104_wind_station`, provided that the slope in wind direction is
not the same everywhere. -/
theorem C104_wind_single (c : Cfgs) (px : ι → Px) (roi : List ι) (s : Station) (o f : Fields ι) (sw cw : ℝ)
    (hsw : 0 ≤ sw) (hcw : 0 ≤ cw) (e : Bool) (hm : c.method = .liston sw cw) (hc : c.wind = ⟨.fixed, 0, e⟩)
    (h : interpolateData c px roi [s] o = some f) (ws wd : ℝ) (hws : s.windSpeed = some ws)
    (hpos : 0 < ws) (hwd : s.windDir = some wd) (hco : s.x ≠ none ∧ s.y ≠ none ∧ s.alt ≠ none)
    (hcurv : ∀ i ∈ roi, |(px i).curv| ≤ 1 / 2) (a b : ι) (ha : a ∈ roi) (hb : b ∈ roi)
    (hab : (px a).slope * Real.cos (rad (fmod wd 360 - (px a).aspect)) ≠
      (px b).slope * Real.cos (rad (fmod wd 360 - (px b).aspect))) (i : ι) (hi : i ∈ roi) :
    (∃ x, f.windSpeed i = some x ∧ max (1 / 10) (ws * (1 - (sw + cw) / 2)) ≤ x ∧
      x ≤ max (1 / 10) (ws * (1 + (sw + cw) / 2))) ∧
    ∃ (d : ℝ) (n : ℤ), f.windDir i = some d ∧ 0 ≤ d ∧ d < 360 ∧ |d - (fmod wd 360 + 360 * n)| ≤ 1 / 4 := by
  obtain ⟨-, -, -, hw⟩ := data_some h
  rcases hw with ⟨hm', -⟩ | ⟨sw', cw', hm', ⟨w, hw, ew, ed⟩, -⟩
  · rw [hm] at hm'; exact absurd hm' (by simp)
  rw [hm, WindMethod.liston.injEq] at hm'
  obtain ⟨rfl, rfl⟩ := hm'
  obtain ⟨⟨x, hx⟩, ⟨y, hy⟩, ⟨z, hz⟩⟩ := And.imp Option.ne_none_iff_exists'.mp
    (And.imp Option.ne_none_iff_exists'.mp Option.ne_none_iff_exists'.mp) hco
  have hst : stationData (·.windSpeed) (·.windDir) [s] = [⟨x, y, z, some ws, wd⟩] := by
    simp [stationData, stationRec, hws, hwd, hx, hy, hz]
  obtain ⟨cell, hcell⟩ : ∃ cell : ι → Cell,
      cell = fun i => ⟨ws, fmod wd 360, (px i).slope, (px i).aspect, (px i).curv⟩ := ⟨_, rfl⟩
  have hcells : w = liston sw cw (roi.map cell) := by
    rw [← C104_liston]
    simp only [listonRoi, hst, hc, List.map_cons, List.map_nil] at hw
    rw [comp_single _ (windToUv ws wd).1 rfl, comp_single _ (windToUv ws wd).2 rfl] at hw
    simp only [Option.some.injEq] at hw
    rw [← hw]
    congr 1
    clear hw ew ed ha hb hi hcurv h
    induction roi with
    | nil => rfl
    | cons j r ih =>
      simp only [List.map_cons, List.zip_cons_cons, List.zipWith_cons_cons, ih,
        C62_round_trip ws wd hpos, hcell]
  have hlen := listonRoi_length hw
  have hres := C65_liston sw cw hsw hcw (roi.map cell)
    (by
      intro q hq
      obtain ⟨j, hj, rfl⟩ := List.mem_map.mp hq
      rw [hcell]; exact hcurv j hj)
    (by
      intro q hq
      obtain ⟨j, hj, rfl⟩ := List.mem_map.mp hq
      rw [hcell]; exact hpos.le)
    (cell a) (cell b) (List.mem_map.mpr ⟨a, ha, rfl⟩) (List.mem_map.mpr ⟨b, hb, rfl⟩)
    (by
      intro he
      apply hab
      simp only [hcell, windSlope] at he
      have hpi : (Real.pi / 180) ≠ 0 := by have := Real.pi_pos; positivity
      apply mul_left_cancel₀ hpi
      have r1 : ∀ q : ℝ, rad q = Real.pi / 180 * q := fun q => mul_comm _ _
      rw [r1 (px a).slope, r1 (px b).slope] at he
      linarith)
  rw [← hcells] at hres
  obtain ⟨-, hres⟩ := hres
  have hat : ∀ k : ℕ, roi[k]? = some i → (roi.map cell)[k]? = some (cell i) := fun k hk => by
    rw [List.getElem?_map, hk]; rfl
  constructor
  · obtain ⟨k, v, h1, hk, e1⟩ := assign_inside roi (w.map fun o => o.map Prod.fst) (by simpa using hlen) i hi
    obtain ⟨sp, dir, q1, q2, q3, -⟩ := hres k _ (hat k h1)
    rw [List.getElem?_map, q1, Option.map_some, Option.map_some, Option.some.injEq] at hk
    rw [hcell] at q2 q3
    exact ⟨sp, by rw [ew, e1, ← hk], q2, q3⟩
  · obtain ⟨k, v, h1, hk, e1⟩ := assign_inside roi (w.map fun o => o.map Prod.snd) (by simpa using hlen) i hi
    obtain ⟨sp, dir, q1, -, -, q4, q5, n, q6⟩ := hres k _ (hat k h1)
    rw [List.getElem?_map, q1, Option.map_some, Option.map_some, Option.some.injEq] at hk
    rw [hcell] at q6
    exact ⟨dir, n, by rw [ed, e1, ← hk], q4, q5, q6⟩

/-- Non-vacuity of `C104_wind_station` and `C104_wind_single`: a station at the first of two pixels, of which the
second one is level, and north wind. -/
example (o : Fields Bool) :
    let px : Bool → Px := fun i => ⟨0, 0, 0, if i then 0 else 30, 0, 0⟩
    let cfg : Cfg := ⟨.fixed, 0, true⟩
    ∃ f x, interpolateData ⟨cfg, cfg, cfg, cfg, .liston (1 / 2) (1 / 2), false⟩ px [false, true]
      [⟨some 0, some 0, some 0, some 270, none, none, some 5, some 0, none⟩] o = some f ∧
      f.windSpeed false = some x ∧ 5 / 2 ≤ x := by
  intro px cfg
  have hex : ∃ f, interpolateData ⟨cfg, cfg, cfg, cfg, .liston (1 / 2) (1 / 2), false⟩ px [false, true]
      [⟨some 0, some 0, some 0, some 270, none, none, some 5, some 0, none⟩] o = some f := by
    simp [interpolateData, interpRoi, interpolate, stationData, stationRec, trended, cfg, listonRoi]
  obtain ⟨f, hf⟩ := hex
  obtain ⟨⟨x, hx, h1, -⟩, -⟩ := C104_wind_single _ px _ _ _ f (1 / 2) (1 / 2) (by norm_num) (by norm_num) true rfl
    rfl hf 5 0 rfl (by norm_num) rfl (by simp) (by intro i _; simp [px]) false true (by simp) (by simp)
    (by simp [px, fmod, rad]) false (by simp)
  refine ⟨f, x, hf, hx, le_trans ?_ h1⟩
  rw [le_max_iff]; right; norm_num

/-- **C104 (complete fields).** With the fixed lapse rate one complete station suffices for temperature at
every pixel of the region of interest. -/
theorem C104_defined (c : Cfgs) (px : ι → Px) (roi : List ι) (st : List Station) (o f : Fields ι)
    (h : interpolateData c px roi st o = some f) (htr : c.temp.trend = .fixed) (s : Station) (hs : s ∈ st)
    (hc : s.x ≠ none ∧ s.y ≠ none ∧ s.alt ≠ none) (ht : s.temp ≠ none) (i : ι) (hi : i ∈ roi) :
    ∃ x, f.temp i = some x ∧ 0 ≤ x := by
  obtain ⟨⟨t, hti, et⟩, -⟩ := data_some h
  obtain ⟨v, hv, e⟩ := interp_inside hti i hi
  have hne : pts (fun s v => v - c.temp.lapse * s.z) (stationData (·.temp) (·.temp) st) ≠ [] := by
    obtain ⟨⟨x, hx⟩, ⟨y, hy⟩, ⟨z, hz⟩⟩ := And.imp Option.ne_none_iff_exists'.mp
      (And.imp Option.ne_none_iff_exists'.mp Option.ne_none_iff_exists'.mp) hc
    obtain ⟨w, hw⟩ := Option.ne_none_iff_exists'.mp ht
    have hm : (⟨x, y, z, some w, w⟩ : Stn) ∈ stationData (·.temp) (·.temp) st := by
      rw [stationData, List.mem_filterMap]
      exact ⟨s, hs, by simp [stationRec, hx, hy, hz, hw]⟩
    have : (⟨x, y, w - c.temp.lapse * z⟩ : Verif.Idw.Pt) ∈
        pts (fun s v => v - c.temp.lapse * s.z) (stationData (·.temp) (·.temp) st) := by
      rw [pts, List.mem_filterMap]
      exact ⟨_, hm, rfl⟩
    exact List.ne_nil_of_mem this
  have hlen : (stationData (·.temp) (·.temp) st).length ≠ 0 := by
    intro h0
    rw [List.length_eq_zero_iff] at h0
    rw [h0] at hne
    exact hne rfl
  have hsome : ∃ x, v = some x := by
    unfold interpolate at hv
    rw [if_neg hlen, htr] at hv
    simp only [trended, trendInterp, Option.map_some, Option.some.injEq] at hv
    rw [← hv]
    simp [idwAt, List.length_eq_zero_iff, hne]
  obtain ⟨x, rfl⟩ := hsome
  refine ⟨x, ?_, (interpolate_range hv).1 rfl⟩
  rw [et, e]
  simp

/-- Non-vacuity: a single station without humidity and wind, one pixel. -/
example (px : Unit → Px) (o : Fields Unit) :
    let cfg : Cfg := ⟨.fixed, 0, true⟩
    ∃ f, interpolateData ⟨cfg, cfg, cfg, cfg, .idw, false⟩ px [()]
      [⟨some 0, some 0, some 0, some 270, none, none, none, none, none⟩] o = some f ∧
      f.precip () = some 0 ∧ f.relHum () = none ∧ f.windSpeed () = none ∧ ∃ x, f.temp () = some x := by
  intro cfg
  have hex : ∃ f, interpolateData ⟨cfg, cfg, cfg, cfg, .idw, false⟩ px [()]
      [⟨some 0, some 0, some 0, some 270, none, none, none, none, none⟩] o = some f := by
    simp [interpolateData, interpRoi, interpolate, stationData, stationRec, trended, cfg]
  obtain ⟨f, hf⟩ := hex
  obtain ⟨x, hx, -⟩ := C104_defined _ _ _ _ _ f hf rfl _ (List.mem_singleton.mpr rfl) (by simp) (by simp)
    () (by simp)
  have := C104_no_stations _ _ _ _ _ f hf () (by simp)
  exact ⟨f, hf, this.2.1 (by simp), this.2.2.1 (by simp), this.2.2.2 rfl (by simp), x, hx⟩

end Verif.MeteoFields
