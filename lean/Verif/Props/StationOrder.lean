import Verif.Lemmas.StationOrder
import Verif.Model.Meteorology

/-!
# C146: the order of the stations does not matter
-/

set_option linter.unusedSectionVars false

namespace Verif.MeteoFields

open Verif.MeteoInterp

variable {ι : Type*} [DecidableEq ι]

/-- Specification: stations in the centre of the same pixel are the same station. -/
def Distinct (px : ι → Px) (roi : List ι) (st : List Station) : Prop :=
  ∀ i ∈ roi, ∀ s ∈ st, ∀ s' ∈ st, s.x = some (px i).x → s.y = some (px i).y → s'.x = some (px i).x →
    s'.y = some (px i).y → s = s'

/-- Specification: a station without position or elevation, or without any record that is interpolated. -/
def Useless (s : Station) : Prop :=
  s.x = none ∨ s.y = none ∨ s.alt = none ∨ (s.temp = none ∧ s.precip = none ∧ s.windSpeed = none ∧ s.gust = none)

theorem stationRec_some {a b : Station → Option ℝ} {s : Station} {r : Stn} (h : stationRec a b s = some r) :
    s.x = some r.x ∧ s.y = some r.y ∧ s.alt = some r.z ∧ a s = r.v ∧ b s = some r.temp ∧ r.v.isSome = true := by
  unfold stationRec at h
  split at h
  · rename_i h1 h2 h3 h4 h5
    simp only [Option.some.injEq] at h
    subst h
    exact ⟨h3, h4, h5, h1, h2, rfl⟩
  · simp at h

theorem oneAt_of_distinct {px : ι → Px} {roi : List ι} {st : List Station} (h : Distinct px roi st)
    (a b : Station → Option ℝ) : OneAt px roi (stationData a b st) := by
  intro i hi r hr r' hr' h1 h2 h3 h4
  obtain ⟨s, hs, he⟩ := List.mem_filterMap.mp hr
  obtain ⟨s', hs', he'⟩ := List.mem_filterMap.mp hr'
  have e := stationRec_some he
  have e' := stationRec_some he'
  have := h i hi s hs s' hs' (by rw [e.1, h1]) (by rw [e.2.1, h2]) (by rw [e'.1, h3]) (by rw [e'.2.1, h4])
  subst this
  rw [he] at he'
  exact Option.some.inj he'

theorem useless_rec {s : Station} (a b : Station → Option ℝ)
    (hab : (a s = none ∨ b s = none) ∨ s.x = none ∨ s.y = none ∨ s.alt = none) : stationRec a b s = none := by
  cases hr : stationRec a b s with
  | none => rfl
  | some r =>
    obtain ⟨h1, h2, h3, h4, h5, h6⟩ := stationRec_some hr
    rcases hab with (h' | h') | h' | h' | h'
    · rw [h'] at h4; rw [← h4] at h6; simp at h6
    · rw [h'] at h5; simp at h5
    · rw [h'] at h1; simp at h1
    · rw [h'] at h2; simp at h2
    · rw [h'] at h3; simp at h3

/-- **C146.** The fields of a date do not depend on the order of the stations, nor on stations that have no position or
no record. The only provisos are that no two stations are in the centre of the same pixel and that the fit of a piecewise
trend does not depend on the order of the points. -/
theorem C146_order_partial (c : Cfgs) (hu : c.Unordered) (px : ι → Px) (roi : List ι) (st st' more : List Station)
    (hp : st'.Perm (st ++ more)) (hm : ∀ s ∈ more, Useless s) (hd : Distinct px roi st) (old : Fields ι) :
    interpolateData c px roi st old = interpolateData c px roi st' old := by
  apply interpolateData_congr c hu
  have key : ∀ a b : Station → Option ℝ, (∀ s ∈ more, stationRec a b s = none) → SameRecs px roi a b st st' := by
    intro a b hab
    refine ⟨?_, oneAt_of_distinct hd a b⟩
    have h1 : (stationData a b st').Perm (stationData a b (st ++ more)) := hp.filterMap _
    have h2 : stationData a b (st ++ more) = stationData a b st := by
      unfold stationData
      rw [List.filterMap_append, List.filterMap_eq_nil_iff.mpr hab, List.append_nil]
    rw [h2] at h1
    exact h1.symm
  simp only [List.mem_cons, List.not_mem_nil, or_false, forall_eq_or_imp, forall_eq]
  refine ⟨key _ _ ?_, key _ _ ?_, key _ _ ?_, key _ _ ?_, key _ _ ?_, key _ _ ?_, key _ _ ?_⟩ <;> intro s hs <;>
    apply useless_rec <;> rcases hm s hs with h | h | h | ⟨h1, h2, h3, h4⟩ <;> simp_all

/-- **C146.** For every single variable the stations without record of this variable do not matter: temperature and
precipitation depend, up to order, on the complete records of this variable, humidity on those of humidity and
temperature, wind speed interpolated by distance on those of wind speed. -/
theorem C146_variable_partial (c : Cfgs) (hu : c.Unordered) (px : ι → Px) (roi : List ι) (st st' : List Station)
    (old f f' : Fields ι) (hd : Distinct px roi st) (h : interpolateData c px roi st old = some f)
    (h' : interpolateData c px roi st' old = some f') :
    ((stationData (·.temp) (·.temp) st).Perm (stationData (·.temp) (·.temp) st') → f.temp = f'.temp) ∧
    ((stationData (·.precip) (·.precip) st).Perm (stationData (·.precip) (·.precip) st') → f.precip = f'.precip) ∧
    ((stationData (·.temp) (·.temp) st).Perm (stationData (·.temp) (·.temp) st') →
      (stationData (·.relHum) (·.temp) st).Perm (stationData (·.relHum) (·.temp) st') → f.relHum = f'.relHum) ∧
    (c.method = .idw → (stationData (·.windSpeed) (·.windSpeed) st).Perm (stationData (·.windSpeed) (·.windSpeed) st') →
      f.windSpeed = f'.windSpeed) := by
  have core : ∀ (st : List Station) (f : Fields ι), interpolateData c px roi st old = some f → ∃ t p r,
      interpRoi .temp c.temp (stationData (·.temp) (·.temp) st) px (fun _ => none) roi = some t ∧
      interpRoi .precip c.precip (stationData (·.precip) (·.precip) st) px (fun _ => none) roi = some p ∧
      interpRoi .relHum c.hum (stationData (·.relHum) (·.temp) st) px (assign roi t old.temp) roi = some r ∧
      f.temp = assign roi t old.temp ∧ f.precip = assign roi p old.precip ∧ f.relHum = assign roi r old.relHum ∧
      (c.method = .idw → ∃ w, interpRoi .windSpeed c.wind (stationData (·.windSpeed) (·.windSpeed) st) px
        (fun _ => none) roi = some w ∧ f.windSpeed = assign roi w old.windSpeed) := by
    intro st f h
    simp only [interpolateData, Option.bind_eq_some_iff] at h
    obtain ⟨t, h1, p, h2, r, h3, h4⟩ := h
    refine ⟨t, p, r, h1, h2, h3, ?_⟩
    cases hm : c.method with
    | idw =>
      simp only [hm, Option.bind_eq_some_iff] at h4
      obtain ⟨w, h5, h6⟩ := h4
      by_cases hg : c.hasGusts = true
      · simp only [hg, if_true, Option.map_eq_some_iff] at h6
        obtain ⟨g, -, rfl⟩ := h6
        exact ⟨rfl, rfl, rfl, fun _ => ⟨w, h5, rfl⟩⟩
      · simp only [hg] at h6
        simp only [Bool.false_eq_true, if_false, Option.some.injEq] at h6
        subst h6
        exact ⟨rfl, rfl, rfl, fun _ => ⟨w, h5, rfl⟩⟩
    | liston sw cw =>
      simp only [hm, Option.bind_eq_some_iff] at h4
      obtain ⟨w, h5, h6⟩ := h4
      by_cases hg : c.hasGusts = true
      · simp only [hg, if_true, Option.map_eq_some_iff] at h6
        obtain ⟨g, -, rfl⟩ := h6
        exact ⟨rfl, rfl, rfl, fun h => by simp at h⟩
      · simp only [hg] at h6
        simp only [Bool.false_eq_true, if_false, Option.some.injEq] at h6
        subst h6
        exact ⟨rfl, rfl, rfl, fun h => by simp at h⟩
    | other => simp [hm] at h4
  obtain ⟨t, p, r, a1, a2, a3, a4, a5, a6, a7⟩ := core st f h
  obtain ⟨t', p', r', b1, b2, b3, b4, b5, b6, b7⟩ := core st' f' h'
  have ht : (stationData (·.temp) (·.temp) st).Perm (stationData (·.temp) (·.temp) st') → t = t' := by
    intro e
    rw [interpRoi_perm .temp c.temp hu.1 e px (fun _ => none) roi (oneAt_of_distinct hd _ _), b1] at a1
    exact (Option.some.inj a1).symm
  refine ⟨?_, ?_, ?_, ?_⟩
  · intro e
    rw [a4, b4, ht e]
  · intro e
    rw [interpRoi_perm .precip c.precip hu.2.1 e px (fun _ => none) roi (oneAt_of_distinct hd _ _), b2] at a2
    rw [a5, b5, Option.some.inj a2]
  · intro e e'
    rw [interpRoi_perm .relHum c.hum hu.2.2.1 e' px _ roi (oneAt_of_distinct hd _ _), ht e, b3] at a3
    rw [a6, b6, Option.some.inj a3]
  · intro hm e
    obtain ⟨w, w1, w2⟩ := a7 hm
    obtain ⟨w', w1', w2'⟩ := b7 hm
    rw [interpRoi_perm .windSpeed c.wind hu.2.2.2 e px (fun _ => none) roi (oneAt_of_distinct hd _ _), w1'] at w1
    rw [w2, w2', Option.some.inj w1]

/-- **C146.** The fields do not depend on the origin of the coordinates. -/
theorem C146_origin (d : ℝ × ℝ) (c : Cfgs) (px : ι → Px) (roi : List ι) (st : List Station) (old : Fields ι) :
    interpolateData c (fun i => { px i with x := (px i).x + d.1, y := (px i).y + d.2 }) roi
      (st.map fun s => { s with x := s.x.map (· + d.1), y := s.y.map (· + d.2) }) old
      = interpolateData c px roi st old :=
  interpolateData_move d c px roi st old

/-! ## Examples and the exception -/

/-- Settings without trends. -/
def flatCfg : Cfg := ⟨.fixed, 0, true⟩
def flatCfgs : Cfgs := ⟨flatCfg, flatCfg, flatCfg, flatCfg, .idw, false⟩

/-- A station at the origin with a temperature. -/
def tempAt (x t : ℝ) : Station := ⟨some x, some 0, some 0, some t, none, none, none, none, none⟩

def onePx : Unit → Px := fun _ => ⟨0, 0, 0, 0, 0, 0⟩

example : flatCfgs.Unordered ∧ Distinct onePx [()] [tempAt 0 270, tempAt 5 280] ∧
    Useless { tempAt 0 260 with alt := none } := by
  refine ⟨⟨trivial, trivial, trivial, trivial⟩, ?_, Or.inr (Or.inr (Or.inl rfl))⟩
  intro i _ s hs s' hs' h1 _ h3 _
  have h5 : ¬ ((5 : ℝ) = 0) := by norm_num
  simp only [List.mem_cons, List.not_mem_nil, or_false] at hs hs'
  rcases hs with rfl | rfl <;> rcases hs' with rfl | rfl <;> simp_all [tempAt, onePx]

/-- **C146 does not hold for two stations in the centre of the same pixel**: the first one decides. -/
theorem C146_collocated_false : ¬ ∀ (st st' : List Station) (f f' : Fields Unit), st.Perm st' →
    interpolateData flatCfgs onePx [()] st ⟨fun _ => none, fun _ => none, fun _ => none, fun _ => none, fun _ => none,
      fun _ => none⟩ = some f →
    interpolateData flatCfgs onePx [()] st' ⟨fun _ => none, fun _ => none, fun _ => none, fun _ => none, fun _ => none,
      fun _ => none⟩ = some f' → f.temp = f'.temp := by
  intro h
  have key : ∀ a b : ℝ, 0 ≤ a → ∃ f, interpolateData flatCfgs onePx [()] [tempAt 0 a, tempAt 0 b]
      ⟨fun _ => none, fun _ => none, fun _ => none, fun _ => none, fun _ => none, fun _ => none⟩ = some f ∧
      f.temp () = some a := by
    intro a b ha
    have hs : stationData (·.temp) (·.temp) [tempAt 0 a, tempAt 0 b] = [⟨0, 0, 0, some a, a⟩, ⟨0, 0, 0, some b, b⟩] := rfl
    have hi : interpolate .temp .fixed 0 true [⟨0, 0, 0, some a, a⟩, ⟨0, 0, 0, some b, b⟩] ⟨0, 0, 0, 0⟩ = some (some a) := by
      simp [interpolate, trended, trendInterp, pts, idwAt, Idw.loop, Idw.dist, clipData, clipAllowed, Param.allowed, ha]
    have hz : ∀ p, interpRoi p flatCfg [] onePx (fun _ : Unit => none) [()]
        = some [if p = .relHum then none else if p = .precip then some 0 else none] := by
      intro p
      cases p <;> simp [interpRoi, interpolate]
    have ht : interpRoi .temp flatCfg [⟨0, 0, 0, some a, a⟩, ⟨0, 0, 0, some b, b⟩] onePx (fun _ : Unit => none) [()]
        = some [some a] := by
      simp only [interpRoi, List.mapM_cons, List.mapM_nil, flatCfg, onePx, Option.getD_none, hi]
      simp
    have hp : stationData (·.precip) (·.precip) [tempAt 0 a, tempAt 0 b] = [] := rfl
    have hh : stationData (·.relHum) (·.temp) [tempAt 0 a, tempAt 0 b] = [] := rfl
    have hw : stationData (·.windSpeed) (·.windSpeed) [tempAt 0 a, tempAt 0 b] = [] := rfl
    have hr : ∀ temp, ∃ r, interpRoi .relHum flatCfg [] onePx temp [()] = some r := by
      intro temp
      exact ⟨_, by simp [interpRoi, interpolate]; rfl⟩
    obtain ⟨r, hr⟩ := hr (assign [()] [some a] fun _ => none)
    refine ⟨_, by
      simp only [interpolateData, flatCfgs, hs, ht, hp, hh, hw, hz, Option.bind_some, hr]
      rfl, ?_⟩
    simp [assign]
  obtain ⟨f, h1, h2⟩ := key 270 280 (by norm_num)
  obtain ⟨f', h3, h4⟩ := key 280 270 (by norm_num)
  have := h _ _ f f' (List.Perm.swap _ _ _) h1 h3
  rw [this, h4] at h2
  norm_num at h2

end Verif.MeteoFields

namespace Verif.Irradiance

open Verif.Idw Verif.MeteoInterp

/-- Specification: a station without cloud fraction, radiation, and temperature or humidity. -/
def Useless (s : Station) : Prop := s.cloud = none ∧ s.sw = none ∧ s.tempHum = false

/-- Specification: two descriptions of a time step that differ in the order of the stations and in useless stations
only. -/
def Reordered (i i' : StepIn) : Prop :=
  i'.sunUp = i.sunUp ∧ i'.clearSky = i.clearSky ∧
    ∃ more, (∀ s ∈ more, Useless s) ∧ i'.stations.Perm (i.stations ++ more)

theorem select_more (m : Method) {st st' more : List Station} (h : st'.Perm (st ++ more)) (hm : ∀ s ∈ more, Useless s) :
    (select m st).Perm (select m st') := by
  have key : ∀ p : Station → Bool, (∀ s, Useless s → p s = false) → (st.filter p).Perm (st'.filter p) := by
    intro p hp
    have h1 := (h.filter p).symm
    have h2 : more.filter p = [] := List.filter_eq_nil_iff.mpr fun s hs => by simp [hp s (hm s hs)]
    rwa [List.filter_append, h2, List.append_nil] at h1
  cases m with
  | prescribed => exact key _ fun s hs => by simp [hs.1]
  | clearSkyFraction => exact key _ fun s hs => by simp [hs.2.1]
  | humidity => exact key _ fun s hs => by simp [hs.2.2]
  | constant => exact List.Perm.refl _

theorem chooseMethod_perm (m night : Method) (fb up : Bool) {st st' : List Station}
    (h : ∀ m, (select m st).Perm (select m st')) : chooseMethod m night fb up st = chooseMethod m night fb up st' := by
  simp only [chooseMethod, (h _).length_eq]

theorem cloudFactorAt_perm (m : Method) {st st' : List Station} (h : ∀ m, (select m st).Perm (select m st')) (t : ℝ × ℝ) (prev : Option ℝ)
    (hd : ∀ s ∈ st, ∀ s' ∈ st, (s.x, s.y) = t → (s'.x, s'.y) = t → s = s') :
    cloudFactorAt m st t prev = cloudFactorAt m st' t prev := by
  by_cases hm : m = .constant
  · subst hm; rfl
  · have hp : (factorPts m st).Perm (factorPts m st') := (h m).filterMap _
    have hsub : ∀ s ∈ select m st, s ∈ st := by
      intro s hs
      cases m <;> simp only [select, List.not_mem_nil] at hs <;> exact (List.mem_filter.mp hs).1
    have ha : Agree t.1 t.2 (factorPts m st) := by
      intro p hp q hq h1 h2 h3 h4
      obtain ⟨s, hs, he⟩ := List.mem_filterMap.mp hp
      obtain ⟨s', hs', he'⟩ := List.mem_filterMap.mp hq
      obtain ⟨v, hv, rfl⟩ := Option.map_eq_some_iff.mp he
      obtain ⟨v', hv', rfl⟩ := Option.map_eq_some_iff.mp he'
      have := hd s (hsub s hs) s' (hsub s' hs') (Prod.ext h1 h2) (Prod.ext h3 h4)
      subst this
      rw [hv] at hv'
      simpa using hv'
    have hn : factorPts m st = [] ↔ factorPts m st' = [] :=
      ⟨fun e => by rw [e] at hp; exact hp.nil_eq.symm, fun e => by rw [e] at hp; exact hp.eq_nil⟩
    rw [cloudFactorAt_eq m hm, cloudFactorAt_eq m hm, loop_perm t.1 t.2 hp ha]
    simp only [hn]

/-- **C146.** The cloud factor of a pixel in a run, and with it the incoming shortwave radiation, does not depend on the
order of the stations, nor on useless stations. -/
theorem C146_cloud_partial (m night : Method) (fb : Bool) (t : ℝ × ℝ) (steps steps' : List StepIn)
    (h : List.Forall₂ Reordered steps steps')
    (hd : ∀ i ∈ steps, ∀ s ∈ i.stations, ∀ s' ∈ i.stations, (s.x, s.y) = t → (s'.x, s'.y) = t → s = s') :
    runFactor m night fb t steps = runFactor m night fb t steps' := by
  unfold runFactor
  generalize (none : Option ℝ) = prev
  induction h generalizing prev with
  | nil => rfl
  | @cons i i' l l' h1 h2 ih =>
    rw [List.foldl_cons, List.foldl_cons, ← ih (fun j hj => hd j (List.mem_cons_of_mem _ hj))]
    obtain ⟨e1, e2, more, e3, e4⟩ := h1
    have e := fun m => select_more m e4 e3
    simp only [shortwave, e1, e2, chooseMethod_perm _ _ _ _ e, cloudFactorAt_perm _ e t prev (hd i (by simp))]

/-- A station without a measurement put in front, and the others exchanged. -/
example (a b c : Station) (cs : Option ℝ) (hab : (a.x, a.y) ≠ (0, 0)) (hc : Useless c) :
    runFactor .clearSkyFraction .humidity true (0, 0) [⟨true, [a, b], cs⟩, ⟨false, [b], none⟩]
      = runFactor .clearSkyFraction .humidity true (0, 0) [⟨true, [c, b, a], cs⟩, ⟨false, [b, c], none⟩] := by
  refine C146_cloud_partial _ _ _ _ _ _ (.cons ⟨rfl, rfl, [c], by simpa using hc, ?_⟩
    (.cons ⟨rfl, rfl, [c], by simpa using hc, List.Perm.refl _⟩ .nil)) ?_
  · exact (List.perm_append_comm (l₁ := [c]) (l₂ := [b, a])).trans ((List.Perm.swap a b []).append_right [c])
  · intro i hi s hs s' hs' h h'
    simp only [List.mem_cons, List.not_mem_nil, or_false] at hi
    rcases hi with rfl | rfl
    · simp only [List.mem_cons, List.not_mem_nil, or_false] at hs hs'
      rcases hs with rfl | rfl
      · exact absurd h hab
      · rcases hs' with rfl | rfl
        · exact absurd h' hab
        · rfl
    · simp only [List.mem_cons, List.not_mem_nil, or_false] at hs hs'
      rw [hs, hs']

/-- **C146.** Nor on the origin of the coordinates. -/
theorem C146_cloud_origin (d : ℝ × ℝ) (m night : Method) (fb : Bool) (t : ℝ × ℝ) (steps : List StepIn) :
    runFactor m night fb (t.1 + d.1, t.2 + d.2) (steps.map fun i =>
      { i with stations := i.stations.map fun s => { s with x := s.x + d.1, y := s.y + d.2 } })
      = runFactor m night fb t steps := by
  have hsel : ∀ (m : Method) (st : List Station),
      select m (st.map fun s => { s with x := s.x + d.1, y := s.y + d.2 })
        = (select m st).map fun s => { s with x := s.x + d.1, y := s.y + d.2 } := by
    intro m st
    cases m <;> simp only [select, List.filter_map] <;> rfl
  have hpts : ∀ (m : Method) (st : List Station),
      factorPts m (st.map fun s => { s with x := s.x + d.1, y := s.y + d.2 }) = (factorPts m st).map (movePt d) := by
    intro m st
    simp only [factorPts, hsel, List.filterMap_map, List.map_filterMap]
    apply List.filterMap_congr
    intro s _
    have : stationFactor m { s with x := s.x + d.1, y := s.y + d.2 } = stationFactor m s := by cases m <;> rfl
    simp only [Function.comp, this]
    cases stationFactor m s <;> rfl
  have hch : ∀ (m night : Method) (fb up : Bool) (st : List Station),
      chooseMethod m night fb up (st.map fun s => { s with x := s.x + d.1, y := s.y + d.2 })
        = chooseMethod m night fb up st := by
    intro m night fb up st
    simp only [chooseMethod, hsel, List.length_map]
  have hc : ∀ (m : Method) (st : List Station) (prev : Option ℝ),
      cloudFactorAt m (st.map fun s => { s with x := s.x + d.1, y := s.y + d.2 }) (t.1 + d.1, t.2 + d.2) prev
        = cloudFactorAt m st t prev := by
    intro m st prev
    by_cases hm : m = .constant
    · subst hm; rfl
    · rw [cloudFactorAt_eq m hm, cloudFactorAt_eq m hm, hpts]
      simp only [loop_move, List.map_eq_nil_iff]
  unfold runFactor
  generalize (none : Option ℝ) = prev
  induction steps generalizing prev with
  | nil => rfl
  | cons i l ih =>
    rw [List.map_cons, List.foldl_cons, List.foldl_cons, ih]
    simp only [shortwave, hch, hc]

end Verif.Irradiance

namespace Verif.Meteorology

open Verif.MeteoFields

variable {ι : Type*} [DecidableEq ι]

/-- Specification: two descriptions of a time step that differ in the order of the stations and in useless stations
only. -/
def Reordered (d d' : Day ι) : Prop :=
  d'.sw = d.sw ∧ d'.lw = d.lw ∧ d'.firnDate = d.firnDate ∧
    ∃ more, (∀ s ∈ more, Useless s) ∧ d'.stations.Perm (d.stations ++ more)

theorem mapM_forall₂ {α β : Type*} {R : α → α → Prop} {f : α → Option β} {l l' : List α} (h : List.Forall₂ R l l')
    (hf : ∀ a ∈ l, ∀ b, R a b → f a = f b) : l.mapM f = l'.mapM f := by
  induction h with
  | nil => rfl
  | @cons a b l l' h1 _ ih =>
    rw [List.mapM_cons, List.mapM_cons, hf a (by simp) b h1, ih fun c hc => hf c (List.mem_cons_of_mem _ hc)]

/-- **C146.** The inputs of the multilayer and of the cryolayer snow model in a run do not depend on the order of the
stations, nor on useless stations. -/
theorem C146_run_partial (s : Setup ι) (hu : s.interp.Unordered) (fuel : ℕ) (days days' : List (Day ι))
    (h : List.Forall₂ Reordered days days') (hd : ∀ d ∈ days, Distinct s.px s.roi d.stations) (i : ι) :
    forcings s fuel i days = forcings s fuel i days' := by
  refine mapM_forall₂ h fun d hdm d' hr => ?_
  obtain ⟨h1, h2, -, more, h4, h5⟩ := hr
  simp only [step, h1, h2, C146_order_partial s.interp hu s.px s.roi d.stations d'.stations more h5 h4 (hd d hdm)]

theorem C146_run_cryo_partial (s : Setup ℕ) (hu : s.interp.Unordered) (fuel : ℕ) (days days' : List (Day ℕ))
    (h : List.Forall₂ Reordered days days') (hd : ∀ d ∈ days, Distinct s.px s.roi d.stations) :
    cryoForcings s fuel days = cryoForcings s fuel days' := by
  refine mapM_forall₂ h fun d hdm d' hr => ?_
  obtain ⟨h1, h2, h3, more, h4, h5⟩ := hr
  simp only [step, h1, h2, h3, C146_order_partial s.interp hu s.px s.roi d.stations d'.stations more h5 h4 (hd d hdm)]

/-- Two days, with the stations exchanged on the first and a station without an altitude added on the second. -/
example (s : Setup Unit) (hs : s.interp = MeteoFields.flatCfgs) (hp : s.px = MeteoFields.onePx) (hr : s.roi = [()])
    (fuel : ℕ) (d : Day Unit) :
    forcings s fuel () [{ d with stations := [MeteoFields.tempAt 0 270, MeteoFields.tempAt 5 280] },
        { d with stations := [MeteoFields.tempAt 5 280] }]
      = forcings s fuel () [{ d with stations := [MeteoFields.tempAt 5 280, MeteoFields.tempAt 0 270] },
        { d with stations := [MeteoFields.tempAt 5 280, { MeteoFields.tempAt 0 260 with alt := none }] }] := by
  refine C146_run_partial s (by rw [hs]; exact ⟨trivial, trivial, trivial, trivial⟩) fuel _ _ ?_ ?_ ()
  · refine .cons ⟨rfl, rfl, rfl, [], by simp, List.Perm.swap _ _ []⟩
      (.cons ⟨rfl, rfl, rfl, [{ MeteoFields.tempAt 0 260 with alt := none }], ?_, List.Perm.refl _⟩ .nil)
    intro t ht
    rw [List.mem_singleton] at ht
    subst ht
    exact Or.inr (Or.inr (Or.inl rfl))
  · have h5 : ¬ ((5 : ℝ) = 0) := by norm_num
    intro e he
    rw [hp, hr]
    simp only [List.mem_cons, List.not_mem_nil, or_false] at he
    rcases he with rfl | rfl <;> intro i _ t ht t' ht' h1 _ h3 _ <;>
      simp only [List.mem_cons, List.not_mem_nil, or_false] at ht ht'
    · rcases ht with rfl | rfl <;> rcases ht' with rfl | rfl <;>
        simp_all [MeteoFields.tempAt, MeteoFields.onePx]
    · rw [ht, ht']

end Verif.Meteorology
