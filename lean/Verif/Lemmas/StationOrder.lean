import Verif.Props.Idw
import Verif.Model.MeteoFields
import Verif.Model.Irradiance
import Mathlib.Data.List.Perm.Basic

/-!
# Lemmas: interpolation does not depend on the order of the stations
-/

set_option linter.unusedSectionVars false

namespace Verif.MeteoInterp

open Verif.Idw Verif.Atmosphere

/-- Points in the target have the same value. -/
def Agree (x y : ℝ) (ps : List Pt) : Prop :=
  ∀ p ∈ ps, ∀ q ∈ ps, p.x = x → p.y = y → q.x = x → q.y = y → p.z = q.z

theorem loop_perm (x y : ℝ) {ps ps' : List Pt} (h : ps.Perm ps') (hd : Agree x y ps) :
    loop 2 0 x y ps 0 0 = loop 2 0 x y ps' 0 0 := by
  rcases hit_or_not 0 x y ps with a | ⟨pre, p, post, he, h1, h2⟩
  · rw [loop_of_all_pos 2 0 x y _ 0 0 a, loop_of_all_pos 2 0 x y _ 0 0 fun p hp => a p (h.mem_iff.mpr hp)]
    rw [(h.map _).sum_eq, (h.map (weight 2 0 x y)).sum_eq]
  · obtain ⟨a, b, -⟩ := (dist_eq_zero 0 p x y).mp h2
    rcases hit_or_not 0 x y ps' with a' | ⟨pre', p', post', he', h1', h2'⟩
    · exact absurd h2 (a' p (h.mem_iff.mp (by rw [he]; simp)))
    · obtain ⟨a', b', -⟩ := (dist_eq_zero 0 p' x y).mp h2'
      have hz : p.z = p'.z := hd p (by rw [he]; simp) p' (h.mem_iff.mpr (by rw [he']; simp)) a b a' b'
      rw [he, he', loop_of_hit 2 0 x y pre post p 0 0 h1 h2, loop_of_hit 2 0 x y pre' post' p' 0 0 h1' h2', hz]

theorem idwAt_perm (t : Target) {ps ps' : List Pt} (h : ps.Perm ps') (hd : Agree t.x t.y ps) :
    idwAt ps t = idwAt ps' t := by
  unfold idwAt
  rw [h.length_eq, loop_perm t.x t.y h hd]

/-- Stations at a position are the same. -/
def One (x y : ℝ) (st : List Stn) : Prop :=
  ∀ s ∈ st, ∀ s' ∈ st, s.x = x → s.y = y → s'.x = x → s'.y = y → s = s'

theorem pts_agree {x y : ℝ} {st : List Stn} (h : One x y st) (g : Stn → ℝ → ℝ) : Agree x y (pts g st) := by
  intro p hp q hq h1 h2 h3 h4
  unfold pts at hp hq
  obtain ⟨s, hs, he⟩ := List.mem_filterMap.mp hp
  obtain ⟨s', hs', he'⟩ := List.mem_filterMap.mp hq
  obtain ⟨v, hv, rfl⟩ := Option.map_eq_some_iff.mp he
  obtain ⟨v', hv', rfl⟩ := Option.map_eq_some_iff.mp he'
  have := h s hs s' hs' h1 h2 h3 h4
  subst this
  rw [hv] at hv'
  simp only [Option.some.injEq] at hv'
  subst hv'
  rfl

theorem mean_perm {a b : List ℝ} (h : a.Perm b) : mean a = mean b := by
  unfold mean
  rw [h.sum_eq, h.length_eq]

theorem ols_perm {a b : List (ℝ × ℝ)} (h : a.Perm b) : ols a = ols b := by
  unfold ols
  simp only [mean_perm (h.map Prod.fst), mean_perm (h.map Prod.snd)]
  rw [(h.map _).sum_eq, (h.map (fun p : ℝ × ℝ => (p.1 - mean (b.map Prod.fst)) ^ 2)).sum_eq]

open Classical in
theorem linearFit_eq (ps : List (ℝ × ℝ)) (hl : 2 ≤ ps.length) (p : ℝ × ℝ) (hp : p ∈ ps) :
    linearFit ps = if ∀ r ∈ ps, ∀ s ∈ ps, r.1 = s.1 then
      if p.1 = 0 then none else some (mean (ps.map Prod.snd) / (2 * p.1)) else some (ols ps) := by
  match ps, hl with
  | a :: b :: rest, _ =>
    simp only [linearFit]
    by_cases h : ∀ r ∈ b :: rest, r.1 = a.1
    · have h' : ∀ r ∈ a :: b :: rest, r.1 = a.1 := by
        intro r hr
        rcases List.mem_cons.mp hr with rfl | hr
        · rfl
        · exact h r hr
      rw [if_pos h, if_pos (fun r hr s hs => (h' r hr).trans (h' s hs).symm), h' p hp]
    · rw [if_neg h, if_neg]
      intro h'
      exact h fun r hr => h' r (List.mem_cons_of_mem _ hr) a (by simp)

theorem linearFit_perm {a b : List (ℝ × ℝ)} (h : a.Perm b) : linearFit a = linearFit b := by
  classical
  by_cases hl : 2 ≤ a.length
  · have hl' : 2 ≤ b.length := by rw [← h.length_eq]; exact hl
    obtain ⟨p, hp⟩ : ∃ p, p ∈ a := List.exists_mem_of_length_pos (by omega)
    rw [linearFit_eq a hl p hp, linearFit_eq b hl' p (h.mem_iff.mp hp), ols_perm h, mean_perm (h.map Prod.snd)]
    have : (∀ r ∈ a, ∀ s ∈ a, r.1 = s.1) ↔ ∀ r ∈ b, ∀ s ∈ b, r.1 = s.1 := by
      constructor
      · intro h' r hr s hs; exact h' r (h.mem_iff.mpr hr) s (h.mem_iff.mpr hs)
      · intro h' r hr s hs; exact h' r (h.mem_iff.mp hr) s (h.mem_iff.mp hs)
    simp only [this]
  · have key : ∀ l : List (ℝ × ℝ), ¬ 2 ≤ l.length → linearFit l = some 0 := by
      intro l hl
      match l, hl with
      | [], _ => rfl
      | [_], _ => rfl
      | _ :: _ :: _, hl => simp at hl
    rw [key a hl, key b (by rw [← h.length_eq]; exact hl)]

theorem minmax_perm {a b : List ℝ} (h : a.Perm b) : a.min? = b.min? ∧ a.max? = b.max? := by
  by_cases he : a = []
  · subst he
    rw [h.nil_eq.symm]
    exact ⟨rfl, rfl⟩
  · constructor
    · obtain ⟨m, hm⟩ := Option.ne_none_iff_exists'.mp (fun hc => he (List.min?_eq_none_iff.mp hc))
      rw [hm, eq_comm, List.min?_eq_some_iff]
      rw [List.min?_eq_some_iff] at hm
      exact ⟨h.mem_iff.mp hm.1, fun x hx => hm.2 x (h.mem_iff.mpr hx)⟩
    · obtain ⟨m, hm⟩ := Option.ne_none_iff_exists'.mp (fun hc => he (List.max?_eq_none_iff.mp hc))
      rw [hm, eq_comm, List.max?_eq_some_iff]
      rw [List.max?_eq_some_iff] at hm
      exact ⟨h.mem_iff.mp hm.1, fun x hx => hm.2 x (h.mem_iff.mpr hx)⟩

theorem clipData_perm (e : Bool) {a b : List ℝ} (h : a.Perm b) (x : ℝ) : clipData e a x = clipData e b x := by
  unfold clipData
  rw [(minmax_perm h).1, (minmax_perm h).2]

/-- The fit of a piecewise trend does not depend on the order of the points. -/
def Trend.Unordered : Trend → Prop
  | .piecewise fit => ∀ a b : List (ℝ × ℝ), a.Perm b → fit a = fit b
  | _ => True

theorem trendInterp_perm (f : ℝ → ℝ) {st st' : List Stn} (h : st.Perm st') (t : Target) (ho : One t.x t.y st) :
    trendInterp f st t = trendInterp f st' t := by
  unfold trendInterp
  have : idwAt (pts (fun s v => v - f s.z) st) t = idwAt (pts (fun s v => v - f s.z) st') t :=
    idwAt_perm t (h.filterMap _) (pts_agree ho _)
  rw [this]

theorem trended_perm (tr : Trend) (hu : tr.Unordered) (lapse : ℝ) {st st' : List Stn} (h : st.Perm st') (t : Target)
    (ho : One t.x t.y st) : trended tr lapse st t = trended tr lapse st' t := by
  classical
  have hv : (vals st).Perm (vals st') := h.filterMap _
  have hp : (pairs st).Perm (pairs st') := h.filterMap _
  cases tr with
  | fixed => simp only [trended, trendInterp_perm _ h t ho]
  | fractional =>
    have : vals st = [] ↔ vals st' = [] := ⟨fun e => by rw [e] at hv; exact hv.nil_eq.symm, fun e => by
      rw [e] at hv; exact hv.eq_nil⟩
    simp only [trended, mean_perm hv, trendInterp_perm _ h t ho, this]
  | regression =>
    have : (∃ s ∈ st, s.v = none) ↔ ∃ s ∈ st', s.v = none := by simp only [h.mem_iff]
    simp only [trended, linearFit_perm hp, trendInterp_perm _ h t ho, this]
  | piecewise fit => simp only [trended, hu _ _ hp, trendInterp_perm _ h t ho]
  | adjustment =>
    have h1 : idwAt (pts (fun _ v => v) st) t = idwAt (pts (fun _ v => v) st') t :=
      idwAt_perm t (h.filterMap _) (pts_agree ho _)
    have h2 : idwAt (st.map fun s => ⟨s.x, s.y, s.z⟩) t = idwAt (st'.map fun s => ⟨s.x, s.y, s.z⟩) t := by
      apply idwAt_perm t (h.map _)
      intro p hp q hq a b c d
      obtain ⟨s, hs, rfl⟩ := List.mem_map.mp hp
      obtain ⟨s', hs', rfl⟩ := List.mem_map.mp hq
      rw [ho s hs s' hs' a b c d]
    simp only [trended, h1, h2]

theorem interpolate_perm (p : Param) (tr : Trend) (hu : tr.Unordered) (lapse : ℝ) (e : Bool) {st st' : List Stn}
    (h : st.Perm st') (t : Target) (ho : One t.x t.y st) :
    interpolate p tr lapse e st t = interpolate p tr lapse e st' t := by
  simp only [interpolate, h.length_eq]
  have hod : One t.x t.y (toDew st) := by
    intro s hs s' hs' a b c d
    obtain ⟨r, hr, rfl⟩ := List.mem_map.mp hs
    obtain ⟨r', hr', rfl⟩ := List.mem_map.mp hs'
    rw [ho r hr r' hr' a b c d]
  have hpd : (toDew st).Perm (toDew st') := h.map _
  have hv : (vals st).Perm (vals st') := h.filterMap _
  have hvd : (vals (toDew st)).Perm (vals (toDew st')) := hpd.filterMap _
  by_cases hp : p = .relHum
  · simp only [hp, if_true, trended_perm tr hu lapse hpd t hod, clipData_perm e hvd]
  · simp only [hp, if_false, trended_perm tr hu lapse h t ho, clipData_perm e hv]

/-! ## Origin of the coordinates -/

/-- A point, station or target seen from another origin. -/
def movePt (d : ℝ × ℝ) (p : Pt) : Pt := ⟨p.x + d.1, p.y + d.2, p.z⟩
def moveStn (d : ℝ × ℝ) (s : Stn) : Stn := { s with x := s.x + d.1, y := s.y + d.2 }
def moveTarget (d : ℝ × ℝ) (t : Target) : Target := { t with x := t.x + d.1, y := t.y + d.2 }

theorem dist_move (d : ℝ × ℝ) (s : ℝ) (p : Pt) (x y : ℝ) : Idw.dist s (movePt d p) (x + d.1) (y + d.2) = Idw.dist s p x y := by
  unfold Idw.dist movePt
  congr 1
  ring

theorem loop_move (d : ℝ × ℝ) (pw s x y : ℝ) (ps : List Pt) (w t : ℝ) :
    loop pw s (x + d.1) (y + d.2) (ps.map (movePt d)) w t = loop pw s x y ps w t := by
  induction ps generalizing w t with
  | nil => rfl
  | cons p ps ih => simp only [List.map_cons, loop, dist_move, ih]; rfl

theorem idwAt_move (d : ℝ × ℝ) (ps : List Pt) (t : Target) : idwAt (ps.map (movePt d)) (moveTarget d t) = idwAt ps t := by
  unfold idwAt
  simp only [List.length_map, moveTarget, loop_move]

theorem pts_move (d : ℝ × ℝ) (g : Stn → ℝ → ℝ) (hg : ∀ s v, g (moveStn d s) v = g s v) (st : List Stn) :
    pts g (st.map (moveStn d)) = (pts g st).map (movePt d) := by
  simp only [pts, List.filterMap_map, List.map_filterMap]
  apply List.filterMap_congr
  intro s _
  simp only [Function.comp, hg]
  cases hv : s.v <;> simp [moveStn, movePt, hv]

theorem vals_move (d : ℝ × ℝ) (st : List Stn) : vals (st.map (moveStn d)) = vals st := by
  simp only [vals, List.filterMap_map]; rfl

theorem pairs_move (d : ℝ × ℝ) (st : List Stn) : pairs (st.map (moveStn d)) = pairs st := by
  simp only [pairs, List.filterMap_map]; rfl

theorem trendInterp_move (d : ℝ × ℝ) (f : ℝ → ℝ) (st : List Stn) (t : Target) :
    trendInterp f (st.map (moveStn d)) (moveTarget d t) = trendInterp f st t := by
  unfold trendInterp
  rw [pts_move d _ (fun s v => rfl), idwAt_move]
  rfl

theorem trended_move (d : ℝ × ℝ) (tr : Trend) (lapse : ℝ) (st : List Stn) (t : Target) :
    trended tr lapse (st.map (moveStn d)) (moveTarget d t) = trended tr lapse st t := by
  classical
  cases tr with
  | fixed => simp only [trended, trendInterp_move]
  | fractional => simp only [trended, trendInterp_move, vals_move]
  | regression =>
    have : (∃ s ∈ st.map (moveStn d), s.v = none) ↔ ∃ s ∈ st, s.v = none := by
      simp only [List.mem_map]
      constructor
      · rintro ⟨s, ⟨r, hr, rfl⟩, hs⟩; exact ⟨r, hr, hs⟩
      · rintro ⟨s, hs, h⟩; exact ⟨moveStn d s, ⟨s, hs, rfl⟩, h⟩
    simp only [trended, trendInterp_move, pairs_move, this]
  | piecewise fit => simp only [trended, trendInterp_move, pairs_move]
  | adjustment =>
    have h2 : idwAt ((st.map (moveStn d)).map fun s => ⟨s.x, s.y, s.z⟩) (moveTarget d t)
        = idwAt (st.map fun s => ⟨s.x, s.y, s.z⟩) t := by
      rw [← idwAt_move d (st.map fun s => ⟨s.x, s.y, s.z⟩) t, List.map_map, List.map_map]
      rfl
    have h1 := pts_move d (fun _ v => v) (fun s v => rfl) st
    simp only [trended, h1, idwAt_move, h2]
    rfl

theorem interpolate_move (d : ℝ × ℝ) (p : Param) (tr : Trend) (lapse : ℝ) (e : Bool) (st : List Stn) (t : Target) :
    interpolate p tr lapse e (st.map (moveStn d)) (moveTarget d t) = interpolate p tr lapse e st t := by
  simp only [interpolate, List.length_map]
  have hd : toDew (st.map (moveStn d)) = (toDew st).map (moveStn d) := by
    simp only [toDew, List.map_map]; rfl
  by_cases hp : p = .relHum
  · simp only [hp, if_true, hd, trended_move, vals_move]; rfl
  · simp only [hp, if_false, trended_move, vals_move]

end Verif.MeteoInterp

namespace Verif.MeteoFields

open Verif.MeteoInterp Verif.Atmosphere

variable {ι : Type*} [DecidableEq ι]

theorem mapM_congr' {α β : Type*} (f g : α → Option β) (l : List α) (h : ∀ a ∈ l, f a = g a) : l.mapM f = l.mapM g := by
  induction l with
  | nil => rfl
  | cons a l ih =>
    rw [List.mapM_cons, List.mapM_cons, h a (by simp), ih fun b hb => h b (List.mem_cons_of_mem _ hb)]

/-- At most one station in the centre of each pixel. -/
def OneAt (px : ι → Px) (roi : List ι) (st : List Stn) : Prop := ∀ i ∈ roi, One (px i).x (px i).y st

theorem interpRoi_perm (p : Param) (c : Cfg) (hu : c.trend.Unordered) {st st' : List Stn} (h : st.Perm st') (px : ι → Px)
    (temp : ι → Option ℝ) (roi : List ι) (ho : OneAt px roi st) :
    interpRoi p c st px temp roi = interpRoi p c st' px temp roi :=
  mapM_congr' _ _ _ fun i hi => by
    rw [interpolate_perm p c.trend hu c.lapse c.extrapolate h ⟨(px i).x, (px i).y, (px i).z, (temp i).getD 0⟩ (ho i hi)]

theorem OneAt.map {px : ι → Px} {roi : List ι} {st : List Stn} (h : OneAt px roi st) (g : Stn → Stn)
    (hg : ∀ s, (g s).x = s.x ∧ (g s).y = s.y) : OneAt px roi (st.map g) := by
  intro i hi s hs s' hs' a b c d
  obtain ⟨r, hr, rfl⟩ := List.mem_map.mp hs
  obtain ⟨r', hr', rfl⟩ := List.mem_map.mp hs'
  rw [(hg r).1] at a; rw [(hg r).2] at b; rw [(hg r').1] at c; rw [(hg r').2] at d
  rw [h i hi r hr r' hr' a b c d]

theorem listonRoi_perm (c : Cfg) (hu : c.trend.Unordered) (sw cw : ℝ) {st st' : List Stn} (h : st.Perm st') (px : ι → Px)
    (roi : List ι) (ho : OneAt px roi st) : listonRoi c sw cw st px roi = listonRoi c sw cw st' px roi := by
  simp only [listonRoi]
  rw [interpRoi_perm .windVec c hu (h.map fun s => { s with v := s.v.map fun v => (windToUv v s.temp).1 }) px _ roi
      (ho.map _ fun s => ⟨rfl, rfl⟩),
    interpRoi_perm .windVec c hu (h.map fun s => { s with v := s.v.map fun v => (windToUv v s.temp).2 }) px _ roi
      (ho.map _ fun s => ⟨rfl, rfl⟩)]

/-- All trends of the settings are independent of the order of the points. -/
def Cfgs.Unordered (c : Cfgs) : Prop :=
  c.temp.trend.Unordered ∧ c.precip.trend.Unordered ∧ c.hum.trend.Unordered ∧ c.wind.trend.Unordered

/-- Equal records of a pair of variables, up to order, and at most one station in the centre of a pixel. -/
def SameRecs (px : ι → Px) (roi : List ι) (a b : Station → Option ℝ) (st st' : List Station) : Prop :=
  (stationData a b st).Perm (stationData a b st') ∧ OneAt px roi (stationData a b st)

theorem interpolateData_congr (c : Cfgs) (hu : c.Unordered) (px : ι → Px) (roi : List ι) (st st' : List Station)
    (old : Fields ι)
    (h : ∀ ab ∈ ([(Station.temp, Station.temp), (Station.precip, Station.precip), (Station.relHum, Station.temp),
      (Station.windSpeed, Station.windSpeed), (Station.windSpeed, Station.windDir), (Station.gust, Station.gust),
      (Station.gust, Station.windDir)] : List ((Station → Option ℝ) × (Station → Option ℝ))),
      SameRecs px roi ab.1 ab.2 st st') :
    interpolateData c px roi st old = interpolateData c px roi st' old := by
  obtain ⟨h1, h2, h3, h4⟩ := hu
  simp only [List.mem_cons, List.not_mem_nil, or_false, forall_eq_or_imp, forall_eq] at h
  obtain ⟨⟨a1, b1⟩, ⟨a2, b2⟩, ⟨a3, b3⟩, ⟨a4, b4⟩, ⟨a5, b5⟩, ⟨a6, b6⟩, ⟨a7, b7⟩⟩ := h
  simp only [interpolateData]
  have e1 := interpRoi_perm .temp c.temp h1 a1 px (fun _ => none) roi b1
  have e2 := interpRoi_perm .precip c.precip h2 a2 px (fun _ => none) roi b2
  have e3 := fun temp => interpRoi_perm .relHum c.hum h3 a3 px temp roi b3
  have e4 := interpRoi_perm .windSpeed c.wind h4 a4 px (fun _ => none) roi b4
  have e5 := fun sw cw => listonRoi_perm c.wind h4 sw cw a5 px roi b5
  have e6 := interpRoi_perm .windSpeed c.wind h4 a6 px (fun _ => none) roi b6
  have e7 := fun sw cw => listonRoi_perm c.wind h4 sw cw a7 px roi b7
  simp only [e1, e2, e3, e4, e5, e6, e7]

/-! ## Origin of the coordinates -/

/-- A station with coordinates counted from another origin. -/
def moveStation (d : ℝ × ℝ) (s : Station) : Station :=
  { s with x := s.x.map (· + d.1), y := s.y.map (· + d.2) }

/-- A pixel with coordinates counted from another origin. -/
def movePx (d : ℝ × ℝ) (p : Px) : Px := { p with x := p.x + d.1, y := p.y + d.2 }

theorem stationData_move (d : ℝ × ℝ) (a b : Station → Option ℝ) (ha : ∀ s, a (moveStation d s) = a s)
    (hb : ∀ s, b (moveStation d s) = b s) (st : List Station) :
    stationData a b (st.map (moveStation d)) = (stationData a b st).map (moveStn d) := by
  simp only [stationData, List.filterMap_map, List.map_filterMap]
  apply List.filterMap_congr
  intro s _
  simp only [Function.comp, stationRec, ha, hb]
  rcases s with ⟨x, y, alt, _⟩
  simp only [moveStation]
  cases a _ <;> cases b _ <;> cases x <;> cases y <;> cases alt <;> rfl

theorem interpRoi_move (d : ℝ × ℝ) (p : Param) (c : Cfg) (st : List Stn) (px : ι → Px) (temp : ι → Option ℝ)
    (roi : List ι) :
    interpRoi p c (st.map (moveStn d)) (fun i => movePx d (px i)) temp roi = interpRoi p c st px temp roi :=
  mapM_congr' _ _ _ fun i _ => by
    have := interpolate_move d p c.trend c.lapse c.extrapolate st ⟨(px i).x, (px i).y, (px i).z, (temp i).getD 0⟩
    exact congrArg _ this

theorem listonRoi_move (d : ℝ × ℝ) (c : Cfg) (sw cw : ℝ) (st : List Stn) (px : ι → Px) (roi : List ι) :
    listonRoi c sw cw (st.map (moveStn d)) (fun i => movePx d (px i)) roi = listonRoi c sw cw st px roi := by
  have e : ∀ g : ℝ → ℝ → ℝ, (st.map (moveStn d)).map (fun s => { s with v := s.v.map fun v => g v s.temp })
      = (st.map fun s => { s with v := s.v.map fun v => g v s.temp }).map (moveStn d) := by
    intro g
    rw [List.map_map, List.map_map]
    rfl
  simp only [listonRoi, e fun v t => (windToUv v t).1, e fun v t => (windToUv v t).2, interpRoi_move]
  rfl

theorem interpolateData_move (d : ℝ × ℝ) (c : Cfgs) (px : ι → Px) (roi : List ι) (st : List Station) (old : Fields ι) :
    interpolateData c (fun i => movePx d (px i)) roi (st.map (moveStation d)) old = interpolateData c px roi st old := by
  have h1 := stationData_move d (·.temp) (·.temp) (fun _ => rfl) (fun _ => rfl) st
  have h2 := stationData_move d (·.precip) (·.precip) (fun _ => rfl) (fun _ => rfl) st
  have h3 := stationData_move d (·.relHum) (·.temp) (fun _ => rfl) (fun _ => rfl) st
  have h4 := stationData_move d (·.windSpeed) (·.windSpeed) (fun _ => rfl) (fun _ => rfl) st
  have h5 := stationData_move d (·.windSpeed) (·.windDir) (fun _ => rfl) (fun _ => rfl) st
  have h6 := stationData_move d (·.gust) (·.gust) (fun _ => rfl) (fun _ => rfl) st
  have h7 := stationData_move d (·.gust) (·.windDir) (fun _ => rfl) (fun _ => rfl) st
  simp only [interpolateData, h1, h2, h3, h4, h5, h6, h7, interpRoi_move, listonRoi_move]

end Verif.MeteoFields

namespace Verif.Irradiance

open Verif.Idw Verif.MeteoInterp

/-- The points of the selected stations. -/
noncomputable def factorPts (m : Method) (st : List Station) : List Pt :=
  (select m st).filterMap fun s => (stationFactor m s).map fun f => ⟨s.x, s.y, f⟩

theorem usable_sel (g : Station → Option ℝ) (sel : List Station) :
    usable (sel.map fun s => some s.x) (sel.map fun s => some s.y) (sel.map g)
      = sel.filterMap fun s => (g s).map fun f => ⟨s.x, s.y, f⟩ := by
  induction sel with
  | nil => rfl
  | cons s sel ih =>
    unfold usable at ih ⊢
    simp only [List.map_cons, List.zip_cons_cons, List.filterMap_cons]
    rw [ih]
    cases g s <;> rfl

theorem cloudFactorAt_eq (m : Method) (hm : m ≠ .constant) (st : List Station) (t : ℝ × ℝ) (prev : Option ℝ) :
    cloudFactorAt m st t prev = (if factorPts m st = [] then none else some (loop 2 0 t.1 t.2 (factorPts m st) 0 0)).map
      (Atmosphere.clip 0 1) := by
  cases m with
  | constant => exact absurd rfl hm
  | _ =>
    simp only [cloudFactorAt, factorPts]
    rw [idw_eq _ _ _ _ _ _ (by simp), usable_sel]
    simp

end Verif.Irradiance
