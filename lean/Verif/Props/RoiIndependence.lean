import Verif.Props.Meteorology

/-!
# C149: the region of interest only selects pixels
-/

set_option linter.unusedSectionVars false

namespace Verif.Meteorology

open Verif.MeteoFields

variable {ι : Type*} [DecidableEq ι]

/-! ## Helper lemmas -/

/-- A calculation that succeeds for all elements of a list succeeds for those of any list of some of them. -/
theorem mapM_sub {α : Type*} {β : Type} (f : α → Option β) (l R : List α) (l' : List β) (h : l.mapM f = some l')
    (hR : ∀ a ∈ R, a ∈ l) : ∃ r, R.mapM f = some r := by
  have hs : ∀ a ∈ l, ∃ b, f a = some b := by
    intro a ha
    obtain ⟨k, hk⟩ := List.getElem?_of_mem ha
    obtain ⟨b, -, hb⟩ := (mapM_spec _ _ _ h).2 k a hk
    exact ⟨b, hb⟩
  clear h
  induction R with
  | nil => exact ⟨[], rfl⟩
  | cons a t ih =>
    obtain ⟨r, hr⟩ := ih fun b hb => hR b (List.mem_cons_of_mem _ hb)
    obtain ⟨b, hb⟩ := hs a (hR a (List.mem_cons_self ..))
    exact ⟨b :: r, by simp [List.mapM_cons, hb, hr]⟩

/-- Interpolation for a part of the region. -/
theorem interp_sub {p : MeteoInterp.Param} {c : MeteoFields.Cfg} {st : List MeteoInterp.Stn} {px : ι → Px}
    {temp temp' : ι → Option ℝ} {roi R : List ι} {vals : List (Option ℝ)}
    (h : interpRoi p c st px temp roi = some vals) (hR : ∀ i ∈ R, i ∈ roi) (ht : ∀ i ∈ R, temp' i = temp i) :
    ∃ v, interpRoi p c st px temp' R = some v ∧
      ∀ i ∈ R, ∀ old old', assign R v old' i = assign roi vals old i := by
  obtain ⟨v, hv⟩ := mapM_sub _ _ R _ h hR
  have hv : interpRoi p c st px temp R = some v := hv
  refine ⟨v, by rw [interpRoi_temp_congr ht, hv], fun i hi old old' => ?_⟩
  obtain ⟨r, e1, e2⟩ := interp_inside h i (hR i hi)
  obtain ⟨r', e3, e4⟩ := interp_inside hv i hi
  rw [e1, Option.some.injEq] at e3
  rw [e2, e4, e3]

theorem assign_map (roi : List ι) (f : ι → Option ℝ) (old : ι → Option ℝ) (i : ι) (hi : i ∈ roi) :
    assign roi (roi.map f) old i = f i := by
  obtain ⟨k, v, e1, e2, e3⟩ := assign_inside roi (roi.map f) (by simp) i hi
  rw [e3]
  simpa [e1] using e2.symm

open WetBulbGrid in
theorem step_still {s : Option Run} (h : ¬moving s) (m : ℕ) : WetBulbGrid.step^[m] s = s := by
  induction m with
  | zero => rfl
  | succ m ih =>
    rw [Function.iterate_succ_apply', ih]
    unfold WetBulbGrid.step
    rw [if_neg h]

open WetBulbGrid in
/-- The loop ends in a round in which no element moves. -/
theorem loop_spec (n : ℕ) (l : List (Option Run)) (ws : List (Option ℝ)) (h : loop n l = some ws) :
    ∃ m < n, (∀ s ∈ l, ¬moving (WetBulbGrid.step^[m] s)) ∧ ws = l.map fun s => value (WetBulbGrid.step^[m] s) := by
  induction n generalizing l with
  | zero => cases h
  | succ n ih =>
    unfold loop at h
    split_ifs at h with hm
    · obtain ⟨m, hmn, h1, h2⟩ := ih _ h
      refine ⟨m + 1, by omega, fun s hs => ?_, ?_⟩
      · rw [Function.iterate_succ_apply]
        exact h1 _ (List.mem_map_of_mem hs)
      · rw [h2, List.map_map]
        rfl
    · push Not at hm
      exact ⟨0, by omega, hm, (Option.some.inj h).symm⟩

open WetBulbGrid in
/-- The loop ends as soon as a round is reached in which no element moves. -/
theorem loop_ends (n m : ℕ) (hmn : m < n) (l : List (Option Run))
    (h : ∀ s ∈ l, ¬moving (WetBulbGrid.step^[m] s)) : ∃ ws, loop n l = some ws := by
  induction n generalizing l m with
  | zero => omega
  | succ n ih =>
    unfold loop
    split_ifs with hm
    · cases m with
      | zero =>
        obtain ⟨s, hs, h'⟩ := hm
        exact absurd h' (h s hs)
      | succ m =>
        refine ih m (by omega) _ fun s hs => ?_
        obtain ⟨s', hs', rfl⟩ := List.mem_map.mp hs
        rw [← Function.iterate_succ_apply]
        exact h s' hs'
    · exact ⟨_, rfl⟩

open WetBulbGrid in
/-- Two rounds in which an element does not move leave it at the same place. -/
theorem still_unique {s : Option Run} {m m' : ℕ} (h : ¬moving (WetBulbGrid.step^[m] s))
    (h' : ¬moving (WetBulbGrid.step^[m'] s)) : WetBulbGrid.step^[m] s = WetBulbGrid.step^[m'] s := by
  rcases le_total m m' with e | e
  · obtain ⟨k, rfl⟩ := Nat.exists_eq_add_of_le e
    rw [Nat.add_comm, Function.iterate_add_apply, step_still h]
  · obtain ⟨k, rfl⟩ := Nat.exists_eq_add_of_le e
    rw [Nat.add_comm, Function.iterate_add_apply, step_still h']

/-- A smaller region has fewer pixels with rain. -/
theorem enforced_mono (c : Precip.Cfg ℝ) (hr : 0 ≤ c.range) (l R : List (Precip.Px ℝ)) (hR : ∀ p ∈ R, p ∈ l)
    (hz : ∀ p ∈ l, ∃ z, p.elev = some z) (p : Precip.Px ℝ) :
    Precip.enforced c l p ≤ Precip.enforced c R p := by
  obtain ⟨-, h0, -⟩ := Precip.enforced_spec c hr R p
  rcases (Precip.enforced_spec c hr l p).1 with e | e
  · rw [e]
    exact h0
  by_cases hf : Precip.frac c p = 0
  · rw [e, hf]
    exact h0
  rw [e]
  unfold Precip.enforced at e ⊢
  by_cases he : c.enforce = true
  swap
  · rw [if_neg he]
  rw [if_pos he] at e ⊢
  cases hm : Precip.maxRainElev c R with
  | none => exact le_rfl
  | some m' =>
    cases hpz : p.elev with
    | none => exact le_rfl
    | some z =>
      have hmem : ∃ q ∈ R, Precip.frac c q = 0 ∧ q.elev = some m' := by
        unfold Precip.maxRainElev Precip.npMax at hm
        split_ifs at hm with hn
        obtain ⟨a, -⟩ := Precip.max?_spec _ _ hm
        simp only [List.mem_filterMap, List.mem_map, List.mem_filter, decide_eq_true_eq, id] at a
        obtain ⟨o, ⟨q, ⟨q1, q2⟩, rfl⟩, q3⟩ := a
        exact ⟨q, q1, q2, q3⟩
      obtain ⟨q, q1, q2, q3⟩ := hmem
      have hl : ∃ M, Precip.maxRainElev c l = some M ∧ m' ≤ M := by
        have hin : q.elev ∈ (l.filter fun p => decide (Precip.frac c p = 0)).map Precip.Px.elev :=
          List.mem_map_of_mem (List.mem_filter.mpr ⟨hR q q1, by simpa using q2⟩)
        unfold Precip.maxRainElev Precip.npMax
        rw [if_neg (by
          intro hn
          obtain ⟨a, a1, a2⟩ := List.mem_map.mp hn
          obtain ⟨z, a3⟩ := hz a (List.mem_filter.mp a1).1
          rw [a3] at a2
          cases a2)]
        have hin' : m' ∈ ((l.filter fun p => decide (Precip.frac c p = 0)).map Precip.Px.elev).filterMap id :=
          List.mem_filterMap.mpr ⟨q.elev, hin, q3⟩
        cases hM : (((l.filter fun p => decide (Precip.frac c p = 0)).map Precip.Px.elev).filterMap id).max? with
        | none =>
          rw [List.max?_eq_none_iff] at hM
          rw [hM] at hin'
          cases hin'
        | some M => exact ⟨M, rfl, (Precip.max?_spec _ _ hM).2 _ hin'⟩
      obtain ⟨M, hM, hle⟩ := hl
      rw [hM, hpz] at e
      simp only at e ⊢
      split_ifs at e with hzM
      · exact absurd e.symm hf
      · rw [if_neg (by linarith [not_le.mp hzM])]

/-! ## The property -/

/-- **C149 (wet-bulb temperature).** The wet-bulb iteration over a region ends for every part of the region, and each
pixel gets the same wet-bulb temperature, although the iteration goes on until the slowest pixel is done. -/
theorem C149_wetBulb (n : ℕ) (cells : ι → Option WetBulbGrid.Cell) (roi R : List ι) (hR : ∀ i ∈ R, i ∈ roi)
    (w : List (Option ℝ)) (h : WetBulbGrid.wetBulbs n (roi.map cells) = some w) :
    ∃ w', WetBulbGrid.wetBulbs n (R.map cells) = some w' ∧ w'.length = R.length ∧
      ∀ i ∈ R, ∀ old old', assign R w' old' i = assign roi w old i := by
  obtain ⟨m, hmn, h1, h2⟩ := loop_spec n _ _ h
  obtain ⟨w', hw'⟩ := loop_ends n m hmn ((R.map cells).map WetBulbGrid.startRun) (by
    intro s hs
    rw [List.map_map, List.mem_map] at hs
    obtain ⟨i, hi, rfl⟩ := hs
    refine h1 _ ?_
    rw [List.map_map]
    exact List.mem_map_of_mem (hR i hi))
  obtain ⟨m', -, h3, h4⟩ := loop_spec n _ _ hw'
  refine ⟨w', hw', by rw [h4]; simp, fun i hi old old' => ?_⟩
  have e : ∀ (r : List ι) (k : ℕ), ((r.map cells).map WetBulbGrid.startRun).map
      (fun s => WetBulbGrid.value (WetBulbGrid.step^[k] s)) =
      r.map fun i => WetBulbGrid.value (WetBulbGrid.step^[k] (WetBulbGrid.startRun (cells i))) := by
    intro r k
    simp [List.map_map, Function.comp_def]
  rw [h2, h4, e, e, assign_map _ _ _ _ hi, assign_map _ _ _ _ (hR i hi)]
  rw [still_unique (h1 _ (by rw [List.map_map]; exact List.mem_map_of_mem (hR i hi)))
    (h3 _ (by rw [List.map_map]; exact List.mem_map_of_mem hi))]

/-- **C149 (interpolation), partial: wind without terrain correction.** If the interpolation succeeds for a region it
does so for every part of it, from whatever previous fields, and the fields of the remaining pixels are the same. -/
theorem C149_interp_partial (c : Cfgs) (hm : c.method = .idw) (px : ι → Px) (roi R : List ι)
    (hR : ∀ i ∈ R, i ∈ roi) (st : List Station) (old old' f : Fields ι)
    (h : interpolateData c px roi st old = some f) :
    ∃ f', interpolateData c px R st old' = some f' ∧ ∀ i ∈ R, f'.temp i = f.temp i ∧ f'.precip i = f.precip i ∧
      f'.relHum i = f.relHum i ∧ f'.windSpeed i = f.windSpeed i ∧ (c.hasGusts = true → f'.gust i = f.gust i) := by
  obtain ⟨⟨t, a1, a2⟩, ⟨p, b1, b2⟩, ⟨r, d1, d2⟩, h4⟩ := data_some h
  obtain ⟨t', a3, a4⟩ := interp_sub a1 hR fun _ _ => rfl
  obtain ⟨p', b3, b4⟩ := interp_sub b1 hR fun _ _ => rfl
  obtain ⟨r', d3, d4⟩ := interp_sub d1 hR (temp' := assign R t' old'.temp) fun i hi => by
    rw [a2, a4 i hi old.temp]
  rcases h4 with ⟨-, -, ⟨w, w1, w2⟩, hg⟩ | ⟨sw, cw, e, -⟩
  · obtain ⟨w', w3, w4⟩ := interp_sub w1 hR fun _ _ => rfl
    rcases hg with ⟨g1, -⟩ | ⟨g1, g, g2, g3⟩
    · refine ⟨⟨assign R t' old'.temp, assign R p' old'.precip, assign R r' old'.relHum,
        assign R w' old'.windSpeed, old'.windDir, old'.gust⟩, ?_, fun i hi => ?_⟩
      · simp [interpolateData, a3, b3, d3, hm, w3, g1]
      · rw [a2, b2, d2, w2]
        exact ⟨a4 i hi _ _, b4 i hi _ _, d4 i hi _ _, w4 i hi _ _, fun e => by rw [g1] at e; cases e⟩
    · obtain ⟨g', g4, g5⟩ := interp_sub g2 hR fun _ _ => rfl
      refine ⟨⟨assign R t' old'.temp, assign R p' old'.precip, assign R r' old'.relHum,
        assign R w' old'.windSpeed, old'.windDir, assign R g' old'.gust⟩, ?_, fun i hi => ?_⟩
      · simp [interpolateData, a3, b3, d3, hm, w3, g1, g4]
      · rw [a2, b2, d2, w2, g3]
        exact ⟨a4 i hi _ _, b4 i hi _ _, d4 i hi _ _, w4 i hi _ _, fun _ => g5 i hi _ _⟩
  · rw [hm] at e
    cases e

/-- **C149 (temperature, precipitation, humidity).** With any wind method, if the interpolation succeeds for both
regions, the fields other than the wind are the same at common pixels. -/
theorem C149_scalar (c : Cfgs) (px : ι → Px) (roi R : List ι) (st : List Station) (old old' f f' : Fields ι)
    (h : interpolateData c px roi st old = some f) (h' : interpolateData c px R st old' = some f') (i : ι)
    (hi : i ∈ roi) (hi' : i ∈ R) :
    f'.temp i = f.temp i ∧ f'.precip i = f.precip i ∧ f'.relHum i = f.relHum i := by
  obtain ⟨⟨t, a1, a2⟩, ⟨p, b1, b2⟩, ⟨r, d1, d2⟩, -⟩ := data_some h
  obtain ⟨⟨t', a3, a4⟩, ⟨p', b3, b4⟩, ⟨r', d3, d4⟩, -⟩ := data_some h'
  have one : ∀ {p : MeteoInterp.Param} {c : MeteoFields.Cfg} {s : List MeteoInterp.Stn} {u u' : ι → Option ℝ}
      {v v' : List (Option ℝ)}, interpRoi p c s px u roi = some v → interpRoi p c s px u' R = some v' → u' i = u i →
      ∀ o o', assign R v' o' i = assign roi v o i := by
    intro p c s u u' v v' k1 k2 k3 o o'
    obtain ⟨x, e1, e2⟩ := interp_inside k1 i hi
    obtain ⟨x', e3, e4⟩ := interp_inside k2 i hi'
    rw [k3, e1, Option.some.injEq] at e3
    rw [e2, e4, e3, k3]
  have ht : f'.temp i = f.temp i := by rw [a2, a4]; exact one a1 a3 rfl _ _
  refine ⟨ht, by rw [b2, b4]; exact one b1 b3 rfl _ _, ?_⟩
  rw [d2, d4]
  exact one d1 d3 ht _ _

/-- The pixel-wise inputs of the phase calculation of a part of the region. -/
theorem phasePx_congr (s : Setup ι) (R : List ι) {f f' : Fields ι} {w w' : ι → Option ℝ} {i : ι}
    (h1 : f'.temp i = f.temp i) (h2 : f'.precip i = f.precip i) (h3 : w' i = w i) :
    phasePx { s with roi := R } f' w' i = phasePx s f w i := by
  simp only [phasePx, h1, h2, h3]

/-- **C149 (time step), partial: wind without terrain correction, no rule on rain above snow.** If a time step succeeds
for a region it does so for every part of it, and all meteorological variables of the remaining pixels are the
same. -/
theorem C149_step_partial (s : Setup ι) (hm : s.interp.method = .idw) (he : s.phase.enforce = false) (R : List ι)
    (hR : ∀ i ∈ R, i ∈ s.roi) (fuel : ℕ) (st : List Station) (old old' : Fields ι) (m : Met ι)
    (h : step s fuel st old = some m) :
    ∃ m', step { s with roi := R } fuel st old' = some m' ∧ ∀ i ∈ R, m'.temp i = m.temp i ∧
      m'.relHum i = m.relHum i ∧ m'.wind i = m.wind i ∧ m'.press i = m.press i ∧ m'.spec i = m.spec i ∧
      m'.wet i = m.wet i ∧ m'.snow i = m.snow i ∧ m'.rain i = m.rain i := by
  simp only [step, Option.bind_eq_some_iff, Option.map_eq_some_iff] at h
  obtain ⟨f, hf, w, hw, outs, ho, rfl⟩ := h
  obtain ⟨f', hf', hff⟩ := C149_interp_partial s.interp hm s.px s.roi R hR st old old' f hf
  have hc : R.map (cell { s with roi := R } f') = R.map (cell s f) := by
    refine List.map_congr_left fun i hi => ?_
    simp only [cell, (hff i hi).1, (hff i hi).2.2.1]
  obtain ⟨w', hw', -, hww⟩ := C149_wetBulb fuel (cell s f) s.roi R hR w hw
  simp only [Precip.process] at ho
  split_ifs at ho with hr
  rw [Option.some.injEq] at ho
  subst ho
  simp only [step]
  rw [hf', Option.bind_some, hc, hw', Option.bind_some]
  simp only [Precip.process, if_neg hr, Option.map_some]
  refine ⟨_, rfl, fun i hi => ?_⟩
  obtain ⟨k1, k2, k3, k4, -⟩ := hff i hi
  have kw := hww i hi (fun _ => none) (fun _ => none)
  have hp := phasePx_congr s R k1 k2 kw
  simp only [List.map_map, Function.comp_def, Precip.enforced, he, Bool.false_eq_true, if_false]
  refine ⟨k1, k3, k4, trivial, ?_, kw, ?_, ?_⟩
  · rw [k1, k3]
  · rw [assign_map R _ _ i hi, assign_map s.roi _ _ i (hR i hi), hp]
  · rw [assign_map R _ _ i hi, assign_map s.roi _ _ i (hR i hi), hp]

/-- **C149 (run), partial (as `C149_step_partial`).** The inputs of the multilayer snow model at a pixel over a series
of time steps of any length are the same for every region of interest that contains the pixel and is part of a region
for which the series can be calculated, in particular for the pixel alone; so the snow cover and soil of the pixel are
the same after every number of steps. -/
theorem C149_run_partial (s : Setup ι) (hm : s.interp.method = .idw) (he : s.phase.enforce = false) (R : List ι)
    (hR : ∀ i ∈ R, i ∈ s.roi) (fuel : ℕ) (i : ι) (hi : i ∈ R) (days : List (Day ι)) (fs : List Coupled.Forcing)
    (h : forcings s fuel i days = some fs) :
    forcings { s with roi := R } fuel i days = some fs ∧ forcings { s with roi := [i] } fuel i days = some fs ∧
      ∀ (c : Coupled.Site) (st : Coupled.State) (k : ℕ),
        ((forcings { s with roi := R } fuel i (days.take k)).bind fun g => Coupled.run c g st) =
          (forcings s fuel i (days.take k)).bind fun g => Coupled.run c g st := by
  have key : ∀ (R : List ι), (∀ j ∈ R, j ∈ s.roi) → i ∈ R → ∀ (days : List (Day ι)) (fs : List Coupled.Forcing),
      forcings s fuel i days = some fs → forcings { s with roi := R } fuel i days = some fs := by
    intro R hR hi days fs h
    unfold forcings at h ⊢
    rw [← h]
    refine mapM_congr_mem _ _ _ fun d hd => ?_
    obtain ⟨k, hk⟩ := List.getElem?_of_mem hd
    obtain ⟨b, -, hb⟩ := (mapM_spec _ _ _ h).2 k d hk
    obtain ⟨m, hm1, -⟩ := Option.bind_eq_some_iff.mp hb
    obtain ⟨m', hm2, e⟩ := C149_step_partial s hm he R hR fuel d.stations blank blank m hm1
    obtain ⟨e1, -, e3, e4, e5, e6, e7, e8⟩ := e i hi
    rw [hm1, hm2, Option.bind_some, Option.bind_some]
    simp only [forcing, e1, e3, e4, e5, e6, e7, e8]
  have htake : ∀ k, ∃ g, forcings s fuel i (days.take k) = some g := fun k =>
    mapM_sub _ _ _ _ h fun d hd => List.mem_of_mem_take hd
  refine ⟨key R hR hi _ _ h, key [i] (by simpa using hR i hi) (by simp) _ _ h, fun c st k => ?_⟩
  obtain ⟨g, hg⟩ := htake k
  rw [hg, key R hR hi _ _ hg]

/-! ## Cryolayer model -/

section Cryo

open CoupledCryo SurfaceTemp

/-- The secant search for a part of the pixels. -/
theorem search_sub (bal bal' : ℕ → ℝ → ℝ) (l R : List ℕ) (hl : l.Nodup) (hn : R.Nodup) (hR : ∀ i ∈ R, i ∈ l)
    (hb : ∀ i ∈ R, bal' i = bal i) (air air' : ℕ → ℝ) (t te : ℕ → ℝ)
    (h : search .secant bal l air = some (t, te)) :
    ∃ t' te', search .secant bal' R air' = some (t', te') ∧ ∀ i ∈ R, t' i = t i ∧ te' i = te i := by
  simp only [search] at h
  split_ifs at h with hex
  obtain ⟨h1, -, h3⟩ := secant_eq (bal := bal) hl air (Nat.find hex)
  have hend := h3.mp (Nat.find_spec hex)
  rw [Option.some.injEq, Prod.mk.injEq] at h
  obtain ⟨rfl, rfl⟩ := h
  have hex' : ∃ n, (secant bal' R air' n).2.2 = true :=
    ⟨Nat.find hex, (secant_eq (bal := bal') hn air' _).2.2.mpr fun i hi => by
      rw [hb i hi]
      exact hend i (hR i hi)⟩
  obtain ⟨g1, -, g3⟩ := secant_eq (bal := bal') hn air' (Nat.find hex')
  have hend' := g3.mp (Nat.find_spec hex')
  refine ⟨(secant bal' R air' (Nat.find hex')).1, (secant bal' R air' (Nat.find hex')).2.1, ?_, fun i hi => ?_⟩
  · simp only [search, dif_pos hex']
  · have e : pixRun (bal' i) (Nat.find hex') (Atmosphere.T0 - 10) Atmosphere.T0 =
        pixRun (bal i) (Nat.find hex) (Atmosphere.T0 - 10) Atmosphere.T0 := by
      have e1 := hend' i hi
      have e2 := hend i (hR i hi)
      rw [hb i hi] at e1 ⊢
      rcases le_total (Nat.find hex) (Nat.find hex') with k | k
      · exact pixRun_mono k e2
      · exact (pixRun_mono k e1).symm
    rw [(g1 i hi).1, (g1 i hi).2, (h1 i (hR i hi)).1, (h1 i (hR i hi)).2, e]
    exact ⟨rfl, rfl⟩

/-- Where the temperature is not searched, the results of the search do not matter. -/
theorem finish_not_frosty (c : CoupledCryo.Site) (f : CoupledCryo.Forcing) (x : Prep) (hx : ¬x.Frosty)
    (t te t' te' : ℝ) : finish c f x t te = finish c f x t' te' := by
  have e : ∀ a b : ℝ, surfaceTemp x a = surfaceTemp x b := by
    intro a b
    unfold surfaceTemp
    by_cases h1 : 0 < x.snow.swe
    · rw [if_pos h1, if_pos h1, if_neg fun h2 => hx ⟨h1, h2⟩, if_neg fun h2 => hx ⟨h1, h2⟩]
    · rw [if_neg h1, if_neg h1]
  unfold finish massStep moisture
  rw [e te te', e t t']

theorem cryo_step_sub (c : CoupledCryo.Site) (hc : c.search = .secant) (l R : List ℕ) (hl : l.Nodup) (hn : R.Nodup)
    (hR : ∀ i ∈ R, i ∈ l) (f f' : ℕ → CoupledCryo.Forcing) (hf : ∀ i ∈ R, f' i = f i) (s s' q : States)
    (hs : ∀ i ∈ R, s' i = s i) (x : ℕ → Option (Cryo.Fluxes ℝ)) (h : CoupledCryo.step c l f s = some (x, q)) :
    ∃ x' q', CoupledCryo.step c R f' s' = some (x', q') ∧ ∀ i ∈ R, x' i = x i ∧ q' i = q i := by
  have hp : ∀ i ∈ R, preps c f' s' i = preps c f s i := by
    intro i hi
    simp only [preps, hs i hi, hf i hi]
  have hfr : ∀ i ∈ R, (i ∈ frosties c R f' s' ↔ i ∈ frosties c l f s) := by
    intro i hi
    simp only [frosties, List.mem_filter, hi, hR i hi, true_and, decide_eq_true_eq, hp i hi]
  unfold CoupledCryo.step at h
  rw [hc] at h
  split at h
  · cases h
  rename_i t te hse
  rw [Option.some.injEq, Prod.mk.injEq] at h
  obtain ⟨rfl, rfl⟩ := h
  obtain ⟨t', te', k1, k2⟩ := search_sub _ (balances c f' s') _ (frosties c R f' s') (hl.filter _) (hn.filter _)
    (fun i hi => (hfr i (List.mem_filter.mp hi).1).mp hi)
    (fun i hi => by
      funext u
      simp only [balances, hp i (List.mem_filter.mp hi).1]) _ (fun i => (f' i).temp) t te hse
  unfold CoupledCryo.step
  rw [hc, k1]
  refine ⟨_, _, rfl, fun i hi => ?_⟩
  have e : ((preps c f' s' i).bind fun x => finish c (f' i) x (t' i) (te' i)) =
      (preps c f s i).bind fun x => finish c (f i) x (t i) (te i) := by
    rw [hp i hi, hf i hi]
    cases hx : preps c f s i with
    | none => rfl
    | some y =>
      simp only [Option.bind_some]
      by_cases hy : y.Frosty
      · have hm : i ∈ frosties c R f' s' := by
          rw [hfr i hi]
          simp only [frosties, List.mem_filter, hR i hi, true_and, decide_eq_true_eq]
          exact ⟨y, hx, hy⟩
        rw [(k2 i hm).1, (k2 i hm).2]
      · exact finish_not_frosty c (f i) y hy _ _ _ _
  simp only [e, and_self]

/-- **C149 (cryolayer model), partial: secant method.** If a run of any length succeeds for a region, it does so for
every part of it with the same inputs and initial states there, and gives the same fluxes in each step and the same
final states, although the search for the surface temperature goes on until the slowest pixel is done. -/
theorem C149_cryo_partial (c : CoupledCryo.Site) (hc : c.search = .secant) (l R : List ℕ) (hl : l.Nodup)
    (hn : R.Nodup) (hR : ∀ i ∈ R, i ∈ l) (fs fs' : List (ℕ → CoupledCryo.Forcing))
    (hf : List.Forall₂ (fun f f' => ∀ i ∈ R, f' i = f i) fs fs') (s s' q : States) (hs : ∀ i ∈ R, s' i = s i)
    (xs : List (ℕ → Option (Cryo.Fluxes ℝ))) (h : CoupledCryo.run c l fs s = some (xs, q)) :
    ∃ xs' q', CoupledCryo.run c R fs' s' = some (xs', q') ∧
      List.Forall₂ (fun x x' => ∀ i ∈ R, x' i = x i) xs xs' ∧ ∀ i ∈ R, q' i = q i := by
  induction hf generalizing s s' xs with
  | nil =>
    simp only [CoupledCryo.run, Option.some.injEq, Prod.mk.injEq] at h
    obtain ⟨rfl, rfl⟩ := h
    exact ⟨[], s', rfl, .nil, hs⟩
  | cons hd _ ih =>
    simp only [CoupledCryo.run] at h
    split at h
    · cases h
    rename_i x s1 h1
    split at h
    · cases h
    rename_i ys q1 h2
    simp only [Option.some.injEq, Prod.mk.injEq] at h
    obtain ⟨rfl, rfl⟩ := h
    obtain ⟨x', s1', e1, e2⟩ := cryo_step_sub c hc l R hl hn hR _ _ hd s s' s1 hs x h1
    obtain ⟨ys', q', e3, e4, e5⟩ := ih s1 s1' (fun i hi => (e2 i hi).2) ys h2
    refine ⟨x' :: ys', q', ?_, .cons (fun i hi => (e2 i hi).1) e4, e5⟩
    simp only [CoupledCryo.run, e1, e3]

theorem lookup_mapM {β : Type} (g : ℕ → Option β) (l : List ℕ) (r : List β) (h : l.mapM g = some r) (i : ℕ)
    (hi : i ∈ l) : (l.zip r).lookup i = g i := by
  induction l generalizing r with
  | nil => simp at hi
  | cons a t ih =>
    simp only [List.mapM_cons, Option.pure_def, Option.bind_eq_bind, Option.bind_eq_some_iff,
      Option.some.injEq] at h
    obtain ⟨b, hb, r', hr', rfl⟩ := h
    rw [List.zip_cons_cons, List.lookup_cons]
    by_cases hia : i = a
    · subst hia
      simp [hb]
    · rw [show (i == a) = false by simpa using hia]
      exact ih r' hr' (by simpa [hia] using hi)

/-- **C149 (from the station data to the cryolayer model), partial (secant method, wind without terrain correction, no
rule on rain above snow).** From the station data of any number of time steps: if inputs and run can be calculated for a
region, they can for every part of it, with the same fluxes and states of the snow of each pixel. -/
theorem C149_cryo_run_partial (s : Setup ℕ) (hm : s.interp.method = .idw) (he : s.phase.enforce = false)
    (hroi : s.roi.Nodup) (R : List ℕ) (hn : R.Nodup) (hR : ∀ i ∈ R, i ∈ s.roi) (fuel : ℕ) (c : CoupledCryo.Site)
    (hc : c.search = .secant) (days : List (Day ℕ)) (fs : List (ℕ → CoupledCryo.Forcing))
    (hfs : cryoForcings s fuel days = some fs) (xs : List (ℕ → Option (Cryo.Fluxes ℝ))) (p q : States)
    (h : CoupledCryo.run c s.roi fs p = some (xs, q)) :
    ∃ fs' xs' q', cryoForcings { s with roi := R } fuel days = some fs' ∧
      CoupledCryo.run c R fs' p = some (xs', q') ∧ List.Forall₂ (fun x x' => ∀ i ∈ R, x' i = x i) xs xs' ∧
      ∀ i ∈ R, q' i = q i := by
  have key : ∀ (days : List (Day ℕ)) (fs : List (ℕ → CoupledCryo.Forcing)), cryoForcings s fuel days = some fs →
      ∃ fs', cryoForcings { s with roi := R } fuel days = some fs' ∧
        List.Forall₂ (fun f f' => ∀ i ∈ R, f' i = f i) fs fs' := by
    intro days
    induction days with
    | nil =>
      intro fs h
      obtain rfl : fs = [] := by simpa [cryoForcings] using h.symm
      exact ⟨[], by simp [cryoForcings], .nil⟩
    | cons d t ih =>
      intro fs h
      unfold cryoForcings at h
      rw [List.mapM_cons] at h
      simp only [Option.pure_def, Option.bind_eq_bind, Option.bind_eq_some_iff, Option.map_eq_some_iff,
        Option.some.injEq] at h
      obtain ⟨f, ⟨m, h1, g, h2, rfl⟩, r, h3, rfl⟩ := h
      obtain ⟨fs', k1, k2⟩ := ih r h3
      obtain ⟨m', h4, h5⟩ := C149_step_partial s hm he R hR fuel d.stations blank blank m h1
      have hg : ∀ i ∈ R, cryoForcing m' i (d.sw i) (d.lw i) d.firnDate =
          cryoForcing m i (d.sw i) (d.lw i) d.firnDate := by
        intro i hi
        obtain ⟨e1, -, e3, e4, e5, e6, e7, e8⟩ := h5 i hi
        simp only [cryoForcing, e1, e3, e4, e5, e6, e7, e8]
      obtain ⟨g', hg'⟩ := mapM_sub _ _ R _ h2 hR
      have hg'' : R.mapM (fun i => cryoForcing m' i (d.sw i) (d.lw i) d.firnDate) = some g' := by
        rw [← hg']
        exact mapM_congr_mem _ _ _ hg
      refine ⟨(fun i => ((R.zip g').lookup i).getD ⟨0, 0, 0, 0, 0, 0, 0, 0, 0, false⟩) :: fs', ?_, .cons ?_ k2⟩
      · unfold cryoForcings at k1 ⊢
        rw [List.mapM_cons, k1, h4]
        simp only [Option.bind_some, hg'', Option.map_some]
        rfl
      · intro i hi
        simp only
        rw [lookup_mapM _ _ _ hg'' i hi, lookup_mapM _ _ _ h2 i (hR i hi), hg i hi]
  obtain ⟨fs', k1, k2⟩ := key days fs hfs
  obtain ⟨xs', q', e1, e2, e3⟩ := C149_cryo_partial c hc s.roi R hroi hn hR fs fs' k2 p p q (fun _ _ => rfl) xs h
  exact ⟨fs', xs', q', k1, e1, e2, e3⟩

end Cryo

/-! ## Where the other pixels matter -/

/-- **C149 (single pixel with terrain-corrected wind: false).** With method liston the wind speed is missing wherever
only one pixel is simulated, whatever the stations have recorded: the slope in wind direction is scaled with its
minimum and maximum over the region. -/
theorem C149_single_false (c : Cfgs) (sw cw : ℝ) (hm : c.method = .liston sw cw) (px : ι → Px) (i : ι)
    (st : List Station) (old f : Fields ι) (h : interpolateData c px [i] st old = some f) :
    f.windSpeed i = none ∧ f.windDir i = none := by
  obtain ⟨-, -, -, ⟨e, -⟩ | ⟨a, b, e, ⟨w, w1, w2, w3⟩, -⟩⟩ := data_some h
  · rw [hm] at e
    cases e
  · have hw : w = [none] := by
      simp only [listonRoi] at w1
      split at w1
      · rename_i u v hu hv
        have lu := (mapM_spec _ _ _ hu).1
        have lv := (mapM_spec _ _ _ hv).1
        simp only [List.length_cons, List.length_nil, zero_add] at lu lv
        obtain ⟨u0, rfl⟩ := List.length_eq_one_iff.mp lu
        obtain ⟨v0, rfl⟩ := List.length_eq_one_iff.mp lv
        rw [Option.some.injEq] at w1
        subst w1
        cases u0 <;> cases v0 <;> simp [listonOpt, Verif.Config.normalize]
      · cases w1
    subst hw
    rw [w2, w3]
    simp [assign]

/-- **C149 (no snow below rain: monotone).** With the rule that it does not snow below pixels with rain, a smaller
region can only turn rain into snow: the precipitation is the same, the snowfall of a remaining pixel is not smaller
and its rainfall not larger (no snow redistribution). -/
theorem C149_enforce_partial (s : Setup ι) (hm : s.interp.method = .idw) (hs : s.phase.hasSrf = false) (R : List ι)
    (hR : ∀ i ∈ R, i ∈ s.roi) (fuel : ℕ) (st : List Station) (old old' : Fields ι) (m : Met ι)
    (h : step s fuel st old = some m) :
    ∃ m', step { s with roi := R } fuel st old' = some m' ∧ ∀ i ∈ R, m'.temp i = m.temp i ∧
      m'.relHum i = m.relHum i ∧ m'.wind i = m.wind i ∧ m'.wet i = m.wet i ∧
      ((m.snow i = none ∧ m'.snow i = none ∧ m.rain i = none ∧ m'.rain i = none) ∨
        ∃ n r n' r' : ℝ, m.snow i = some n ∧ m.rain i = some r ∧ m'.snow i = some n' ∧ m'.rain i = some r' ∧
          n' + r' = n + r ∧ n ≤ n' ∧ r' ≤ r) := by
  simp only [step, Option.bind_eq_some_iff, Option.map_eq_some_iff] at h
  obtain ⟨f, hf, w, hw, outs, ho, rfl⟩ := h
  obtain ⟨f', hf', hff⟩ := C149_interp_partial s.interp hm s.px s.roi R hR st old old' f hf
  have hc : R.map (cell { s with roi := R } f') = R.map (cell s f) := by
    refine List.map_congr_left fun i hi => ?_
    simp only [cell, (hff i hi).1, (hff i hi).2.2.1]
  obtain ⟨w', hw', -, hww⟩ := C149_wetBulb fuel (cell s f) s.roi R hR w hw
  simp only [Precip.process] at ho
  split_ifs at ho with hr
  rw [Option.some.injEq] at ho
  subst ho
  simp only [step]
  rw [hf', Option.bind_some, hc, hw', Option.bind_some]
  simp only [Precip.process, if_neg hr, Option.map_some]
  refine ⟨_, rfl, fun i hi => ?_⟩
  obtain ⟨k1, k2, k3, k4, -⟩ := hff i hi
  have kw := hww i hi (fun _ => none) (fun _ => none)
  refine ⟨k1, k3, k4, kw, ?_⟩
  simp only [List.map_map, Function.comp_def]
  rw [assign_map R _ _ i hi, assign_map R _ _ i hi, assign_map s.roi _ _ i (hR i hi),
    assign_map s.roi _ _ i (hR i hi)]
  have hp := phasePx_congr s R k1 k2 kw
  have hmap : R.map (phasePx { s with roi := R } f' (assign R w' fun _ => none)) =
      R.map (phasePx s f (assign s.roi w fun _ => none)) := by
    refine List.map_congr_left fun j hj => ?_
    obtain ⟨j1, j2, -⟩ := hff j hj
    exact phasePx_congr s R j1 j2 (hww j hj _ _)
  rw [hp, hmap]
  set g := phasePx s f (assign s.roi w fun _ => none) with hg
  have hmono : Precip.enforced s.phase (s.roi.map g) (g i) ≤ Precip.enforced s.phase (R.map g) (g i) :=
    enforced_mono s.phase (not_lt.mp hr) (s.roi.map g) (R.map g) (by
      intro p hp
      obtain ⟨j, hj, rfl⟩ := List.mem_map.mp hp
      exact List.mem_map_of_mem (hR j hj)) (by
      intro p hp
      obtain ⟨j, -, rfl⟩ := List.mem_map.mp hp
      exact ⟨_, rfl⟩) (g i)
  have hgp : (g i).precip = f.precip i := rfl
  simp only [Precip.partition, hs, Bool.false_eq_true, if_false, hgp]
  cases hx : f.precip i with
  | none => exact Or.inl ⟨rfl, rfl, rfl, rfl⟩
  | some x =>
    have hx0 : 0 ≤ x := (C104_ranges s.interp s.px s.roi st old f hf i (hR i hi) x).2.1 hx
    refine Or.inr ⟨_, _, _, _, rfl, rfl, rfl, rfl, by ring, mul_le_mul_of_nonneg_right hmono hx0,
      mul_le_mul_of_nonneg_right (by linarith) hx0⟩

/-- **C149 (no snow below rain: false).** A pixel at 1000 m with -3 °C has snow if it is simulated alone, and rain if a
pixel at 2000 m with 7 °C is simulated too. -/
theorem C149_enforce_false :
    ∃ (c : Precip.Cfg ℚ) (a b : Precip.Px ℚ),
      (Precip.process c [a]).map (fun l => l.map fun o => (o.snow, o.rain)) = some [(some 5, some 0)] ∧
      (Precip.process c [a, b]).map (fun l => l.map fun o => (o.snow, o.rain)) =
        some [(some 0, some 5), (some 0, some 5)] := by
  refine ⟨⟨273, 0, true, false⟩, ⟨some 1000, some 270, some 5, none⟩, ⟨some 2000, some 280, some 5, none⟩, ?_, ?_⟩ <;>
    decide +kernel

/-- Setup for the witness: terrain-corrected wind; pixel 0 is flat, pixels 1 and 2 face north and east. -/
noncomputable def hills : Setup ℕ where
  interp := ⟨⟨.fixed, 0, true⟩, ⟨.fractional, 0, true⟩, ⟨.fixed, 0, true⟩, ⟨.fixed, 0, true⟩,
    .liston (1 / 2) (1 / 2), false⟩
  px := fun i => ⟨100, 100, 2000, if i = 0 then 0 else 30, if i = 1 then 0 else 90, 0⟩
  roi := [0, 1, 2]
  phase := ⟨27365 / 100, 2, false, false⟩
  byWetBulb := true
  srf := fun _ => none

/-- A day with wind from a known direction. -/
noncomputable def windy : List Station :=
  [⟨some 100, some 100, some 2000, some 268, some 5, some 80, some 3, some 200, none⟩]

theorem three (a b sp d : ℝ) : ∃ u, (listonOpt a b [some ⟨sp, d, 0, 90, 0⟩, some ⟨sp, d, 30, 0, 0⟩,
    some ⟨sp, d, 30, 90, 0⟩])[0]? = some (some u) := by
  unfold listonOpt
  split
  · rename_i h
    exfalso
    have hp := Real.pi_pos
    simp only [List.map_cons, List.map_nil, Option.map_some, Verif.Config.normalize, List.filterMap_cons, id,
      List.filterMap_nil, List.min?_cons', List.max?_cons', List.foldl_cons, List.foldl_nil] at h
    split_ifs at h with h0
    have e0 : MeteoInterp.windSlope ⟨sp, d, 0, 90, 0⟩ = 0 := by simp [MeteoInterp.windSlope, MeteoInterp.rad]
    have e1 : MeteoInterp.windSlope ⟨sp, d, 30, 0, 0⟩ = Real.pi / 6 * Real.cos (MeteoInterp.rad d) := by
      simp only [MeteoInterp.windSlope, MeteoInterp.rad, sub_zero]
      ring
    have e2 : MeteoInterp.windSlope ⟨sp, d, 30, 90, 0⟩ = Real.pi / 6 * Real.sin (MeteoInterp.rad d) := by
      have : MeteoInterp.rad (d - 90) = MeteoInterp.rad d - Real.pi / 2 := by simp only [MeteoInterp.rad]; ring
      simp only [MeteoInterp.windSlope, this, Real.cos_sub_pi_div_two]
      simp only [MeteoInterp.rad]
      ring
    rw [e0, e1, e2] at h0
    set y := Real.pi / 6 * Real.cos (MeteoInterp.rad d) with hy
    set z := Real.pi / 6 * Real.sin (MeteoInterp.rad d) with hz
    have h0 := sub_eq_zero.mp h0
    have a1 : y ≤ max (max 0 y) z := le_trans (le_max_right _ _) (le_max_left _ _)
    have a2 : (0 : ℝ) ≤ max (max 0 y) z := le_trans (le_max_left _ _) (le_max_left _ _)
    have a3 : z ≤ max (max 0 y) z := le_max_right _ _
    have b1 : min (min 0 y) z ≤ y := le_trans (min_le_left _ _) (min_le_right _ _)
    have b2 : min (min 0 y) z ≤ (0 : ℝ) := le_trans (min_le_left _ _) (min_le_left _ _)
    have b3 : min (min 0 y) z ≤ z := min_le_right _ _
    have hy0 : y = 0 := by linarith
    have hz0 : z = 0 := by linarith
    have c1 : Real.cos (MeteoInterp.rad d) = 0 := by
      rcases mul_eq_zero.mp hy0 with e | e
      · linarith
      · exact e
    have c2 : Real.sin (MeteoInterp.rad d) = 0 := by
      rcases mul_eq_zero.mp hz0 with e | e
      · linarith
      · exact e
    have := Real.sin_sq_add_cos_sq (MeteoInterp.rad d)
    rw [c1, c2] at this
    norm_num at this
  · rename_i ss hs
    simp only [Verif.Config.normalize] at hs
    split at hs
    · split_ifs at hs
      rw [Option.some.injEq] at hs
      subst hs
      exact ⟨_, rfl⟩
    · cases hs

/-- **C149 (terrain-corrected wind: false).** The same pixel has a wind speed when its neighbours are simulated too, and
none when it is simulated alone. -/
theorem C149_wind_false :
    ∃ f f' : Fields ℕ, interpolateData hills.interp hills.px [0, 1, 2] windy blank = some f ∧
      interpolateData hills.interp hills.px [0] windy blank = some f' ∧
      (∃ u, f.windSpeed 0 = some u) ∧ f'.windSpeed 0 = none := by
  have hex : ∃ f', interpolateData hills.interp hills.px [0] windy blank = some f' := by
    simp [hills, windy, interpolateData, interpRoi, MeteoInterp.interpolate, stationData, stationRec,
      MeteoInterp.trended, listonRoi]
  obtain ⟨f', hf'⟩ := hex
  have hex : ∃ f, interpolateData hills.interp hills.px [0, 1, 2] windy blank = some f := by
    simp [hills, windy, interpolateData, interpRoi, MeteoInterp.interpolate, stationData, stationRec,
      MeteoInterp.trended, listonRoi]
  obtain ⟨f, hf⟩ := hex
  refine ⟨f, f', hf, hf', ?_, (C149_single_false _ _ _ rfl _ _ _ _ _ hf').1⟩
  obtain ⟨-, -, -, ⟨e, -⟩ | ⟨a, b, e, ⟨w, w1, w2, -⟩, -⟩⟩ := data_some hf
  · cases e
  obtain ⟨u, hu⟩ : ∃ u, w[0]? = some (some u) := by
    simp only [listonRoi] at w1
    split at w1
    swap
    · cases w1
    rename_i u v hu hv
    rw [Option.some.injEq] at w1
    subst w1
    have one : ∀ (s : List MeteoInterp.Stn) (u : List (Option ℝ)), (∃ x y z v t, s = [⟨x, y, z, some v, t⟩]) →
        interpRoi .windVec hills.interp.wind s hills.px (fun _ => none) [0, 1, 2] = some u →
        ∃ x, u = [some x, some x, some x] := by
      rintro s u ⟨x, y, z, v, t, rfl⟩ h
      simp [interpRoi, hills, MeteoInterp.interpolate, MeteoInterp.trended, MeteoInterp.trendInterp, MeteoInterp.pts,
        MeteoInterp.idwAt] at h
      exact ⟨_, h.symm⟩
    obtain ⟨x, rfl⟩ := one _ _ (by simp [windy, stationData, stationRec]) hu
    obtain ⟨y, rfl⟩ := one _ _ (by simp [windy, stationData, stationRec]) hv
    exact three a b _ _
  refine ⟨u.1, ?_⟩
  rw [w2]
  have hl := listonRoi_length w1
  match w, hl, hu with
  | [p, q, r], _, hu =>
    obtain rfl : p = some u := by simpa using hu
    simp [assign]

/-- Two pixels at the place of `exSetup`. -/
noncomputable def pair : Setup ℕ := { exSetup with roi := [0, 1] }

theorem pair_ok : SetupOK pair := ⟨by norm_num [pair, exSetup], rfl, fun i _ => by norm_num [pair, exSetup]⟩

theorem pair_known : Usable pair exDay ∧ ∀ i ∈ pair.roi, Known pair exDay i 268 5 := by
  have hex : ∃ f, interpolateData pair.interp pair.px pair.roi exDay.stations blank = some f := by
    simp [pair, exSetup, exDay, interpolateData, interpRoi, MeteoInterp.interpolate, stationData, stationRec,
      MeteoInterp.trended]
  obtain ⟨f, hfs⟩ := hex
  have val : ∀ i ∈ pair.roi, f.temp i = some 268 ∧ f.precip i = some 5 ∧ f.relHum i = some 80 ∧
      f.windSpeed i = some 3 := by
    intro i hi
    obtain ⟨h1, h2, h3⟩ := C104_station pair.interp pair.px pair.roi [] []
      ⟨some 100, some 100, some 2000, some 268, some 5, some 80, some 3, none, none⟩ blank f hfs i hi
      rfl rfl rfl (by simp)
    obtain ⟨t1, t2⟩ := h1 268 rfl (by norm_num) (exact_of_lapse _ _ (Or.inl rfl))
    exact ⟨t1, h2 5 rfl (by norm_num) (exact_of_lapse _ _ (Or.inr rfl)),
      t2 80 rfl (by norm_num) (by norm_num) (by norm_num [Atmosphere.T0]) rfl (exact_of_lapse _ _ (Or.inl rfl)),
      (h3 rfl).1 3 rfl (by norm_num) (exact_of_lapse _ _ (Or.inl rfl))⟩
  refine ⟨⟨f, hfs, fun i hi t ht => ?_⟩, fun i hi => ?_⟩
  · rw [(val i hi).1, Option.some.injEq] at ht
    rw [← ht]
    norm_num [Atmosphere.T0]
  · obtain ⟨v1, v2, v3, v4⟩ := val i hi
    exact ⟨f, hfs, v1, v2, by simp [v3], by simp [v4]⟩

theorem pair_step (fuel : ℕ) (hf : 70 ≤ fuel) : ∃ m F, step pair fuel exDay.stations blank = some m ∧
    forcing m 0 (exDay.sw 0) (exDay.lw 0) = some F := by
  obtain ⟨m, hm, w, q, p, u, n, r, k1, k2, k3, k4, k5, k6, k7, -⟩ := known pair_ok hf pair_known.1
    (i := 0) (by simp [pair]) (pair_known.2 0 (by simp [pair]))
  exact ⟨m, _, hm, by simp only [forcing, k1, k2, k3, k4, k5, k6, k7, Option.bind_some, Option.map_some]; rfl⟩

/-- The conditions of `C149_cryo_run_partial` are met by any number of such days. -/
example (n fuel : ℕ) (hf : 70 ≤ fuel) : ∃ fs' xs' q', cryoForcings { pair with roi := [1] } fuel
    (List.replicate n exDay) = some fs' ∧
    CoupledCryo.run CoupledCryo.exSite [1] fs' (CoupledCryo.start CoupledCryo.exSite [0, 1]) = some (xs', q') := by
  obtain ⟨fs, h1, -, xs, q, h2, -⟩ := C129_cryo pair pair_ok (by simp [pair]) fuel hf CoupledCryo.exSite
    CoupledCryo.exSite_ok (by simp [CoupledCryo.exSite]) (List.replicate n exDay)
    (fun d hd => by rw [(List.mem_replicate.mp hd).2]; exact pair_known.1) (fun _ => List.replicate n 5) (by
      intro i hi
      have hday : ∃ t, Known pair exDay i t 5 ∧ Moderate CoupledCryo.exSite (exDay.sw i) (exDay.lw i) t 5 :=
        ⟨268, pair_known.2 i hi, by norm_num [exDay], by norm_num [exDay, CoupledCryo.exSite],
          fun _ => by rw [CoupledCryo.low_exSite]; norm_num [exDay, CoupledCryo.exSite], by norm_num [CoupledCryo.exSite]⟩
      induction n with
      | zero => exact .nil
      | succ n ih => exact .cons hday ih)
  obtain ⟨fs', xs', q', e1, e2, -⟩ := C149_cryo_run_partial pair rfl rfl (by simp [pair]) [1] (by simp)
    (by simp [pair]) fuel CoupledCryo.exSite rfl _ fs h1 xs _ q h2
  exact ⟨fs', xs', q', e1, e2⟩

/-- The conditions of `C149_run_partial` (and so of `C149_step_partial`) are met by any number of such days; the second
pixel may be left out. -/
example (n fuel : ℕ) (hf : 70 ≤ fuel) : ∃ fs, fs.length = n ∧
    forcings pair fuel 0 (List.replicate n exDay) = some fs ∧
    forcings { pair with roi := [0] } fuel 0 (List.replicate n exDay) = some fs := by
  obtain ⟨m, F, h1, h2⟩ := pair_step fuel hf
  have h : ∀ n, forcings pair fuel 0 (List.replicate n exDay) = some (List.replicate n F) := by
    intro n
    induction n with
    | zero => rfl
    | succ n ih =>
      unfold forcings at ih ⊢
      rw [List.replicate_succ, List.replicate_succ, List.mapM_cons, ih]
      simp [h1, h2]
  exact ⟨_, List.length_replicate, h n,
    (C149_run_partial pair rfl rfl [0, 1] (by simp [pair]) fuel 0 (by simp) _ _ (h n)).2.1⟩

/-- The conditions of `C149_enforce_partial`. -/
example (fuel : ℕ) (hf : 70 ≤ fuel) : ∃ m', step { pair with roi := [1] } fuel exDay.stations blank = some m' := by
  obtain ⟨m, F, h1, -⟩ := pair_step fuel hf
  obtain ⟨m', h, -⟩ := C149_enforce_partial pair rfl rfl [1] (by simp [pair]) fuel exDay.stations blank blank m h1
  exact ⟨m', h⟩

end Verif.Meteorology
