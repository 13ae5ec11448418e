import Verif.Lemmas.GapsCryo
import Verif.Props.CoupledCryo
import Verif.Props.SurfaceTemp

/-!
# C143: the cryolayer snowpack with missing weather data
-/

namespace Verif.GapsCryo

open Verif.Cryo (CPixel CLayer)
open Verif.CoupledCryo (Site Forcing SiteOK Inv LayerOK snowLow snowHigh layers)

/-! ## Specification -/

/-- A value of the energy balance is missing. -/
def Incomplete (w : Weather) : Prop :=
  w.temp = none ∨ w.wetBulb = none ∨ w.specHum = none ∨ w.swIn = none ∨ w.lwIn = none ∨ w.wind = none ∨
    w.rain = none ∨ w.snow = none

/-- One time step of a pixel with any pattern of missing values: snow of numbers in their ranges, balances with missing
precipitation counted as none, no melt, refreezing or sublimation without the values needed for it. -/
structure StepOK (c : Site) (w : Weather) (s : State) (x : Cryo.Fluxes ℝ) (s' : State) : Prop where
  layers : ∀ L ∈ layers s'.snow, LayerOK c L
  ice : s'.snow.iceSum = s.snow.iceSum + w.snow.getD 0 - x.melt + x.refreezing - x.sublimation
  water : s'.snow.lwcSum = s.snow.lwcSum + w.rain.getD 0 + x.melt - x.refreezing - x.runoff
  swe : s'.snow.swe = s.snow.swe + w.snow.getD 0 + w.rain.getD 0 - x.sublimation - x.runoff
  signs : 0 ≤ x.melt ∧ 0 ≤ x.refreezing ∧ 0 ≤ x.runoff
  still : Incomplete w → x.melt = 0 ∧ x.refreezing = 0
  dry : w.temp = none ∨ w.specHum = none ∨ w.wind = none → x.sublimation = 0
  albedo : 0 < s'.snow.swe → ∃ a, s'.snow.albedo = some a ∧ snowLow c ≤ a ∧ a ≤ snowHigh c
  no_albedo : s'.snow.swe = 0 → s'.snow.albedo = none
  /-- surface temperature is unknown only during the gap of air temperature itself -/
  surface : s'.ts = none ↔ w.temp = none
  snowy : 0 < s.snow.swe + w.snow.getD 0 → ∀ t, s'.ts = some t → t ≤ Atmosphere.T0

/-- A domain without snow. -/
noncomputable def start (c : Site) (idxs : List ℕ) : States :=
  fun i => if i ∈ idxs then some ⟨(CoupledCryo.initial c).snow, some c.initTemp⟩ else none

/-- As `CoupledCryo.FairRun`. -/
def FairRun (c : Site) (idxs : List ℕ) : List (ℕ → Weather) → States → Prop
  | [], _ => True
  | w :: ws, s => (∀ i ∈ idxs, ∀ si, s i = some si → Light c (w i) si.snow ∧ Mild c (w i) si) ∧
      ∀ x s', step c idxs w s = some (x, s') → FairRun c idxs ws s'

/-! ## Lemmas -/

theorem mem_frosties {c : Site} {idxs : List ℕ} {w : ℕ → Weather} {s : States} {i : ℕ} :
    i ∈ frosties c idxs w s ↔ i ∈ idxs ∧ ∃ x, preps c w s i = some x ∧ x.Frosty := by
  simp [frosties]

theorem frosties_nodup {c : Site} {idxs : List ℕ} (hn : idxs.Nodup) (w : ℕ → Weather) (s : States) :
    (frosties c idxs w s).Nodup := hn.filter _

/-- Air temperature is a part of the prepared pixel. -/
theorem prep_temp {c : Site} {w : Weather} {s : State} {x : Prep} (h : prep c w s = some x) :
    x.surf = surf c w s.ts x.snow := by
  simp only [prep, Option.map_eq_some_iff] at h
  obtain ⟨p, -, rfl⟩ := h
  rfl

theorem frosty_air {c : Site} {idxs : List ℕ} {w : ℕ → Weather} {s : States} {i : ℕ}
    (h : i ∈ frosties c idxs w s) : ((w i).temp).getD 0 < Atmosphere.T0 := by
  obtain ⟨-, x, hx, -, t, ht, hT⟩ := mem_frosties.1 h
  cases hs : s i with
  | none => simp [preps, hs] at hx
  | some si =>
    have hx' : prep c (w i) si = some x := by simpa [preps, hs] using hx
    rw [prep_temp hx'] at ht
    have : (w i).temp = some t := ht
    rw [this]
    exact hT

/-- A missing value makes the balance NaN at every temperature. -/
theorem balance_none {c : Site} {w : Weather} {s : State} {x : Prep} (hx : prep c w s = some x) (h : Incomplete w)
    (t : ℝ) : x.balance c t = none := by
  by_contra hb
  obtain ⟨p, e⟩ := x
  have := prep_temp hx
  simp only at this
  subst this
  obtain ⟨⟨f, rfl⟩, -⟩ := complete_of_balance hb
  simp [Incomplete, ofForcing] at h

/-- Results of the search: at most the melting point; the melting point where the balance is unknown. -/
theorem search_spec {m : CoupledCryo.Search} {bal : ℕ → ℝ → Option ℝ} {idxs : List ℕ} (hn : idxs.Nodup)
    {air t te : ℕ → ℝ} (ha : ∀ i ∈ idxs, air i < Atmosphere.T0) (h : search m bal idxs air = some (t, te)) {i : ℕ}
    (hi : i ∈ idxs) :
    t i ≤ Atmosphere.T0 ∧ (bal i Atmosphere.T0 = none → t i = Atmosphere.T0 ∧ te i = Atmosphere.T0) := by
  cases m with
  | secant =>
    simp only [search, Option.map_eq_some_iff, Prod.mk.injEq] at h
    obtain ⟨⟨u, v⟩, hr, rfl, rfl⟩ := h
    simp only
    by_cases hk : i ∈ idxs.filter fun i => (bal i Atmosphere.T0).isSome
    · simp only [hk, if_true]
      refine ⟨CoupledCryo.search_le (hn.filter _) (fun j hj => ha j (List.mem_of_mem_filter hj)) hr hk, fun hb => ?_⟩
      simp [hb] at hk
    · simp only [hk, if_false]
      exact ⟨le_rfl, fun _ => ⟨trivial, trivial⟩⟩
  | legacy =>
    simp only [search, Option.some.injEq, Prod.mk.injEq] at h
    obtain ⟨rfl, rfl⟩ := h
    simp only [hi, if_true, and_self]
    have hfrost : ∀ c ∈ idxs.map (fun i => (⟨air i, bal i⟩ : SurfaceTemp.Cell)), c.air < Atmosphere.T0 := by
      intro c hc
      obtain ⟨j, hj, rfl⟩ := List.mem_map.1 hc
      exact ha j hj
    have hget : (idxs.map (fun i => (⟨air i, bal i⟩ : SurfaceTemp.Cell)))[idxs.idxOf i]? = some ⟨air i, bal i⟩ := by
      rw [List.getElem?_map, List.getElem?_eq_getElem (List.idxOf_lt_length_of_mem hi)]
      simp
    constructor
    · obtain ⟨k, hk, -⟩ := SurfaceTemp.C80_stepwise _ hfrost _ _ hget
      rw [List.getD_eq_getElem?_getD, hk, Option.getD_some]
      have : (0 : ℝ) ≤ k / 4 := by positivity
      linarith
    · intro hb
      have := SurfaceTemp.C80_stepwise_warm _ hfrost _ _ hget (by
        rintro ⟨y, hy, -⟩
        simp only [hb] at hy
        exact absurd hy (by simp))
      rw [List.getD_eq_getElem?_getD, this, Option.getD_some]

/-- The calls after the search are defined and keep the state in order, whatever the search returned. -/
theorem finish_spec {c : Site} (h : SiteOK c) {w : Weather} (hw : WeatherOK c w) {s : State} (hs : Inv c s.snow)
    (hl : Light c w s.snow) :
    ∃ x, prep c w s = some x ∧ x.snow.swe = s.snow.swe + w.snow.getD 0 ∧
      x.snow.iceSum = s.snow.iceSum + w.snow.getD 0 ∧ ∀ t te, ∃ fl q,
      finish c w x t te = some (fl, ⟨q, surfaceTemp x t⟩) ∧ Inv c q ∧
      q.iceSum = s.snow.iceSum + w.snow.getD 0 - fl.melt + fl.refreezing - fl.sublimation ∧
      q.lwcSum = s.snow.lwcSum + w.rain.getD 0 + fl.melt - fl.refreezing - fl.runoff ∧
      q.swe = s.snow.swe + w.snow.getD 0 + w.rain.getD 0 - fl.sublimation - fl.runoff ∧
      0 ≤ fl.melt ∧ 0 ≤ fl.refreezing ∧ 0 ≤ fl.runoff ∧
      (q.swe = 0 → q.albedo = none) ∧ (0 < q.swe → ∃ a, q.albedo = some a ∧ snowLow c ≤ a ∧ a ≤ snowHigh c) ∧
      fl.melt = (melting c w x).1 ∧ fl.refreezing = (melting c w x).2.1 ∧
      fl.sublimation = (Cryo.sublimation c.dt (fresh w) c.albedo.max c.single (moisture x te)
        (Cryo.melt (melting c w x).1 (melting c w x).2.2)).1 := by
  obtain ⟨p, hp, hi, hswe, hice, halb, hst⟩ := prepare_spec h hw hs hl
  have hprep : prep c w s = some ⟨p, surf c w s.ts p⟩ := by simp [prep, hp]
  refine ⟨_, hprep, hswe, hice, fun t te => ?_⟩
  obtain ⟨e, he, es, er, heq⟩ := hst (meltIn c w ⟨p, surf c w s.ts p⟩) (moisture ⟨p, surf c w s.ts p⟩ te)
  obtain ⟨fl, q, hq, hend, y1, y2, y3, y4, y5, y6, -, y7, y8⟩ :=
    Cryo.C33_step c.albedo.min (CoupledCryo.cryoCfg c) e s.snow (CoupledCryo.cryoCfg_ok h) he hs.pixel
  rw [es, er] at y3
  rw [es] at y1
  rw [er] at y2
  obtain ⟨z1, z2, z3⟩ := y8 (snowLow c) (snowHigh c) (CoupledCryo.palette c) hs.firn hs.ice
  rw [heq, ← massStep_tail c w ⟨p, surf c w s.ts p⟩ te] at hq
  have hfl : fl.melt = (melting c w ⟨p, surf c w s.ts p⟩).1 ∧
      fl.refreezing = (melting c w ⟨p, surf c w s.ts p⟩).2.1 ∧
      fl.sublimation = (Cryo.sublimation c.dt (fresh w) c.albedo.max c.single (moisture ⟨p, surf c w s.ts p⟩ te)
        (Cryo.melt (melting c w ⟨p, surf c w s.ts p⟩).1 (melting c w ⟨p, surf c w s.ts p⟩).2.2)).1 := by
    have hq' := hq
    unfold massStep at hq'
    simp only at hq'
    split at hq'
    · simp at hq'
    · have hf' := congrArg Prod.fst (Option.some.inj hq')
      simp only at hf'
      rw [← hf']
      exact ⟨rfl, rfl, rfl⟩
  exact ⟨fl, q, by simp only [finish, hq], ⟨hend, z1, z2⟩, y1, y2, y3, y4, y5, y6, y7, z3, hfl.1, hfl.2.1, hfl.2.2⟩

theorem melt_zero (p : CPixel ℝ) : Cryo.melt 0 p = p := by simp [Cryo.melt, Cryo.meltLayer]

theorem iceSum_nonneg {c : Site} {p : CPixel ℝ} (hp : Inv c p) : 0 ≤ p.iceSum := by
  have h1 := hp.pixel.new.toEndLayer.plausible.nonneg
  have h2 := hp.pixel.old.toEndLayer.plausible.nonneg
  have h3 := hp.pixel.firn.plausible.nonneg
  have h4 := hp.pixel.ice.plausible.nonneg
  unfold CPixel.iceSum
  linarith [h1.ice, h2.ice, h3.ice, h4.ice]

theorem sublimation_none (dt d a : ℝ) (b : Bool) (p : CPixel ℝ) (hp : 0 ≤ p.iceSum) :
    (Cryo.sublimation dt d a b none p).1 = 0 := by
  simp only [Cryo.sublimation, Option.map_none, nanToZero]
  split_ifs
  · exact min_eq_left hp
  · rfl

theorem moisture_none {c : Site} {w : Weather} {s : State} {x : Prep} (hx : prep c w s = some x)
    (h : w.temp = none ∨ w.specHum = none ∨ w.wind = none) (te : ℝ) : moisture x te = none := by
  have hsf := prep_temp hx
  unfold moisture
  cases hst : surfaceTemp x te with
  | none => rfl
  | some ts =>
    simp only [Option.bind_some, hsf]
    have e1 : (surf c w s.ts x.snow).w.temp = w.temp := rfl
    have e2 : (surf c w s.ts x.snow).w.specHum = w.specHum := rfl
    have e3 : (surf c w s.ts x.snow).transfer = ((w.temp.map fun t => Atmosphere.modelDensity t w.press).bind
      fun d => w.wind.map fun u => d * (surf c w s.ts x.snow).exch * u) := rfl
    rw [e1, e2, e3]
    rcases h with h | h | h
    · simp [h]
    · cases ht : w.temp <;> simp [h]
    · cases ht : w.temp <;> simp [h]

theorem surfaceTemp_none {c : Site} {w : Weather} {s : State} {x : Prep} (hx : prep c w s = some x) (t : ℝ) :
    surfaceTemp x t = none ↔ w.temp = none := by
  have e1 : x.surf.w.temp = w.temp := by rw [prep_temp hx]; rfl
  simp [surfaceTemp, e1]

/-! ## C143 -/

/-- **C143 (time step).** From states in order and with any pattern of missing values the search ends and every pixel
of the domain has its fluxes and a next state in order. -/
theorem C143_cryo_step (c : Site) (h : SiteOK c) (idxs : List ℕ) (hn : idxs.Nodup) (w : ℕ → Weather)
    (hw : ∀ i ∈ idxs, WeatherOK c (w i)) (s : States)
    (hs : ∀ i ∈ idxs, ∃ si, s i = some si ∧ Inv c si.snow ∧ Light c (w i) si.snow ∧ Mild c (w i) si) :
    ∃ xs q, step c idxs w s = some (xs, q) ∧ ∀ i ∈ idxs, ∀ si, s i = some si →
      ∃ x si', xs i = some x ∧ q i = some si' ∧ Inv c si'.snow ∧ StepOK c (w i) si x si' := by
  obtain ⟨r, hr⟩ : ∃ r, search c.search (balances c w s) (frosties c idxs w s)
      (fun i => ((w i).temp).getD 0) = some r := by
    cases hm : c.search with
    | legacy => exact ⟨_, rfl⟩
    | secant =>
      obtain ⟨r, hr⟩ := CoupledCryo.search_defined (m := .secant)
        (bal := fun i t => (balances c w s i t).getD 0)
        (idxs := (frosties c idxs w s).filter fun i => (balances c w s i Atmosphere.T0).isSome)
        ((frosties_nodup hn w s).filter _) (fun i => ((w i).temp).getD 0) fun _ i hi => by
          obtain ⟨hi1, hi2⟩ := List.mem_filter.1 hi
          obtain ⟨hi', x, hx, hfr⟩ := mem_frosties.1 hi1
          obtain ⟨si, hsi, hinv, hlight, hmild⟩ := hs i hi'
          have hx' : prep c (w i) si = some x := by rw [preps, hsi] at hx; exact hx
          have hbal : ∀ t, balances c w s i t = x.balance c t := fun t => by simp [balances, hx]
          rw [hbal] at hi2
          have := ends h (hw i hi') hinv hlight hmild hm hx' hfr (Option.isSome_iff_ne_none.1 hi2)
          simpa only [hbal] using this
      exact ⟨_, by simp only [search, hr, Option.map_some]; rfl⟩
  obtain ⟨t, te⟩ := r
  refine ⟨_, _, by simp only [step, hr]; rfl, ?_⟩
  intro i hi si hsi
  obtain ⟨si', hsi', hinv, hlight, -⟩ := hs i hi
  obtain rfl : si' = si := Option.some.inj (hsi'.symm.trans hsi)
  obtain ⟨x, hx, hswe, hice, hfin⟩ := finish_spec h (hw i hi) hinv hlight
  obtain ⟨fl, q, hq, hinv', y1, y2, y3, y4, y5, y6, y7, y8, y9, y10, y11⟩ := hfin (t i) (te i)
  have hpi : preps c w s i = some x := by rw [preps, hsi]; exact hx
  refine ⟨fl, ⟨q, surfaceTemp x (t i)⟩, by simp [hpi, hq], by simp [hpi, hq], hinv', CoupledCryo.layers_ok hinv', y1, y2,
    y3, ⟨y4, y5, y6⟩, ?_, ?_, y8, y7, surfaceTemp_none hx _, ?_⟩
  · intro hinc
    have := melting_still (w := w i) (Or.inr (balance_none hx hinc Atmosphere.T0))
    rw [y9, y10, this]
    exact ⟨rfl, rfl⟩
  · intro hno
    have hinc : Incomplete (w i) := by
      unfold Incomplete
      tauto
    have hst := melting_still (w := w i) (Or.inr (balance_none hx hinc Atmosphere.T0))
    rw [y11, moisture_none hx hno, hst]
    apply sublimation_none
    rw [melt_zero, hice]
    exact add_nonneg (iceSum_nonneg hinv) (getD_nonneg (hw i hi).snow)
  · intro hpos ts hts
    rw [← hswe] at hpos
    have e1 : x.surf.w.temp = (w i).temp := by rw [prep_temp hx]; rfl
    simp only [surfaceTemp, hpos, if_true, Option.map_eq_some_iff] at hts
    obtain ⟨a, ha, rfl⟩ := hts
    split_ifs with hc
    · exact (search_spec (frosties_nodup hn w s) (fun j hj => frosty_air hj) hr
        (mem_frosties.2 ⟨hi, x, hpi, hpos, a, ha, hc⟩)).1
    · exact le_rfl

/-- **C143 (run).** A domain without snow is driven by any series of weather fields with any pattern of missing values:
every search ends, no NaN arises in the snow of any pixel, and its water is precipitation (missing values counted as
none) minus sublimation minus runoff. -/
theorem C143_cryo_run (c : Site) (h : SiteOK c) (idxs : List ℕ) (hn : idxs.Nodup) (ws : List (ℕ → Weather))
    (hw : ∀ w ∈ ws, ∀ i ∈ idxs, WeatherOK c (w i)) (hfair : FairRun c idxs ws (start c idxs)) :
    ∃ xs q, run c idxs ws (start c idxs) = some (xs, q) ∧ ∀ i ∈ idxs, ∃ (s : State) (ys : List (Cryo.Fluxes ℝ)),
      q i = some s ∧ xs.map (fun x => x i) = ys.map some ∧ ys.length = ws.length ∧ Inv c s.snow ∧
      (∀ L ∈ layers s.snow, LayerOK c L) ∧ (∀ y ∈ ys, 0 ≤ y.melt ∧ 0 ≤ y.refreezing ∧ 0 ≤ y.runoff) ∧
      s.snow.swe = (ws.map fun w => (w i).snow.getD 0 + (w i).rain.getD 0).sum -
        (ys.map fun y => y.sublimation + y.runoff).sum := by
  have key : ∀ (ws : List (ℕ → Weather)) (st : States), (∀ w ∈ ws, ∀ i ∈ idxs, WeatherOK c (w i)) →
      FairRun c idxs ws st → (∀ i ∈ idxs, ∃ si, st i = some si ∧ Inv c si.snow) →
      ∃ xs q, run c idxs ws st = some (xs, q) ∧ ∀ i ∈ idxs, ∀ si, st i = some si →
        ∃ (s : State) (ys : List (Cryo.Fluxes ℝ)), q i = some s ∧
        xs.map (fun x => x i) = ys.map some ∧ ys.length = ws.length ∧ Inv c s.snow ∧
        (∀ y ∈ ys, 0 ≤ y.melt ∧ 0 ≤ y.refreezing ∧ 0 ≤ y.runoff) ∧
        s.snow.swe = si.snow.swe + (ws.map fun w => (w i).snow.getD 0 + (w i).rain.getD 0).sum -
          (ys.map fun y => y.sublimation + y.runoff).sum := by
    intro ws
    induction ws with
    | nil =>
      intro st _ _ hst
      refine ⟨[], st, rfl, fun i hi si hsi => ?_⟩
      obtain ⟨si', hsi', hinv⟩ := hst i hi
      obtain rfl : si' = si := Option.some.inj (hsi'.symm.trans hsi)
      exact ⟨si', [], hsi, rfl, rfl, hinv, by simp, by simp⟩
    | cons w ws ih =>
      intro st hw hf hst
      obtain ⟨xs1, q1, e1, k1⟩ := C143_cryo_step c h idxs hn w (hw w (by simp)) st fun i hi => by
        obtain ⟨si, hsi, hinv⟩ := hst i hi
        exact ⟨si, hsi, hinv, hf.1 i hi si hsi⟩
      obtain ⟨xs2, q2, e2, k2⟩ := ih q1 (fun g hg => hw g (by simp [hg])) (hf.2 _ _ e1) fun i hi => by
        obtain ⟨si, hsi, -⟩ := hst i hi
        obtain ⟨x, si', -, hq, hinv, -⟩ := k1 i hi si hsi
        exact ⟨si', hq, hinv⟩
      refine ⟨xs1 :: xs2, q2, by simp [run, e1, e2], fun i hi si hsi => ?_⟩
      obtain ⟨x, si', hx, hq, hinv, hok⟩ := k1 i hi si hsi
      obtain ⟨s, ys, z1, z2, z3, z4, z5, z6⟩ := k2 i hi si' hq
      refine ⟨s, x :: ys, z1, by simp [hx, z2], by simp [z3], z4, ?_, ?_⟩
      · intro y hy
        rcases List.mem_cons.1 hy with rfl | hy
        · exact hok.signs
        · exact z5 y hy
      · rw [z6, hok.swe]
        simp only [List.map_cons, List.sum_cons]
        ring
  obtain ⟨xs, q, e, k⟩ := key ws (start c idxs) hw hfair fun i hi =>
    ⟨_, if_pos hi, CoupledCryo.initial_inv c⟩
  refine ⟨xs, q, e, fun i hi => ?_⟩
  obtain ⟨s, ys, z1, z2, z3, z4, z5, z6⟩ := k i hi _ (if_pos hi)
  refine ⟨s, ys, z1, z2, z3, z4, CoupledCryo.layers_ok z4, z5, ?_⟩
  rw [z6]
  simp [CoupledCryo.initial, CPixel.swe, CLayer.we, Cryo.emptyLayer]

/-- **C143.** The conditions of `FairRun` are met if water is retained by mass fraction and, for the secant search,
frost days without gaps are not too sunny or humid. -/
theorem C143_cryo_fair (c : Site) (h : SiteOK c) (hm : c.lwcMethod ≠ .poreVolume) (idxs : List ℕ) (hn : idxs.Nodup)
    (ws : List (ℕ → Weather)) (hw : ∀ w ∈ ws, ∀ i ∈ idxs, WeatherOK c (w i) ∧
      (c.search = .secant → ∀ f, w i = ofForcing f → CoupledCryo.Shade c f)) :
    FairRun c idxs ws (start c idxs) := by
  have key : ∀ (ws : List (ℕ → Weather)) (st : States), (∀ w ∈ ws, ∀ i ∈ idxs, WeatherOK c (w i) ∧
      (c.search = .secant → ∀ f, w i = ofForcing f → CoupledCryo.Shade c f)) →
      (∀ i ∈ idxs, ∃ si, st i = some si ∧ Inv c si.snow) → FairRun c idxs ws st := by
    intro ws
    induction ws with
    | nil => intro _ _ _; trivial
    | cons w ws ih =>
      intro st hw hst
      have hone : ∀ i ∈ idxs, ∀ si, st i = some si → Light c (w i) si.snow ∧ Mild c (w i) si := by
        intro i hi si hsi
        obtain ⟨si', hsi', hinv⟩ := hst i hi
        obtain rfl : si' = si := Option.some.inj (hsi'.symm.trans hsi)
        have hl : Light c (w i) si'.snow := fun hp => absurd hp hm
        exact ⟨hl, fun hsec => mild h (hw w (by simp) i hi).1 ((hw w (by simp) i hi).2 hsec) hinv hl hsec⟩
      refine ⟨hone, fun x s' hx => ih s' (fun g hg => hw g (by simp [hg])) fun i hi => ?_⟩
      obtain ⟨xs1, q1, e1, k1⟩ := C143_cryo_step c h idxs hn w (fun i hi => (hw w (by simp) i hi).1) st fun i hi => by
        obtain ⟨si, hsi, hinv⟩ := hst i hi
        exact ⟨si, hsi, hinv, hone i hi si hsi⟩
      rw [e1] at hx
      obtain ⟨si, hsi, -⟩ := hst i hi
      obtain ⟨y, si', -, hq, hinv, -⟩ := k1 i hi si hsi
      have hqs : q1 = s' := congrArg Prod.snd (Option.some.inj hx)
      rw [← hqs]
      exact ⟨si', hq, hinv⟩
  exact key ws _ hw fun i hi => ⟨_, if_pos hi, CoupledCryo.initial_inv c⟩

/-- **C143, false for the surface temperature of the cryolayer model:** while any other value is missing, snow in air
below the freezing point gets a surface at the melting point, however cold the air and whichever search is configured.
If humidity and wind are known it sublimates as a melting surface would. -/
theorem C143_cryo_false (c : Site) (h : SiteOK c) (idxs : List ℕ) (hn : idxs.Nodup) (w : ℕ → Weather) (s q : States)
    (xs : ℕ → Option (Cryo.Fluxes ℝ)) (hr : step c idxs w s = some (xs, q)) (i : ℕ) (hi : i ∈ idxs)
    (hw : WeatherOK c (w i)) (si : State) (hsi : s i = some si) (hinv : Inv c si.snow) (hl : Light c (w i) si.snow)
    (hsnow : 0 < si.snow.swe + (w i).snow.getD 0) (a : ℝ) (ha : (w i).temp = some a) (hcold : a < Atmosphere.T0)
    (hgap : Incomplete (w i)) :
    ∃ x si', xs i = some x ∧ q i = some si' ∧ si'.ts = some Atmosphere.T0 ∧
      ∀ u hum p, (w i).wind = some u → (w i).specHum = some hum → prepare c (w i) si = some p →
        x.sublimation = if 0 < si.snow.iceSum + (w i).snow.getD 0 then
          min (Atmosphere.modelDensity a (w i).press * exchange c (w i) si.ts p * u *
            ((SurfaceTemp.satHumidity (w i).press Atmosphere.T0).getD 0 - hum) * c.dt)
            (si.snow.iceSum + (w i).snow.getD 0) else 0 := by
  unfold step at hr
  cases hse : search c.search (balances c w s) (frosties c idxs w s) (fun i => ((w i).temp).getD 0) with
  | none => rw [hse] at hr; simp at hr
  | some r =>
    obtain ⟨t, te⟩ := r
    rw [hse] at hr
    simp only [Option.some.injEq, Prod.mk.injEq] at hr
    obtain ⟨rfl, rfl⟩ := hr
    obtain ⟨x, hx, hswe, hice, hfin⟩ := finish_spec h hw hinv hl
    obtain ⟨fl, p, hq, -, -, -, -, -, -, -, -, -, -, -, hsub⟩ := hfin (t i) (te i)
    have hpi : preps c w s i = some x := by rw [preps, hsi]; exact hx
    have e1 : x.surf.w.temp = (w i).temp := by rw [prep_temp hx]; rfl
    rw [← hswe] at hsnow
    have hmem : i ∈ frosties c idxs w s := mem_frosties.2 ⟨hi, x, hpi, hsnow, a, e1.trans ha, hcold⟩
    have hbal : balances c w s i Atmosphere.T0 = none := by
      simp only [balances, hpi, Option.bind_some]
      exact balance_none hx hgap _
    obtain ⟨ht, hte⟩ := (search_spec (frosties_nodup hn w s) (fun j hj => frosty_air hj) hse hmem).2 hbal
    have hts : ∀ z, surfaceTemp x z = some z := by
      intro z
      simp [surfaceTemp, e1, ha, hsnow, hcold]
    refine ⟨fl, ⟨p, surfaceTemp x (t i)⟩, by simp [hpi, hq], by simp [hpi, hq], by rw [hts, ht], ?_⟩
    intro u hum p' hu hhum hp'
    have hxp : x = ⟨p', surf c (w i) si.ts p'⟩ := by
      simp only [prep, hp', Option.map_some, Option.some.injEq] at hx
      exact hx.symm
    have hm : moisture x (te i) = some (Atmosphere.modelDensity a (w i).press * exchange c (w i) si.ts p' * u *
        (hum - (SurfaceTemp.satHumidity (w i).press Atmosphere.T0).getD 0)) := by
      have e2 : x.surf.w.specHum = some hum := by rw [hxp]; exact hhum
      have e3 : x.surf.transfer = some (Atmosphere.modelDensity a (w i).press * exchange c (w i) si.ts p' * u) := by
        rw [hxp]
        simp [Gaps.Surf.transfer, surf, Weather.all, ha, hu]
      have e4 : x.surf.w.qsat = fun t => (SurfaceTemp.satHumidity (w i).press t).getD 0 := by rw [hxp]; rfl
      simp only [moisture, hts, hte, Option.bind_some, e1, ha, e2, e3, e4, hsnow, true_or, if_true, Option.map_some]
    have hst := melting_still (c := c) (w := w i) (Or.inr (balance_none hx hgap Atmosphere.T0))
    rw [hsub, hm, hst, melt_zero, ← hice]
    simp only [Cryo.sublimation, Option.map_some, nanToZero, Option.getD_some]
    split_ifs
    · congr 1
      ring
    · rfl

/-! ## Complete weather -/

/-- A state without missing surface temperature. -/
def lift (s : CoupledCryo.State) : State := ⟨s.snow, some s.ts⟩

theorem prepare_complete (c : Site) (f : Forcing) (s : CoupledCryo.State) :
    prepare c (ofForcing f) (lift s) = CoupledCryo.prepare c f s := by
  have h1 : compaction c (ofForcing f).temp (lift s).snow = CoupledCryo.compaction c f.temp s.snow := rfl
  have h2 : aged c (ofForcing f) (lift s).ts = CoupledCryo.aged c f s.ts := by
    unfold aged CoupledCryo.aged
    cases c.ageByAir <;> rfl
  simp only [prepare, CoupledCryo.prepare, h1, h2]
  rfl

theorem prep_complete {c : Site} (h : SiteOK c) {f : Forcing} (hf : CoupledCryo.Weather c f) {s : CoupledCryo.State}
    (hs : Inv c s.snow) (hl : CoupledCryo.Light c f s.snow) :
    ∃ p a, CoupledCryo.prep c f s = some ⟨p, CoupledCryo.surfacePixel c f s.ts p a⟩ ∧
      prep c (ofForcing f) (lift s) = some ⟨p, surf c (ofForcing f) (some s.ts) p⟩ ∧
      Surface.albedo (CoupledCryo.fraction c p) p.albedo c.soilAlbedo = some a := by
  obtain ⟨p, hp, hi, -, halb, -⟩ := CoupledCryo.prepare_spec h hf hs hl
  obtain ⟨a, ha, -⟩ := surf_albedo h hi halb
  exact ⟨p, a, by simp [CoupledCryo.prep, hp, ha], by rw [prep, prepare_complete, hp]; rfl, ha⟩

theorem balance_lift {c : Site} {f : Forcing} {ts : ℝ} {p : CPixel ℝ} {a : ℝ}
    (ha : Surface.albedo (CoupledCryo.fraction c p) p.albedo c.soilAlbedo = some a) (t : ℝ) :
    Prep.balance c ⟨p, surf c (ofForcing f) (some ts) p⟩ t =
      some (CoupledCryo.Prep.balance c ⟨p, CoupledCryo.surfacePixel c f ts p a⟩ t) :=
  balance_complete ha rfl rfl rfl t

theorem finish_complete {c : Site} {f : Forcing} {ts : ℝ} {p : CPixel ℝ} {a : ℝ}
    (ha : Surface.albedo (CoupledCryo.fraction c p) p.albedo c.soilAlbedo = some a) (t te : ℝ) :
    finish c (ofForcing f) ⟨p, surf c (ofForcing f) (some ts) p⟩ t te =
      (CoupledCryo.finish c f ⟨p, CoupledCryo.surfacePixel c f ts p a⟩ t te).map fun r => (r.1, lift r.2) := by
  have hst : ∀ t, surfaceTemp ⟨p, surf c (ofForcing f) (some ts) p⟩ t =
      some (CoupledCryo.surfaceTemp ⟨p, CoupledCryo.surfacePixel c f ts p a⟩ t) := by
    intro t
    simp only [surfaceTemp, CoupledCryo.surfaceTemp, surf, Weather.all, ofForcing, CoupledCryo.surfacePixel,
      Option.map_some, CoupledCryo.T0_eq]
  have hmo : moisture ⟨p, surf c (ofForcing f) (some ts) p⟩ te =
      CoupledCryo.moisture ⟨p, CoupledCryo.surfacePixel c f ts p a⟩ te := by
    simp only [moisture, hst, CoupledCryo.moisture, Option.bind_some]
    have e1 : (surf c (ofForcing f) (some ts) p).w.temp = some f.temp := rfl
    have e2 : (surf c (ofForcing f) (some ts) p).w.specHum = some f.specHum := rfl
    have e3 : (surf c (ofForcing f) (some ts) p).transfer =
      some (CoupledCryo.surfacePixel c f ts p a).transfer := rfl
    rw [e1, e2, e3]
    simp only [Option.bind_some, Option.map_some, Option.some.injEq, exists_eq_left']
    rfl
  have hme : melting c (ofForcing f) ⟨p, surf c (ofForcing f) (some ts) p⟩ =
      Cryo.meltAmount (CoupledCryo.cryoCfg c) (.energy f.temp
        (some (CoupledCryo.Prep.balance c ⟨p, CoupledCryo.surfacePixel c f ts p a⟩ Verif.T0))) p := by
    simp only [melting, balance_lift ha, CoupledCryo.T0_eq]
    rfl
  have hms : massStep c (ofForcing f) ⟨p, surf c (ofForcing f) (some ts) p⟩ te =
      CoupledCryo.massStep c f ⟨p, CoupledCryo.surfacePixel c f ts p a⟩ te := by
    simp only [massStep, CoupledCryo.massStep, hmo, hme]
    rfl
  simp only [finish, CoupledCryo.finish, hms, hst]
  cases CoupledCryo.massStep c f ⟨p, CoupledCryo.surfacePixel c f ts p a⟩ te <;> rfl

/-! The searches depend on the balances of their pixels only. -/

theorem run_congr {bal bal' : ℕ → ℝ → ℝ} (n : ℕ) : ∀ (l : SurfaceTemp.Loop), (∀ e ∈ l.es, bal e.idx = bal' e.idx) →
    SurfaceTemp.Loop.run bal n l = SurfaceTemp.Loop.run bal' n l := by
  have hround : ∀ (l : SurfaceTemp.Loop), (∀ e ∈ l.es, bal e.idx = bal' e.idx) → l.round bal = l.round bal' := by
    intro l hl
    have hmap : ∀ es : List SurfaceTemp.Iterate, (∀ e ∈ es, bal e.idx = bal' e.idx) →
        es.map (SurfaceTemp.Iterate.next bal) = es.map (SurfaceTemp.Iterate.next bal') := fun es hes =>
      List.map_congr_left fun e he => by simp only [SurfaceTemp.Iterate.next, hes e he]
    unfold SurfaceTemp.Loop.round
    simp only
    rw [hmap _ fun e he => hl e (List.mem_of_mem_filter he)]
  induction n with
  | zero => intro l hl; simp only [SurfaceTemp.Loop.run, hround l hl]
  | succ n ih =>
    intro l hl
    rw [SurfaceTemp.Loop.run, SurfaceTemp.Loop.run, ← hround l hl]
    cases hr : l.round bal with
    | none => rfl
    | some l' =>
      refine ih l' fun e he => ?_
      simp only [SurfaceTemp.Loop.round] at hr
      split at hr
      · simp at hr
      · obtain rfl := Option.some.inj hr
        obtain ⟨e', he', rfl⟩ := List.mem_map.1 he
        exact hl e' (List.mem_of_mem_filter he')

theorem secant_congr {bal bal' : ℕ → ℝ → ℝ} {idxs : List ℕ} (h : ∀ i ∈ idxs, bal i = bal' i) (air : ℕ → ℝ) (n : ℕ) :
    SurfaceTemp.secant bal idxs air n = SurfaceTemp.secant bal' idxs air n := by
  have hs : SurfaceTemp.Loop.start bal idxs air = SurfaceTemp.Loop.start bal' idxs air := by
    have : (idxs.map fun i => (⟨i, Atmosphere.T0 - 10, Atmosphere.T0, bal i (Atmosphere.T0 - 10), bal i Atmosphere.T0⟩ :
        SurfaceTemp.Iterate)) = idxs.map fun i => ⟨i, Atmosphere.T0 - 10, Atmosphere.T0, bal' i (Atmosphere.T0 - 10),
          bal' i Atmosphere.T0⟩ := List.map_congr_left fun i hi => by rw [h i hi]
    simp only [SurfaceTemp.Loop.start, this]
  have := run_congr (bal := bal) (bal' := bal') n (SurfaceTemp.Loop.start bal' idxs air) fun e he => by
    simp only [SurfaceTemp.Loop.start, List.mem_map] at he
    obtain ⟨i, hi, rfl⟩ := he
    exact h i hi
  simp only [SurfaceTemp.secant, hs, this]

open scoped Classical in
theorem search_congr {bal bal' : ℕ → ℝ → ℝ} {idxs : List ℕ} (h : ∀ i ∈ idxs, bal i = bal' i) {air : ℕ → ℝ} :
    CoupledCryo.search .secant bal idxs air = CoupledCryo.search .secant bal' idxs air := by
  have key : ∀ F G : ℕ → (ℕ → ℝ) × (ℕ → ℝ) × Bool, F = G →
      (if h : ∃ n, (F n).2.2 = true then some ((F (Nat.find h)).1, (F (Nat.find h)).2.1) else none) =
      if h : ∃ n, (G n).2.2 = true then some ((G (Nat.find h)).1, (G (Nat.find h)).2.1) else none := by
    rintro F _ rfl
    rfl
  exact key _ _ (funext (secant_congr h air))

/-- With balances known for all pixels the search is that without missing values. -/
theorem search_complete {m : CoupledCryo.Search} {bal : ℕ → ℝ → ℝ} {bal' : ℕ → ℝ → Option ℝ} {idxs : List ℕ}
    (h : ∀ i ∈ idxs, ∀ t, bal' i t = some (bal i t)) {air t te : ℕ → ℝ}
    (hr : CoupledCryo.search m bal idxs air = some (t, te)) :
    ∃ t' te', search m bal' idxs air = some (t', te') ∧ ∀ i ∈ idxs, t' i = t i ∧ te' i = te i := by
  cases m with
  | legacy =>
    have : (idxs.map fun i => (⟨air i, bal' i⟩ : SurfaceTemp.Cell)) = idxs.map fun i => ⟨air i, fun t => some (bal i t)⟩ :=
      List.map_congr_left fun i hi => by rw [show bal' i = fun t => some (bal i t) from funext (h i hi)]
    simp only [CoupledCryo.search, Option.some.injEq, Prod.mk.injEq] at hr
    obtain ⟨rfl, rfl⟩ := hr
    exact ⟨_, _, by simp only [search, this], fun i hi => ⟨rfl, rfl⟩⟩
  | secant =>
    have hk : (idxs.filter fun i => (bal' i Atmosphere.T0).isSome) = idxs :=
      List.filter_eq_self.2 fun i hi => by rw [h i hi]; rfl
    have hc : CoupledCryo.search .secant (fun i t => (bal' i t).getD 0) idxs air =
        CoupledCryo.search .secant bal idxs air := by
      exact search_congr fun i hi => by funext t; rw [h i hi]; rfl
    refine ⟨_, _, by simp only [search, hk, hc, hr, Option.map_some]; rfl, fun i hi => ?_⟩
    simp only [hi, if_true, and_self]

/-- The same states in the domain. -/
def Agree (idxs : List ℕ) (s : CoupledCryo.States) (s' : States) : Prop := ∀ i ∈ idxs, s' i = (s i).map lift

theorem step_complete {c : Site} (h : SiteOK c) {idxs : List ℕ} {f : ℕ → Forcing}
    (hf : ∀ i ∈ idxs, CoupledCryo.Weather c (f i)) {s q : CoupledCryo.States} {s' : States}
    (hs : ∀ i ∈ idxs, ∃ si, s i = some si ∧ Inv c si.snow ∧ CoupledCryo.Light c (f i) si.snow) (ha : Agree idxs s s')
    {xs : ℕ → Option (Cryo.Fluxes ℝ)} (hr : CoupledCryo.step c idxs f s = some (xs, q)) :
    ∃ xs' q', step c idxs (fun i => ofForcing (f i)) s' = some (xs', q') ∧ Agree idxs q q' ∧
      ∀ i ∈ idxs, xs' i = xs i := by
  have hpix : ∀ i ∈ idxs, ∃ ts p a, CoupledCryo.preps c f s i = some ⟨p, CoupledCryo.surfacePixel c (f i) ts p a⟩ ∧
      preps c (fun i => ofForcing (f i)) s' i = some ⟨p, surf c (ofForcing (f i)) (some ts) p⟩ ∧
      Surface.albedo (CoupledCryo.fraction c p) p.albedo c.soilAlbedo = some a := by
    intro i hi
    obtain ⟨si, hsi, hinv, hl⟩ := hs i hi
    obtain ⟨p, a, e1, e2, e3⟩ := prep_complete h (hf i hi) hinv hl
    exact ⟨si.ts, p, a, by simp [CoupledCryo.preps, hsi, e1], by simp [preps, ha i hi, hsi, e2], e3⟩
  have hfro : frosties c idxs (fun i => ofForcing (f i)) s' = CoupledCryo.frosties c idxs f s := by
    unfold frosties CoupledCryo.frosties
    refine List.filter_congr fun i hi => ?_
    obtain ⟨ts, p, a, e1, e2, -⟩ := hpix i hi
    have hiff : Prep.Frosty ⟨p, surf c (ofForcing (f i)) (some ts) p⟩ ↔
        CoupledCryo.Prep.Frosty ⟨p, CoupledCryo.surfacePixel c (f i) ts p a⟩ := by
      simp [Prep.Frosty, CoupledCryo.Prep.Frosty, surf, Weather.all, ofForcing, CoupledCryo.surfacePixel,
        CoupledCryo.T0_eq]
    rw [decide_eq_decide, e1, e2]
    simp only [Option.some.injEq, exists_eq_left', hiff]
  unfold CoupledCryo.step at hr
  cases hse : CoupledCryo.search c.search (CoupledCryo.balances c f s) (CoupledCryo.frosties c idxs f s)
      (fun i => (f i).temp) with
  | none => rw [hse] at hr; simp at hr
  | some r =>
    obtain ⟨t, te⟩ := r
    rw [hse] at hr
    simp only [Option.some.injEq, Prod.mk.injEq] at hr
    obtain ⟨rfl, rfl⟩ := hr
    obtain ⟨t', te', hse', hag⟩ := search_complete (bal' := balances c (fun i => ofForcing (f i)) s') (fun i hi t => by
      have hi' : i ∈ idxs := (CoupledCryo.mem_frosties.1 hi).1
      obtain ⟨ts, p, a, e1, e2, e3⟩ := hpix i hi'
      simp only [balances, e2, Option.bind_some, balance_lift e3, CoupledCryo.balances, e1]) hse
    rw [← hfro] at hse' hag
    have hair : (fun i => ((ofForcing (f i)).temp).getD 0) = fun i => (f i).temp := rfl
    have hfin : ∀ i ∈ idxs, (preps c (fun i => ofForcing (f i)) s' i).bind
          (fun x => finish c (ofForcing (f i)) x (t' i) (te' i)) =
        ((CoupledCryo.preps c f s i).bind fun x => CoupledCryo.finish c (f i) x (t i) (te i)).map
          fun r => (r.1, lift r.2) := by
      intro i hi
      obtain ⟨ts, p, a, e1, e2, e3⟩ := hpix i hi
      rw [e1, e2, Option.bind_some, Option.bind_some, finish_complete e3]
      by_cases hfr : i ∈ frosties c idxs (fun i => ofForcing (f i)) s'
      · rw [(hag i hfr).1, (hag i hfr).2]
      · have hnf : ¬ CoupledCryo.Prep.Frosty ⟨p, CoupledCryo.surfacePixel c (f i) ts p a⟩ := fun hx => hfr (by
          rw [hfro]
          exact CoupledCryo.mem_frosties.2 ⟨hi, _, e1, hx⟩)
        have hst : ∀ u v, CoupledCryo.surfaceTemp ⟨p, CoupledCryo.surfacePixel c (f i) ts p a⟩ u =
            CoupledCryo.surfaceTemp ⟨p, CoupledCryo.surfacePixel c (f i) ts p a⟩ v := by
          intro u v
          unfold CoupledCryo.surfaceTemp
          split_ifs with a1 a2
          · exact absurd ⟨a1, a2⟩ hnf
          · rfl
          · rfl
        simp only [CoupledCryo.finish, CoupledCryo.massStep, CoupledCryo.moisture, hst (t' i) (t i), hst (te' i) (te i)]
    refine ⟨_, _, by simp only [step, hair, hse']; rfl, fun i hi => ?_, fun i hi => ?_⟩
    · simp only [hfin i hi]
      cases (CoupledCryo.preps c f s i).bind fun x => CoupledCryo.finish c (f i) x (t i) (te i) <;> rfl
    · simp only [hfin i hi]
      cases (CoupledCryo.preps c f s i).bind fun x => CoupledCryo.finish c (f i) x (t i) (te i) <;> rfl

/-- **C143 (complete weather).** Without gaps the run is that of C124. -/
theorem C143_cryo_complete (c : Site) (h : SiteOK c) (idxs : List ℕ) (hn : idxs.Nodup) (fs : List (ℕ → Forcing))
    (hw : ∀ f ∈ fs, ∀ i ∈ idxs, CoupledCryo.Weather c (f i))
    (hfair : CoupledCryo.FairRun c idxs fs (CoupledCryo.start c idxs)) :
    ∃ xs q xs' q', CoupledCryo.run c idxs fs (CoupledCryo.start c idxs) = some (xs, q) ∧
      run c idxs (fs.map fun f i => ofForcing (f i)) (start c idxs) = some (xs', q') ∧ ∀ i ∈ idxs,
        xs'.map (fun x => x i) = xs.map (fun x => x i) ∧ ∃ s, q i = some s ∧ q' i = some ⟨s.snow, some s.ts⟩ := by
  have key : ∀ (fs : List (ℕ → Forcing)) (st : CoupledCryo.States) (st' : States),
      (∀ f ∈ fs, ∀ i ∈ idxs, CoupledCryo.Weather c (f i)) → CoupledCryo.FairRun c idxs fs st →
      (∀ i ∈ idxs, ∃ si, st i = some si ∧ Inv c si.snow) → Agree idxs st st' →
      ∃ xs q xs' q', CoupledCryo.run c idxs fs st = some (xs, q) ∧
        run c idxs (fs.map fun f i => ofForcing (f i)) st' = some (xs', q') ∧ Agree idxs q q' ∧ ∀ i ∈ idxs,
        xs'.map (fun x => x i) = xs.map (fun x => x i) ∧ ∃ s, q i = some s := by
    intro fs
    induction fs with
    | nil =>
      intro st st' _ _ hst ha
      exact ⟨[], st, [], st', rfl, rfl, ha, fun i hi => ⟨rfl, (hst i hi).imp fun _ h => h.1⟩⟩
    | cons f fs ih =>
      intro st st' hw hf hst ha
      have hall : ∀ i ∈ idxs, ∃ si, st i = some si ∧ Inv c si.snow ∧ CoupledCryo.Light c (f i) si.snow ∧
          CoupledCryo.Mild c (f i) si := fun i hi => by
        obtain ⟨si, hsi, hinv⟩ := hst i hi
        exact ⟨si, hsi, hinv, hf.1 i hi si hsi⟩
      obtain ⟨x1, q1, e1, k1⟩ := CoupledCryo.C124_step c h idxs hn f (hw f (by simp)) st hall
      obtain ⟨x1', q1', e1', a1, b1⟩ := step_complete h (hw f (by simp))
        (fun i hi => by obtain ⟨si, z1, z2, z3, -⟩ := hall i hi; exact ⟨si, z1, z2, z3⟩) ha e1
      obtain ⟨x2, q2, x2', q2', e2, e2', a2, b2⟩ := ih q1 q1' (fun g hg => hw g (by simp [hg])) (hf.2 _ _ e1)
        (fun i hi => by
          obtain ⟨si, hsi, -⟩ := hst i hi
          obtain ⟨y, si', -, hq, hinv, -⟩ := k1 i hi si hsi
          exact ⟨si', hq, hinv⟩) a1
      refine ⟨x1 :: x2, q2, x1' :: x2', q2', by simp [CoupledCryo.run, e1, e2], by simp [run, e1', e2'], a2,
        fun i hi => ⟨?_, (b2 i hi).2⟩⟩
      simp only [List.map_cons, b1 i hi, (b2 i hi).1]
  obtain ⟨xs, q, xs', q', e, e', a, b⟩ := key fs (CoupledCryo.start c idxs) (start c idxs) hw hfair
    (fun i hi => ⟨_, if_pos hi, CoupledCryo.initial_inv c⟩)
    (fun i hi => by simp only [start, CoupledCryo.start, hi, if_true, Option.map_some]; rfl)
  refine ⟨xs, q, xs', q', e, e', fun i hi => ⟨(b i hi).1, ?_⟩⟩
  obtain ⟨s, hs⟩ := (b i hi).2
  exact ⟨s, hs, by rw [a i hi, hs]; rfl⟩

/-! ## Examples -/

open CoupledCryo (exSite exSite_ok snowDay mildDay snowDay_ok mildDay_ok oldSnow oldSnow_inv)

/-- A frost day (−20 °C) without a value of longwave radiation. -/
noncomputable def dark : Weather := { ofForcing mildDay with temp := some (Atmosphere.T0 - 20), lwIn := none }

/-- A day without any record. -/
def silent : Weather := ⟨none, none, none, 75000, none, none, none, none, none, false⟩

theorem ofForcing_ok {c : Site} {f : Forcing} (h : CoupledCryo.Weather c f) : WeatherOK c (ofForcing f) := by
  constructor <;> simp only [ofForcing, Option.some.injEq, forall_eq']
  exacts [h.snow, h.rain, h.wind, h.swIn, h.lwIn, h.temp, ⟨h.wetBulb, h.wetBulb_le⟩, h.press, h.specHum]

theorem dark_ok : WeatherOK exSite dark := by
  have h := ofForcing_ok mildDay_ok.1
  exact { h with
    temp := fun x hx => by
      simp only [dark, Option.some.injEq] at hx
      rw [← hx, CoupledCryo.T0_eq]
      linarith
    lwIn := fun x hx => by simp [dark] at hx }

theorem silent_ok : WeatherOK exSite silent := by
  constructor <;> simp [silent]
  norm_num

/-- Non-vacuity of `C143_cryo_run` and `C143_cryo_fair`: three pixels, complete days, days without radiation and days
without any record, in any order. -/
example (ws : List (ℕ → Weather))
    (hf : ∀ w ∈ ws, ∀ i, w i = ofForcing snowDay ∨ w i = ofForcing mildDay ∨ w i = dark ∨ w i = silent) :
    (∀ w ∈ ws, ∀ i ∈ [0, 1, 2], WeatherOK exSite (w i)) ∧ FairRun exSite [0, 1, 2] ws (start exSite [0, 1, 2]) := by
  have hinj : ∀ f g : Forcing, ofForcing f = ofForcing g → f = g := by
    rintro ⟨⟩ ⟨⟩ h
    simpa [ofForcing] using h
  have hw : ∀ w ∈ ws, ∀ i, WeatherOK exSite (w i) ∧ ∀ f, w i = ofForcing f → CoupledCryo.Shade exSite f := by
    intro w hm i
    rcases hf w hm i with e | e | e | e <;> rw [e]
    · exact ⟨ofForcing_ok snowDay_ok.1, fun f hh => hinj _ _ hh ▸ snowDay_ok.2⟩
    · exact ⟨ofForcing_ok mildDay_ok.1, fun f hh => hinj _ _ hh ▸ mildDay_ok.2⟩
    · exact ⟨dark_ok, fun f hh => by simp [dark, ofForcing] at hh⟩
    · exact ⟨silent_ok, fun f hh => by simp [silent, ofForcing] at hh⟩
  exact ⟨fun w hm i _ => (hw w hm i).1, C143_cryo_fair exSite exSite_ok (by simp [exSite]) [0, 1, 2] (by decide) ws
    fun w hm i _ => ⟨(hw w hm i).1, fun _ => (hw w hm i).2⟩⟩

/-- **C143, witness.** Snow of 100 kg m-2 at −20 °C, longwave radiation missing for one step: the surface is at the melting
point afterwards. -/
theorem C143_cryo_witness : ∃ xs q x s, step exSite [0] (fun _ => dark) (fun _ => some (lift oldSnow)) = some (xs, q) ∧
    xs 0 = some x ∧ q 0 = some s ∧ s.ts = some Atmosphere.T0 ∧ dark.temp = some (Atmosphere.T0 - 20) := by
  have hl : Light exSite dark oldSnow.snow := fun h => by simp [exSite] at h
  obtain ⟨xs, q, e, -⟩ := C143_cryo_step exSite exSite_ok [0] (by simp) (fun _ => dark) (fun _ _ => dark_ok)
    (fun _ => some (lift oldSnow)) fun _ _ =>
      ⟨lift oldSnow, rfl, oldSnow_inv, hl, mild exSite_ok dark_ok (fun f hh => by simp [dark, ofForcing] at hh)
        oldSnow_inv hl⟩
  have hswe : oldSnow.snow.swe = 100 := by norm_num [oldSnow, CPixel.swe, CLayer.we, Cryo.emptyLayer]
  obtain ⟨x, s, h1, h2, h3, -⟩ := C143_cryo_false exSite exSite_ok [0] (by simp) _ _ q xs e 0 (by simp) dark_ok _ rfl
    oldSnow_inv hl (by
      have : (0 : ℝ) < oldSnow.snow.swe + 0 := by rw [hswe]; norm_num
      simpa [lift, dark, ofForcing, mildDay] using this) (Atmosphere.T0 - 20) rfl (by linarith)
    (by simp [Incomplete, dark])
  exact ⟨xs, q, x, s, e, h1, h2, h3, rfl⟩

end Verif.GapsCryo
