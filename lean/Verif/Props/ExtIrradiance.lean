import Verif.Model.ExtIrradiance
import Verif.Props.Irradiance
import Verif.Props.ClearSkyField
import Verif.Props.GridGeom

/-!
# Radiation stations around the grid (C144)
-/

namespace Verif.ExtIrradiance

open Verif.Irradiance Verif.Idw Verif.Stations Verif.ClearSkyField

/-! ## Specification -/

/-- The point lies in the rectangle of the grid. -/
def InBox (g : Geom ℝ) (x y : ℝ) : Prop :=
  g.xoff ≤ x ∧ x < g.xoff + g.cols * g.res ∧ g.yoff - g.rows * g.res < y ∧ y ≤ g.yoff

/-- The extended grid was accepted by the model for the grid (C87). -/
def Accepted (g : Geom ℝ) (e : Ext) : Prop := 0 < g.res ∧ GridGeom.extOffsets g.res g e.geom = some e.off

/-- The station lies around the grid and measures what the clear-sky irradiance needs. -/
def Around (g : Geom ℝ) (e : Ext) (s : Stn) : Prop :=
  InBox e.geom s.x s.y ∧ ¬ InBox g s.x s.y ∧ s.temp ≠ none ∧ s.hum ≠ none

/-- The station's radiation is used. -/
def Uses (g : Geom ℝ) (e : Option Ext) (s : Stn) : Prop :=
  s.sw ≠ none ∧ (InBox g s.x s.y ∨ ∃ e', e = some e' ∧ Around g e' s)

/-- What the clear-sky formulas read at a station around the grid: the terrain of the cell with the station, the
pressure at its elevation and the precipitable water from the station's own temperature and humidity. -/
def ReadsCell (c : Cell) (s : Stn) (p : Px) : Prop :=
  p.elev = c.elev ∧ p.svf = c.svf ∧ p.normal = c.normal ∧ p.shadow = c.shadow ∧
    (∀ a, Atmosphere.pressure c.elev = some a → p.press = a) ∧
    ∀ t h a, s.temp = some t → s.hum = some h → Atmosphere.vaporPressure t h = some a →
      p.water = Atmosphere.precipitableWater t a

open Classical in
/-- Clear-sky value of a used station. -/
noncomputable def skyOf (v : Env) (g : Geom ℝ) (sky : ℕ → ℕ → Option ℝ) (e : Option Ext) (st : List Stn) (s : Stn) :
    Option ℝ :=
  if InBox g s.x s.y then gridSky g sky s
  else e.map fun e =>
    (pxInput v.sky ((around g e st).map (stnPx g e)) (meanAlbedo v.soil v.albedos) (stnPx g e s)).direct +
      (pxInput v.sky ((around g e st).map (stnPx g e)) (meanAlbedo v.soil v.albedos) (stnPx g e s)).diffuse

/-! ## Lemmas -/

theorem within_iff (g : Geom ℝ) (h : 0 < g.res) (x y : ℝ) : withinExtent g x y = true ↔ InBox g x y :=
  C51_extent g h x y

/-- Rows and columns in the two grids differ by the offset. -/
theorem extRowCol_eq (g : Geom ℝ) (e : Ext) (h : Accepted g e) (s : Stn) :
    extRowCol g e s = rowcol e.geom s.x s.y := by
  obtain ⟨hr, ho⟩ := h
  obtain ⟨h1, e1, e2, -⟩ := (GridGeom.C87_accepts g.res hr g e.geom rfl e.off.1 e.off.2).mp ho
  have a : (e.geom.yoff - s.y) / e.geom.res = (g.yoff - s.y) / g.res + e.off.1 := by
    rw [h1, e1]; field_simp; ring
  have b : (s.x - e.geom.xoff) / e.geom.res = (s.x - g.xoff) / g.res + e.off.2 := by
    rw [h1, e2]; field_simp; ring
  simp only [extRowCol, rowcol, a, b, Int.floor_add_intCast]

theorem withinExt_eq (g : Geom ℝ) (e : Ext) (h : Accepted g e) (s : Stn) :
    withinExt g e s = withinExtent e.geom s.x s.y := by
  simp only [withinExt, extRowCol_eq g e h s, withinExtent]
  generalize rowcol e.geom s.x s.y = rc
  cases decide (0 ≤ rc.1) <;> cases decide (0 ≤ rc.2) <;> cases decide (rc.1 < e.geom.rows) <;>
    cases decide (rc.2 < e.geom.cols) <;> rfl

theorem ext_res (g : Geom ℝ) (e : Ext) (h : Accepted g e) : 0 < e.geom.res := by
  obtain ⟨hr, ho⟩ := h
  obtain ⟨h1, -⟩ := (GridGeom.C87_accepts g.res hr g e.geom rfl e.off.1 e.off.2).mp ho
  rw [h1]; exact hr

theorem around_filter (g : Geom ℝ) (e : Ext) (h : Accepted g e) (st : List Stn) [DecidablePred (Around g e)] :
    around g e st = st.filter fun s => decide (Around g e s) := by
  unfold around
  rw [List.filter_filter]
  refine List.filter_congr fun s _ => ?_
  rw [Bool.eq_iff_iff, decide_eq_true_iff, withinExt_eq g e h, Bool.and_eq_true, Bool.and_eq_true, Bool.and_eq_true,
    within_iff _ (ext_res g e h), Bool.not_eq_true', ← Bool.not_eq_true, within_iff g h.1]
  unfold Around
  cases s.temp <;> cases s.hum <;> simp

theorem mem_around (g : Geom ℝ) (e : Ext) (h : Accepted g e) (st : List Stn) (s : Stn) :
    s ∈ around g e st ↔ s ∈ st ∧ Around g e s := by
  classical
  rw [around_filter g e h, List.mem_filter, decide_eq_true_iff]

/-! ## C144 -/

/-- **C144.** With an accepted extended grid, clear-sky values are calculated for exactly the stations outside of the
grid and within the extended grid that measure temperature and humidity. Each is given the terrain of the cell of the
extended grid that contains it. -/
theorem C144_selected (g : Geom ℝ) (e : Ext) (h : Accepted g e) (st : List Stn) (s : Stn) :
    (s ∈ around g e st ↔ s ∈ st ∧ Around g e s) ∧
    (Around g e s → ∃ i j, i < e.geom.rows ∧ j < e.geom.cols ∧ InCell e.geom i j s.x s.y ∧
      ReadsCell (e.cell i j) s (stnPx g e s)) := by
  refine ⟨mem_around g e h st s, fun ha => ?_⟩
  have hw : withinExtent e.geom s.x s.y = true := (within_iff _ (ext_res g e h) _ _).2 ha.1
  have hc := (inCell_iff e.geom (ext_res g e h) s.x s.y _ _ hw).2 ⟨rfl, rfl⟩
  have hw' := hw
  simp only [withinExtent, Bool.and_eq_true, decide_eq_true_eq] at hw'
  refine ⟨_, _, ?_, ?_, hc, ?_⟩
  · omega
  · omega
  · simp only [ReadsCell, stnPx, extRowCol_eq g e h s]
    refine ⟨trivial, trivial, trivial, trivial, fun a h => by rw [h]; rfl, fun t u a h1 h2 h3 => ?_⟩
    rw [h1, h2, Option.getD_some, Option.getD_some, h3, Option.getD_some]

theorem extSky_eq (v : Env) (g : Geom ℝ) (e : Ext) (st : List Stn) :
    extSky v g e st = (around g e st).map fun s => (s,
      (pxInput v.sky ((around g e st).map (stnPx g e)) (meanAlbedo v.soil v.albedos) (stnPx g e s)).direct +
      (pxInput v.sky ((around g e st).map (stnPx g e)) (meanAlbedo v.soil v.albedos) (stnPx g e s)).diffuse) := by
  have hroi : ((around g e st).map (stnPx g e)).map (fun x => { x with roi := true }) =
      (around g e st).map (stnPx g e) := by
    rw [List.map_map]; rfl
  have key : ∀ (l : List Stn) (F : Stn → ℝ), l.zip (l.map F) = l.map fun s => (s, F s) := by
    intro l F
    induction l with
    | nil => rfl
    | cons a l ih => simp [ih]
  simp only [extSky, ClearSkyField.stations, hroi]
  rw [List.map_map, key]
  rfl

/-- The part of the used stations that lies around the grid. -/
theorem extRad_some (v : Env) (g : Geom ℝ) (e : Ext) (st : List Stn) :
    extRad v g (some e) st = ((around g e st).filter fun s => s.sw.isSome).map fun s => (s,
      (pxInput v.sky ((around g e st).map (stnPx g e)) (meanAlbedo v.soil v.albedos) (stnPx g e s)).direct +
      (pxInput v.sky ((around g e st).map (stnPx g e)) (meanAlbedo v.soil v.albedos) (stnPx g e s)).diffuse) := by
  simp only [extRad, extSky_eq, List.filter_map]
  rfl

theorem filter_split {α : Type*} (p q : α → Bool) (l : List α) (hd : ∀ a ∈ l, p a = true → q a = false) :
    (l.filter p ++ l.filter q).Perm (l.filter fun a => p a || q a) := by
  induction l with
  | nil => simp
  | cons a l ih =>
    have ih := ih fun b hb => hd b (List.mem_cons_of_mem _ hb)
    have ha := hd a List.mem_cons_self
    cases hp : p a
    · cases hq : q a
      · simpa [List.filter_cons, hp, hq] using ih
      · simp only [List.filter_cons, hp, hq, Bool.false_or, if_true, if_false, Bool.false_eq_true]
        exact List.perm_middle.trans (ih.cons a)
    · have hq := ha hp
      simpa [List.filter_cons, hp, hq] using ih

theorem radFactors_eq (v : Env) (g : Geom ℝ) (sky : ℕ → ℕ → Option ℝ) (e : Option Ext) (hg : 0 < g.res)
    (h : ∀ e', e = some e' → Accepted g e') (st : List Stn) :
    radFactors v g sky e st = ((gridRad g st) ++ (match e with
      | none => []
      | some e => (around g e st).filter fun s => s.sw.isSome)).map fun s =>
        (s.x, s.y, ratio s.sw (skyOf v g sky e st s)) := by
  unfold radFactors
  rw [List.map_append]
  congr 1
  · refine List.map_congr_left fun s hs => ?_
    have hin : InBox g s.x s.y := by
      rw [← within_iff g hg]
      simp only [gridRad, List.mem_filter] at hs
      exact hs.1.2
    simp only [skyOf, if_pos hin]
  · cases e with
    | none => rfl
    | some e =>
      simp only [extRad_some, List.map_map]
      refine List.map_congr_left fun s hs => ?_
      have hout : ¬ InBox g s.x s.y := by
        have := ((mem_around g e (h e rfl) st s).1 (List.mem_of_mem_filter hs)).2
        exact this.2.1
      simp only [skyOf, if_neg hout, Option.map_some, Function.comp]

theorem used_perm (g : Geom ℝ) (e : Option Ext) (hg : 0 < g.res) (h : ∀ e', e = some e' → Accepted g e')
    (st : List Stn) [DecidablePred (Uses g e)] :
    (gridRad g st ++ (match e with
      | none => []
      | some e => (around g e st).filter fun s => s.sw.isSome)).Perm (st.filter fun s => decide (Uses g e s)) := by
  classical
  have e1 : gridRad g st = st.filter fun s => decide (s.sw ≠ none ∧ InBox g s.x s.y) := by
    unfold gridRad
    rw [List.filter_filter]
    refine List.filter_congr fun s _ => ?_
    rw [Bool.eq_iff_iff, decide_eq_true_iff, Bool.and_eq_true, within_iff g hg]
    cases s.sw <;> simp
  have e2 : (match e with
      | none => []
      | some e => (around g e st).filter fun s => s.sw.isSome) =
      st.filter fun s => decide (s.sw ≠ none ∧ ∃ e', e = some e' ∧ Around g e' s) := by
    cases e with
    | none => simp
    | some e =>
      simp only
      rw [around_filter g e (h e rfl), List.filter_filter]
      refine List.filter_congr fun s _ => ?_
      rw [Bool.eq_iff_iff, decide_eq_true_iff, Bool.and_eq_true, decide_eq_true_iff]
      cases s.sw <;> simp
  rw [e1, e2]
  refine (filter_split _ _ st ?_).trans (List.Perm.of_eq (List.filter_congr fun s _ => ?_))
  · intro s _ hs
    rw [decide_eq_true_iff] at hs
    rw [decide_eq_false_iff_not]
    rintro ⟨-, e', -, ha⟩
    exact ha.2.1 hs.2
  · rw [Bool.eq_iff_iff, Bool.or_eq_true, decide_eq_true_iff, decide_eq_true_iff, decide_eq_true_iff]
    unfold Uses
    tauto

open Classical in
/-- **C144.** The points handed to the interpolation are, up to their order, those of the stations used, each once, at
its position and with its measurement divided by its clear-sky value. For a station within the grid this is the
value of the cell that contains it. -/
theorem C144_used (v : Env) (g : Geom ℝ) (sky : ℕ → ℕ → Option ℝ) (e : Option Ext) (hg : 0 < g.res)
    (h : ∀ e', e = some e' → Accepted g e') (st : List Stn) :
    (radFactors v g sky e st).Perm ((st.filter fun s => decide (Uses g e s)).map fun s =>
      (s.x, s.y, ratio s.sw (skyOf v g sky e st s))) ∧
    ∀ s, InBox g s.x s.y → ∃ i j, i < g.rows ∧ j < g.cols ∧ InCell g i j s.x s.y ∧
      skyOf v g sky e st s = sky i j := by
  constructor
  · rw [radFactors_eq v g sky e hg h]
    exact (used_perm g e hg h st).map _
  · intro s hs
    have hw := (within_iff g hg _ _).2 hs
    have hc := (inCell_iff g hg s.x s.y _ _ hw).2 ⟨rfl, rfl⟩
    have hw' := hw
    simp only [withinExtent, Bool.and_eq_true, decide_eq_true_eq] at hw'
    refine ⟨_, _, ?_, ?_, hc, ?_⟩
    · omega
    · omega
    · simp only [skyOf, if_pos hs, gridSky]

theorem count_zero (v : Env) (g : Geom ℝ) (e : Option Ext) (hg : 0 < g.res)
    (h : ∀ e', e = some e' → Accepted g e') (st : List Stn) :
    (gridRad g st).length + (extRad v g e st).length = 0 ↔ ∀ s ∈ st, ¬ Uses g e s := by
  classical
  have hl : (gridRad g st).length + (extRad v g e st).length = (st.filter fun s => decide (Uses g e s)).length := by
    rw [← (used_perm g e hg h st).length_eq, List.length_append]
    congr 1
    cases e with
    | none => rfl
    | some e => simp only [extRad_some, List.length_map]
  rw [hl, List.length_eq_zero_iff, List.filter_eq_nil_iff]
  simp

/-- **C144.** By day, with fallback allowed, radiation is used exactly if it is the configured method (or the fallback
of prescribed cloudiness without measurements) and some station within or around the grid can be used. At night it is
never used. -/
theorem C144_method (v : Env) (g : Geom ℝ) (e : Option Ext) (hg : 0 < g.res)
    (h : ∀ e', e = some e' → Accepted g e') (m night : Method) (hn : night = .humidity ∨ night = .constant)
    (sunUp : Bool) (st : List Stn) :
    (chooseMethod v g e m night true sunUp st = .clearSkyFraction ↔
      sunUp = true ∧ (m = .clearSkyFraction ∨ m = .prescribed ∧ ∀ s ∈ st, s.cloud = none) ∧
        ∃ s ∈ st, Uses g e s) := by
  have hz := count_zero v g e hg h st
  have hc : (st.filter fun s => s.cloud.isSome).length = 0 ↔ ∀ s ∈ st, s.cloud = none := by
    rw [List.length_eq_zero_iff, List.filter_eq_nil_iff]; simp
  have hex : (∃ s ∈ st, Uses g e s) ↔ ¬ ∀ s ∈ st, ¬ Uses g e s := by push Not; rfl
  rw [hex, ← hz, ← hc]
  unfold chooseMethod
  by_cases h1 : (st.filter fun s => s.cloud.isSome).length = 0 <;>
    by_cases h2 : (gridRad g st).length + (extRad v g e st).length = 0 <;>
    by_cases h3 : (st.filter fun s => s.temp.isSome && s.hum.isSome).length = 0 <;>
    rcases hn with rfl | rfl <;> cases m <;> cases sunUp <;> simp only [h1, h2, h3] <;> simp

theorem interp_irr (l : List Station) (t : ℝ × ℝ) (prev : Option ℝ) :
    Irradiance.cloudFactorAt .clearSkyFraction l t prev =
      ((idw 2 0 ((select .clearSkyFraction l).map fun s => some s.x)
        ((select .clearSkyFraction l).map fun s => some s.y)
        ((select .clearSkyFraction l).map fun s => ratio s.sw s.clearSky) [t]).bind
        fun r => r.head?.join).map (Atmosphere.clip 0 1) := rfl

theorem select_toStation (g : Geom ℝ) (sky : ℕ → ℕ → Option ℝ) (st : List Stn) :
    select .clearSkyFraction (st.map (toStation g sky)) = (gridRad g st).map (toStation g sky) := by
  simp only [select, gridRad, List.filter_map, List.filter_filter]
  congr 1
  refine List.filter_congr fun s _ => ?_
  simp only [Function.comp, toStation, Bool.and_comm]

/-- **C144.** Without an extended grid, or if no station around the grid can be used, the result is that of
`Model/Irradiance` for the stations within the grid. -/
theorem C144_inner (v : Env) (g : Geom ℝ) (sky : ℕ → ℕ → Option ℝ) (e : Option Ext)
    (h : ∀ e', e = some e' → Accepted g e') (st : List Stn)
    (hno : ∀ e', e = some e' → ∀ s ∈ st, s.sw ≠ none → ¬ Around g e' s) (m night : Method)
    (fallback sunUp : Bool) (t : ℝ × ℝ) (prev clearSky : Option ℝ) :
    shortwave v g sky e m night fallback sunUp st t prev clearSky =
      Irradiance.shortwave m night fallback sunUp (st.map (toStation g sky)) t prev clearSky := by
  have he : extRad v g e st = [] := by
    cases e with
    | none => rfl
    | some e =>
      rw [extRad_some, List.map_eq_nil_iff, List.filter_eq_nil_iff]
      intro s hs hsw
      obtain ⟨h1, h2⟩ := (mem_around g e (h e rfl) st s).1 hs
      exact hno e rfl s h1 (by rintro h; rw [h] at hsw; simp at hsw) h2
  have hm : chooseMethod v g e m night fallback sunUp st =
      Irradiance.chooseMethod m night fallback sunUp (st.map (toStation g sky)) := by
    have a : (st.filter fun s => s.cloud.isSome).length = (select .prescribed (st.map (toStation g sky))).length := by
      simp only [select, List.filter_map, List.length_map]; rfl
    have b : (st.filter fun s => s.temp.isSome && s.hum.isSome).length =
        (select .humidity (st.map (toStation g sky))).length := by
      simp only [select, List.filter_map, List.length_map]; rfl
    have c : (gridRad g st).length + (extRad v g e st).length =
        (select .clearSkyFraction (st.map (toStation g sky))).length := by
      rw [he, select_toStation, List.length_map]; rfl
    unfold chooseMethod Irradiance.chooseMethod
    rw [a, b, c]
  have hf : ∀ m, cloudFactorAt v g sky e m st t prev =
      Irradiance.cloudFactorAt m (st.map (toStation g sky)) t prev := by
    intro m
    cases m with
    | clearSkyFraction =>
      rw [interp_irr, select_toStation]
      simp only [cloudFactorAt, radFactors, he, List.map_nil, List.append_nil, List.map_map]
      have hr : List.map ((fun p : ℝ × ℝ × Option ℝ => p.2.2) ∘ fun s : Stn =>
          (s.x, s.y, ratio s.sw (gridSky g sky s))) (gridRad g st) =
          List.map ((fun s => ratio s.sw s.clearSky) ∘ toStation g sky) (gridRad g st) := by
        refine List.map_congr_left fun s hs => ?_
        simp only [gridRad, List.mem_filter] at hs
        simp only [Function.comp, toStation, hs.1.2, if_true]
      rw [hr]
      rfl
    | prescribed => rfl
    | humidity => rfl
    | constant => rfl
  simp only [shortwave, Irradiance.shortwave, hm, hf]

theorem factor_range (v : Env) (g : Geom ℝ) (sky : ℕ → ℕ → Option ℝ) (e : Option Ext) (m : Method) (st : List Stn)
    (t : ℝ × ℝ) (prev : Option ℝ) (hp : ∀ f, prev = some f → 0 ≤ f ∧ f ≤ 1) (f : ℝ)
    (h : cloudFactorAt v g sky e m st t prev = some f) : 0 ≤ f ∧ f ≤ 1 := by
  cases m with
  | clearSkyFraction =>
    simp only [cloudFactorAt, Option.map_eq_some_iff] at h
    obtain ⟨a, -, rfl⟩ := h
    exact clip_range a
  | prescribed => exact cloudFactorAt_range .prescribed (st.map (toStation g sky)) t prev hp f h
  | humidity => exact cloudFactorAt_range .humidity (st.map (toStation g sky)) t prev hp f h
  | constant => exact cloudFactorAt_range .constant (st.map (toStation g sky)) t prev hp f h

/-- **C144.** The cloud factor stays within 0 and 1 in every run, and shortwave irradiance within zero and its
clear-sky value. -/
theorem C144_range (g : Geom ℝ) (e : Option Ext) (m night : Method) (fallback : Bool) (t : ℝ × ℝ)
    (steps : List StepIn) :
    (∀ f, runFactor g e m night fallback t steps = some f → 0 ≤ f ∧ f ≤ 1) ∧
    ∀ (i : StepIn) (c sw : ℝ), 0 ≤ c →
      (shortwave i.env g i.sky (e.map fun e => { e with cell := i.cell }) m night fallback i.sunUp i.stations t
        (runFactor g e m night fallback t steps) (some c)).2 = some sw → 0 ≤ sw ∧ sw ≤ c := by
  have main : ∀ (l : List StepIn) (prev : Option ℝ), (∀ f, prev = some f → 0 ≤ f ∧ f ≤ 1) → ∀ f,
      l.foldl (fun prev i => (shortwave i.env g i.sky (e.map fun e => { e with cell := i.cell }) m night fallback
        i.sunUp i.stations t prev i.clearSky).1) prev = some f → 0 ≤ f ∧ f ≤ 1 := by
    intro l
    induction l with
    | nil => intro prev hp f h; exact hp f h
    | cons i l ih =>
      intro prev hp f h
      exact ih _ (fun a ha => factor_range _ _ _ _ _ _ t prev hp a ha) f h
  have h1 := main steps none (by simp)
  refine ⟨h1, fun i c sw hc h => ?_⟩
  simp only [shortwave, Option.bind_eq_some_iff, Option.map_some, Option.some.injEq] at h
  obtain ⟨f, hf, rfl⟩ := h
  obtain ⟨a, b⟩ := factor_range _ _ _ _ _ _ t _ h1 f hf
  exact ⟨mul_nonneg hc a, mul_le_of_le_one_right hc b⟩

theorem mem_usable_triples (l : List (ℝ × ℝ × Option ℝ)) (p : Pt) :
    p ∈ usable (l.map fun p => some p.1) (l.map fun p => some p.2.1) (l.map fun p => p.2.2) ↔
      (p.x, p.y, some p.z) ∈ l := by
  induction l with
  | nil => simp [usable]
  | cons s l ih =>
    obtain ⟨x, y, z⟩ := s
    unfold usable at ih ⊢
    cases z with
    | none =>
      rw [List.map_cons, List.map_cons, List.map_cons, List.zip_cons_cons, List.zip_cons_cons,
        List.filterMap_cons_none rfl, ih]
      simp
    | some z =>
      rw [List.map_cons, List.map_cons, List.map_cons, List.zip_cons_cons, List.zip_cons_cons,
        List.filterMap_cons, List.mem_cons, ih, List.mem_cons]
      refine or_congr ?_ Iff.rfl
      constructor
      · rintro rfl; rfl
      · intro h; cases p; simp_all

/-- The cloud factor from radiation: missing without a usable ratio, otherwise the interpolation of the ratios. -/
theorem factor_clear (v : Env) (g : Geom ℝ) (sky : ℕ → ℕ → Option ℝ) (e : Option Ext) (st : List Stn) (t : ℝ × ℝ)
    (prev : Option ℝ) :
    (cloudFactorAt v g sky e .clearSkyFraction st t prev = none ↔
      ∀ x y z, (x, y, some z) ∉ radFactors v g sky e st) ∧
    ∀ f, cloudFactorAt v g sky e .clearSkyFraction st t prev = some f → ∃ a, f = Atmosphere.clip 0 1 a ∧
      ValueAt 2 0 ((radFactors v g sky e st).map fun p => some p.1)
        ((radFactors v g sky e st).map fun p => some p.2.1) ((radFactors v g sky e st).map fun p => p.2.2)
        [t] 0 t a := by
  simp only [cloudFactorAt]
  generalize radFactors v g sky e st = l
  have hm := mem_usable_triples l
  rw [idw_eq 2 0 _ _ _ [t] (by simp)]
  constructor
  · by_cases hu : usable (l.map fun p => some p.1) (l.map fun p => some p.2.1) (l.map fun p => p.2.2) = []
    · simp only [hu, if_true, List.map_cons, List.map_nil, Option.bind_some, List.head?_cons, Option.join_some,
        Option.map_none, true_iff]
      intro x y z hz
      have := (hm ⟨x, y, z⟩).2 hz
      rw [hu] at this
      cases this
    · simp only [hu, if_false, List.map_cons, List.map_nil, Option.bind_some, List.head?_cons, Option.join_some,
        Option.map_some, false_iff, reduceCtorEq]
      push Not
      obtain ⟨p, hp⟩ := List.exists_mem_of_ne_nil _ hu
      exact ⟨p.x, p.y, p.z, (hm p).1 hp⟩
  · intro f hf
    by_cases hu : usable (l.map fun p => some p.1) (l.map fun p => some p.2.1) (l.map fun p => p.2.2) = []
    · simp [hu] at hf
    · simp only [hu, if_false, List.map_cons, List.map_nil, Option.bind_some, List.head?_cons, Option.join_some,
        Option.map_some, Option.some.injEq] at hf
      refine ⟨_, hf.symm, (valueAt_iff ..).2 ⟨by simp, rfl, hu, rfl⟩⟩

/-- **C144.** Cloudiness from radiation: the cloud factor is missing exactly if no used station has a ratio, and
otherwise lies between any bounds (within 0 and 1) of the ratios of the stations used; a pixel with a station has the
ratio of this station, limited to 0 and 1. -/
theorem C144_bounds (v : Env) (g : Geom ℝ) (sky : ℕ → ℕ → Option ℝ) (e : Option Ext) (hg : 0 < g.res)
    (h : ∀ e', e = some e' → Accepted g e') (st : List Stn) (t : ℝ × ℝ) (prev : Option ℝ) :
    (cloudFactorAt v g sky e .clearSkyFraction st t prev = none ↔
      ∀ s ∈ st, Uses g e s → ratio s.sw (skyOf v g sky e st s) = none) ∧
    (∀ f lo hi, cloudFactorAt v g sky e .clearSkyFraction st t prev = some f → 0 ≤ lo → hi ≤ 1 →
      (∀ s ∈ st, Uses g e s → ∀ r, ratio s.sw (skyOf v g sky e st s) = some r → lo ≤ r ∧ r ≤ hi) →
      lo ≤ f ∧ f ≤ hi) ∧
    (∀ s ∈ st, Uses g e s → (s.x, s.y) = t → (∀ q ∈ st, (q.x, q.y) = t → q = s) →
      ∀ r, ratio s.sw (skyOf v g sky e st s) = some r →
      cloudFactorAt v g sky e .clearSkyFraction st t prev = some (Atmosphere.clip 0 1 r)) := by
  classical
  obtain ⟨f1, f2⟩ := factor_clear v g sky e st t prev
  have hperm := (C144_used v g sky e hg h st).1
  have hmem : ∀ x y z, (x, y, some z) ∈ radFactors v g sky e st ↔
      ∃ s ∈ st, Uses g e s ∧ s.x = x ∧ s.y = y ∧ ratio s.sw (skyOf v g sky e st s) = some z := by
    intro x y z
    rw [hperm.mem_iff, List.mem_map]
    simp only [List.mem_filter, decide_eq_true_iff, Prod.mk.injEq, and_assoc]
  refine ⟨?_, ?_, ?_⟩
  · rw [f1]
    constructor
    · intro hn s hs hu
      cases hr : ratio s.sw (skyOf v g sky e st s) with
      | none => rfl
      | some r => exact absurd ((hmem s.x s.y r).2 ⟨s, hs, hu, rfl, rfl, hr⟩) (hn _ _ _)
    · intro hn x y z hz
      obtain ⟨s, hs, hu, -, -, hr⟩ := (hmem x y z).1 hz
      rw [hn s hs hu] at hr
      cases hr
  · intro f lo hi hf hlo hhi hb
    obtain ⟨a, rfl, ha⟩ := f2 f hf
    obtain ⟨b1, b2⟩ := C12_bounds _ _ _ _ _ _ _ _ _ ha lo hi fun p hp => by
      obtain ⟨s, hs, hu, -, -, hr⟩ := (hmem _ _ _).1 ((mem_usable_triples _ p).1 hp)
      exact hb s hs hu _ hr
    have : Atmosphere.clip 0 1 a = a := by
      unfold Atmosphere.clip
      rw [max_eq_right (hlo.trans b1), min_eq_right (b2.trans hhi)]
    rw [this]
    exact ⟨b1, b2⟩
  · intro s hs hu ht hq r hr
    cases hf : cloudFactorAt v g sky e .clearSkyFraction st t prev with
    | none => exact absurd ((hmem s.x s.y r).2 ⟨s, hs, hu, rfl, rfl, hr⟩) (f1.1 hf _ _ _)
    | some f =>
      obtain ⟨a, rfl, ha⟩ := f2 f hf
      have := C12_exact 2 _ _ _ _ _ t a ha ⟨s.x, s.y, r⟩
        ((mem_usable_triples _ _).2 ((hmem _ _ _).2 ⟨s, hs, hu, rfl, rfl, hr⟩)) ht (by
          intro p hp hpt
          obtain ⟨q, hq', -, h1, h2, h3⟩ := (hmem _ _ _).1 ((mem_usable_triples _ p).1 hp)
          have := hq q hq' (by rw [h1, h2]; exact hpt)
          subst this
          rw [hr] at h3
          exact (Option.some.inj h3).symm)
      rw [this]

/-- **C144 (partial).** With fallback allowed the cloud factor is available in every time step, provided that each
station used has a clear-sky value other than zero and that the humidity method yields a value at each of its
stations. The first proviso fails for stations within the extent of the grid but outside of the domain, see
`C144_outside_false`. -/
theorem C144_available_partial (v : Env) (g : Geom ℝ) (sky : ℕ → ℕ → Option ℝ) (e : Option Ext) (hg : 0 < g.res)
    (h : ∀ e', e = some e' → Accepted g e') (m night : Method) (hn : night = .humidity ∨ night = .constant)
    (sunUp : Bool) (st : List Stn) (t : ℝ × ℝ) (prev : Option ℝ) (c : ℝ)
    (hrad : ∀ s ∈ st, Uses g e s → ∃ x, skyOf v g sky e st s = some x ∧ x ≠ 0)
    (hhum : ∀ s ∈ st, s.temp ≠ none → s.hum ≠ none → s.humFraction ≠ none) :
    (shortwave v g sky e m night true sunUp st t prev (some c)).1.isSome ∧
    (shortwave v g sky e m night true sunUp st t prev (some c)).2.isSome := by
  have hf : (cloudFactorAt v g sky e (chooseMethod v g e m night true sunUp st) st t prev).isSome := by
    obtain ⟨k, hk⟩ : ∃ k, chooseMethod v g e m night true sunUp st = k := ⟨_, rfl⟩
    rw [hk]
    cases k with
    | constant => simp [cloudFactorAt, Irradiance.cloudFactorAt]
    | clearSkyFraction =>
      obtain ⟨-, -, s, hs, hu⟩ := (C144_method v g e hg h m night hn sunUp st).1 hk
      rw [Option.isSome_iff_ne_none, Ne, (C144_bounds v g sky e hg h st t prev).1]
      intro hall
      obtain ⟨x, hx, hx0⟩ := hrad s hs hu
      have := hall s hs hu
      obtain ⟨a, ha⟩ := Option.ne_none_iff_exists'.1 hu.1
      rw [hx, ha] at this
      simp [ratio, hx0] at this
    | prescribed =>
      have hl : (st.filter fun s => s.cloud.isSome).length ≠ 0 := by
        intro hl
        unfold chooseMethod at hk
        rcases hn with rfl | rfl <;> cases m <;> cases sunUp <;>
          by_cases h2 : (gridRad g st).length + (extRad v g e st).length = 0 <;>
          by_cases h3 : (st.filter fun s => s.temp.isSome && s.hum.isSome).length = 0 <;>
          simp only [hl, h2, h3] at hk <;> simp at hk
      obtain ⟨s, hs⟩ := List.exists_mem_of_length_pos (Nat.pos_of_ne_zero hl)
      rw [List.mem_filter] at hs
      have : (Irradiance.cloudFactorAt .prescribed (st.map (toStation g sky)) t prev).isSome := by
        simp only [Irradiance.cloudFactorAt, Option.isSome_map]
        exact interp_isSome _ _ t ⟨toStation g sky s, by
          simp only [select, List.mem_filter, List.mem_map]
          exact ⟨⟨s, hs.1, rfl⟩, hs.2⟩, by simpa [stationFactor, toStation] using hs.2⟩
      exact this
    | humidity =>
      have hl : (st.filter fun s => s.temp.isSome && s.hum.isSome).length ≠ 0 := by
        intro hl
        unfold chooseMethod at hk
        rcases hn with rfl | rfl <;> cases m <;> cases sunUp <;>
          by_cases h2 : (gridRad g st).length + (extRad v g e st).length = 0 <;>
          by_cases h3 : (st.filter fun s => s.cloud.isSome).length = 0 <;>
          simp only [hl, h2, h3] at hk <;> simp at hk
      obtain ⟨s, hs⟩ := List.exists_mem_of_length_pos (Nat.pos_of_ne_zero hl)
      rw [List.mem_filter, Bool.and_eq_true] at hs
      have hh : s.humFraction ≠ none := hhum s hs.1 (Option.isSome_iff_ne_none.1 hs.2.1)
        (Option.isSome_iff_ne_none.1 hs.2.2)
      have : (Irradiance.cloudFactorAt .humidity (st.map (toStation g sky)) t prev).isSome := by
        simp only [Irradiance.cloudFactorAt, Option.isSome_map]
        exact interp_isSome _ _ t ⟨toStation g sky s, by
          simp only [select, List.mem_filter, List.mem_map]
          exact ⟨⟨s, hs.1, rfl⟩, by simp [toStation, hs.2.1, hs.2.2]⟩, by
            simpa [stationFactor, toStation] using Option.isSome_iff_ne_none.2 hh⟩
      exact this
  obtain ⟨f, hf'⟩ := Option.isSome_iff_exists.1 hf
  simp [shortwave, hf']

/-! ## Examples and the negated part -/

/-- A grid of 2 x 2 cells of 100 m. -/
noncomputable def grid2 : Geom ℝ := ⟨0, 0, 100, 2, 2⟩

/-- A flat extended grid of 5 x 4 cells: two rows above, one row below, one column on each side. -/
noncomputable def ext2 : Ext := ⟨⟨-100, 200, 100, 5, 4⟩, (2, 1), fun _ _ => ⟨2000, 1, (0, 0, 1), 1⟩⟩

theorem accepted2 : Accepted grid2 ext2 := by
  refine ⟨by norm_num [grid2], ?_⟩
  rw [show ext2.off = ((2 : ℤ), (1 : ℤ)) from rfl,
    GridGeom.C87_accepts grid2.res (by norm_num [grid2]) grid2 ext2.geom rfl 2 1]
  norm_num [grid2, ext2]

/-- A station 50 m to the left of the grid. -/
noncomputable def left : Stn := ⟨-50, -50, some 270, some 60, some 400, none, some (1 / 2)⟩

/-- A station in the first cell of the grid. -/
noncomputable def first : Stn := ⟨50, -50, some 270, some 60, some 400, none, some (1 / 2)⟩

example : Around grid2 ext2 left ∧ Uses grid2 (some ext2) left ∧ Uses grid2 (some ext2) first ∧
    ¬ Uses grid2 none left ∧ ¬ Uses grid2 (some ext2) { left with temp := none } ∧
    ¬ Uses grid2 (some ext2) { left with x := -101 } := by
  simp only [Around, Uses, InBox, grid2, ext2, left, first]
  norm_num
  simp

example (v : Env) (sky : ℕ → ℕ → Option ℝ) :
    chooseMethod v grid2 (some ext2) .clearSkyFraction .humidity true true [left] = .clearSkyFraction ∧
    chooseMethod v grid2 none .clearSkyFraction .humidity true true [left] ≠ .clearSkyFraction := by
  have hu : Uses grid2 (some ext2) left ∧ ¬ Uses grid2 none left := by
    simp only [Around, Uses, InBox, grid2, ext2, left]
    norm_num
    simp
  constructor
  · rw [C144_method v grid2 _ (by norm_num [grid2]) (fun e h => by cases h; exact accepted2) _ _ (.inl rfl)]
    exact ⟨rfl, .inl rfl, left, by simp, hu.1⟩
  · rw [Ne, C144_method v grid2 _ (by norm_num [grid2]) (fun e h => by cases h) _ _ (.inl rfl)]
    rintro ⟨-, -, s, hs, h⟩
    rw [List.mem_singleton.1 hs] at h
    exact hu.2 h

/-- A station within the grid and a station around it: the pixel with the station has its ratio. -/
example (v : Env) (prev : Option ℝ) :
    cloudFactorAt v grid2 (fun _ _ => some 800) (some ext2) .clearSkyFraction [first, left] (50, -50) prev =
      some (Atmosphere.clip 0 1 (400 / 800)) := by
  have hin : InBox grid2 first.x first.y := by norm_num [InBox, grid2, first]
  refine (C144_bounds v grid2 _ (some ext2) (by norm_num [grid2]) (fun e h => by cases h; exact accepted2) _ _ prev).2.2
    first (by simp) ⟨by simp [first], .inl hin⟩ rfl ?_ _ ?_
  · intro q hq h
    simp only [List.mem_cons, List.not_mem_nil, or_false] at hq
    rcases hq with rfl | rfl
    · rfl
    · simp only [left, first, Prod.mk.injEq] at h
      norm_num at h
  · simp only [skyOf, if_pos hin, gridSky]
    simp [ratio, first]

/-- **C144 (negated).** A station in a cell of the grid outside of the domain, covered by the extended grid and with all
measurements, is the reason for a missing cloud factor: without its radiation measurement the cloud factor would be
available at every pixel. -/
theorem C144_outside_false (v : Env) (t : ℝ × ℝ) (prev : Option ℝ) (c : ℝ) :
    Accepted grid2 ext2 ∧ InBox ext2.geom first.x first.y ∧
    shortwave v grid2 (fun i j => if i = 0 ∧ j = 0 then none else some 800) (some ext2) .clearSkyFraction .humidity
      true true [first] t prev (some c) = (none, none) ∧
    (shortwave v grid2 (fun i j => if i = 0 ∧ j = 0 then none else some 800) (some ext2) .clearSkyFraction .humidity
      true true [{ first with sw := none }] t prev (some c)).1.isSome := by
  have hg : 0 < grid2.res := by norm_num [grid2]
  have hacc : ∀ e', some ext2 = some e' → Accepted grid2 e' := fun e h => by cases h; exact accepted2
  have hin : InBox grid2 first.x first.y := by norm_num [InBox, grid2, first]
  refine ⟨accepted2, by norm_num [InBox, ext2, first], ?_, ?_⟩
  · have hm := (C144_method v grid2 (some ext2) hg hacc .clearSkyFraction .humidity (.inl rfl) true [first]).2
      ⟨rfl, .inl rfl, first, by simp, by simp [first], .inl hin⟩
    have hf : cloudFactorAt v grid2 (fun i j => if i = 0 ∧ j = 0 then none else some 800) (some ext2)
        .clearSkyFraction [first] t prev = none := by
      rw [(C144_bounds v grid2 _ _ hg hacc [first] t prev).1]
      intro s hs _
      rw [List.mem_singleton.1 hs]
      have : gridSky grid2 (fun i j => if i = 0 ∧ j = 0 then none else some (800 : ℝ)) first = none := by
        have a : ⌊(-(-50) / 100 : ℝ)⌋ = 0 := by rw [Int.floor_eq_iff]; norm_num
        have b : ⌊(50 / 100 : ℝ)⌋ = 0 := by rw [Int.floor_eq_iff]; norm_num
        simp only [gridSky, rowcol, grid2, first, zero_sub, sub_zero, a, b]
        simp
      simp only [skyOf, if_pos hin, this]
      simp [ratio, first]
    simp only [shortwave, hm, hf]
    rfl
  · refine (C144_available_partial v grid2 _ (some ext2) hg hacc .clearSkyFraction .humidity (.inl rfl) true _ t prev c
      ?_ ?_).1
    · rintro s hs ⟨h1, -⟩
      rw [List.mem_singleton.1 hs] at h1
      simp at h1
    · intro s hs _ _
      rw [List.mem_singleton.1 hs]
      simp [first]

end Verif.ExtIrradiance
