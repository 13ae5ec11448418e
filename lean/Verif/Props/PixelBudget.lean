import Verif.Model.PixelBudget
import Verif.Props.PixelWater
import Verif.Props.EvapoClass

/-!
# C119: water balance with evapotranspiration
-/

namespace Verif.PixelBudget

open Verif.Canopy (SnowCfg)
open Verif.PixelWater
open Verif.EvapoClass hiding exIn
open Verif.Evapo (nn)
open Verif.MultiLayer (PackOK)

/-! ## Specification -/

/-- Water stored in the soil or on a sealed surface; the storage of water bodies is not modelled. -/
def soilStore (k : Kind ℝ) (taw : ℝ) (x : PxSt ℝ) : ℝ :=
  match k with
  | .sealed _ => x.int
  | .crop _ water => if water then 0 else taw - x.st.dr

/-- Water entering this storage in a time step: rain, also on snow (except on sealed surfaces). -/
def soilInflow {F : Type*} (k : Kind ℝ) (f : Flux F) : ℝ :=
  match k with
  | .sealed _ => if f.covered then 0 else f.water.rainfall.getD 0
  | .crop _ water => if water then 0 else f.water.rainfall.getD 0

/-- Assumptions on the inputs of the evapotranspiration other than rainfall and snow cover. -/
def SoilOK (k : Kind ℝ) (taw : ℝ) {E : Type*} (i : In E) : Prop :=
  InOK k { i.soil with et := { i.soil.et with rain := none } } ∧ i.soil.soil.taw = taw

/-! ## Lemmas -/

theorem SoilOK.in {k : Kind ℝ} {taw : ℝ} {E F : Type*} {i : In E} (h : SoilOK k taw i) (w : PixelFlux F) (c : Bool)
    (hr : 0 ≤ w.rainfall.getD 0) : InOK k (soilIn i w c) :=
  ⟨h.1.raw, h.1.taw, h.1.tew, h.1.rew, h.1.ref, h.1.kcb, h.1.kmax, h.1.few, hr, h.1.max⟩

/-- Soil storage over a time step. -/
theorem soil_step {E F : Type*} (k : Kind ℝ) (i : In E) (w : PixelFlux F) (c : Bool) (x : PxSt ℝ)
    (hi : SoilOK k i.soil.soil.taw i) (hr : 0 ≤ w.rainfall.getD 0) (hx : StateOK k i.soil.soil x) :
    ∃ y et, classStep k (soilIn i w c) (resetPx x) = some y ∧ StateOK k i.soil.soil y ∧ y.et = some et ∧ 0 ≤ et ∧
      0 ≤ y.dp ∧ ∃ created, 0 ≤ created ∧
        soilStore k i.soil.soil.taw y + et + y.dp =
          soilStore k i.soil.soil.taw x + soilInflow k (⟨w, c, y.et, y.dp⟩ : Flux F) + created ∧
        (0 < created → ∃ dual, k = .crop dual true ∨ (k = .crop dual false ∧ y.st.dr = i.soil.soil.taw)) := by
  obtain ⟨y, h1, h2, et, hb⟩ := C110_step k (soilIn i w c) x (hi.in w c hr) hx
  refine ⟨y, et, h1, h2, hb.value, hb.nonneg, ?_, ?_⟩
  · cases k with
    | sealed m =>
      have e : sealedClass m (soilIn i w c) (resetPx x) = y := by simpa [classStep] using h1
      obtain ⟨q1, q2⟩ := hx.2 m rfl
      obtain ⟨-, a4, -⟩ := Verif.Evapo.C40_step m x.int (hi.1.max m rfl) q1 q2
        ⟨c, w.rainfall, i.soil.pot⟩
      rw [← e]
      exact a4
    | crop dual water =>
      cases water with
      | true => rw [(hb.water dual rfl).1]
      | false => exact (hb.root rfl).2.2.1
  · cases k with
    | sealed m =>
      refine ⟨0, le_rfl, ?_, fun h => absurd h (lt_irrefl _)⟩
      obtain ⟨-, b1, b2⟩ := hb.sealed m rfl
      cases hc : c with
      | false =>
        have := b1 (by simp [soilIn, hc])
        simp only [soilStore, soilInflow, Bool.false_eq_true, if_false]
        have e : nn (soilIn i w c).et.rain = w.rainfall.getD 0 := rfl
        rw [e] at this
        linarith
      | true =>
        obtain ⟨b3, b4⟩ := b2 (by simp [soilIn, hc])
        have he := hb.snow trivial (by simp [soilIn, hc])
        simp only [soilStore, soilInflow, if_true]
        linarith
    | crop dual water =>
      cases water with
      | true =>
        refine ⟨et, hb.nonneg, ?_, fun _ => ⟨dual, Or.inl rfl⟩⟩
        have := (hb.water dual rfl).1
        simp only [soilStore, soilInflow, if_true]
        linarith
      | false =>
        obtain ⟨r1, r2, r3, r4, r5, r6⟩ := hb.root rfl
        have e : nn (soilIn i w c).et.rain = w.rainfall.getD 0 := rfl
        have e2 : (soilIn i w c).soil.taw = i.soil.soil.taw := rfl
        rw [e] at r5 r6
        rw [e2] at r5 r6
        simp only [soilStore, soilInflow, Bool.false_eq_true, if_false]
        rcases le_or_gt (x.st.dr - w.rainfall.getD 0 + et + y.dp) i.soil.soil.taw with h | h
        · refine ⟨0, le_rfl, ?_, fun h => absurd h (lt_irrefl _)⟩
          have := r5 h
          linarith
        · refine ⟨x.st.dr - w.rainfall.getD 0 + et + y.dp - i.soil.soil.taw, by linarith, ?_,
            fun _ => ⟨dual, Or.inr ⟨rfl, r6 h⟩⟩⟩
          have := r6 h
          linarith

/-- Runs of the whole pixel are runs of canopy and snow model together with the soil. -/
theorem budgetRun_water {E F P : Type*} (forest : Bool) (cc : SnowCfg)
    (snow : Option ℝ → Option ℝ → E → P → Option (F × P)) (cover : F → P → Bool) (k : Kind ℝ) (s : Verif.Evapo.Soil ℝ)
    (is : List (In E)) : ∀ (st st' : Option ℝ × P) (x : PxSt ℝ) (ws : List (PixelFlux F)),
    (∀ i ∈ is, SoilOK k s.taw i ∧ i.soil.soil = s ∧ 0 ≤ i.px.above.rain.getD 0) → StateOK k s x →
    pixelRun forest cc snow (is.map In.px) st = some (ws, st') →
    ∃ fs y, budgetRun forest cc snow cover k is (st, x) = some (fs, (st', y)) ∧ fs.map Flux.water = ws ∧
      StateOK k s y ∧ (∀ f ∈ fs, ∃ et, f.et = some et ∧ 0 ≤ et ∧ 0 ≤ f.dp) ∧
      total (fun f : Flux F => f.water.rainfall) fs = total (fun i : In E => i.px.above.rain) is ∧
      ∃ created, 0 ≤ created ∧
        soilStore k s.taw y + total Flux.et fs + (fs.map Flux.dp).sum =
          soilStore k s.taw x + (fs.map (soilInflow k)).sum + created ∧
        (∀ m, k = .sealed m → created = 0) := by
  induction is with
  | nil =>
    intro st st' x ws _ hx h
    simp only [List.map_nil, pixelRun, Option.some.injEq, Prod.mk.injEq] at h
    obtain ⟨rfl, rfl⟩ := h
    exact ⟨[], x, rfl, rfl, hx, by simp, by simp [total], 0, le_rfl, by simp [total], fun _ _ => rfl⟩
  | cons i is ih =>
    intro st st' x ws hi hx h
    simp only [List.map_cons, pixelRun, Option.bind_eq_some_iff, Option.map_eq_some_iff, Prod.mk.injEq] at h
    obtain ⟨⟨w, st1⟩, h1, ⟨ws', st2⟩, h2, rfl, rfl⟩ := h
    obtain ⟨hs, hsoil, hrain⟩ := hi i (by simp)
    have hw : w.rainfall = i.px.above.rain := by
      simp only [pixelStep, Option.map_eq_some_iff, Prod.mk.injEq] at h1
      obtain ⟨_, _, rfl, _⟩ := h1
      rfl
    obtain ⟨y, et, s1, s2, s3, s4, s5, cr, s6, s7, s8⟩ := soil_step k i w (cover w.snow st1.2) x
      (by rw [hsoil]; exact hs) (by rw [hw]; exact hrain) (by rw [hsoil]; exact hx)
    rw [hsoil] at s2 s7
    obtain ⟨fs, z, m1, m2, m3, m4, m5, cr', m6, m7, m8⟩ := ih st1 st2 y ws'
      (fun j hj => hi j (List.mem_cons_of_mem _ hj)) s2 h2
    refine ⟨⟨w, cover w.snow st1.2, y.et, y.dp⟩ :: fs, z, ?_, ?_, m3, ?_, ?_, cr + cr', by linarith, ?_, ?_⟩
    · simp only [budgetRun, budgetStep, h1, Option.bind_some, s1, Option.map_some, m1]
    · simp only [List.map_cons, m2]
    · intro f hf
      rcases List.mem_cons.1 hf with rfl | hf
      · exact ⟨et, s3, s4, s5⟩
      · exact m4 f hf
    · simp only [total, List.map_cons, List.sum_cons] at m5 ⊢
      rw [m5, hw]
    · simp only [total, List.map_cons, List.sum_cons, s3, Option.getD_some] at m7 s7 ⊢
      linarith
    · intro m hm
      have : cr = 0 := by
        by_contra hne
        obtain ⟨d, h | ⟨h, -⟩⟩ := s8 (lt_of_le_of_ne s6 (Ne.symm hne)) <;> rw [hm] at h <;> cases h
      rw [this, m8 m hm, add_zero]

/-- Inflow of the soil in classes with a root zone. -/
theorem inflow_roots {F : Type*} (k : Kind ℝ) (hk : HasRoots k) (fs : List (Flux F)) :
    (fs.map (soilInflow k)).sum = total (fun f : Flux F => f.water.rainfall) fs := by
  cases k with
  | sealed m => exact absurd hk (by simp [HasRoots])
  | crop dual water =>
    have : water = false := hk
    subst this
    rfl

theorem total_map {α β : Type*} (g : α → β) (f : β → Option ℝ) (l : List α) :
    total f (l.map g) = total (fun a => f (g a)) l := by
  simp [total, List.map_map, Function.comp_def]

/-! ## Properties -/

/-- **C119, what holds** (cryolayer model): in every run the storages of canopy, snowpack and soil change by the
precipitation, minus canopy sublimation, sublimation, runoff, evapotranspiration and percolation, plus the water
entering the soil, which is the rain and therefore counted a second time, plus the water evapotranspiration takes out
of an empty root zone or a water body. -/
theorem C119_cryo_partial (forest : Bool) (cc : SnowCfg) (hddf : 0 ≤ cc.ddf) (hdt : 0 ≤ cc.dt) (lo : ℝ)
    (c : Cryo.Cfg ℝ) (hc : Cryo.CfgOK lo c) (cover : Cryo.Fluxes ℝ → Cryo.CPixel ℝ → Bool) (k : Kind ℝ)
    (s : Verif.Evapo.Soil ℝ) (is : List (In (Cryo.StepIn ℝ))) (load : Option ℝ) (p : Cryo.CPixel ℝ) (x : PxSt ℝ)
    (hp : Cryo.EndPixel (c.lwcMethod = .poreVolume) lo c.albMax p) (hx : StateOK k s x)
    (hg : ∀ i ∈ is, Given i.px) (he : ∀ i ∈ is, CryoIn lo c i.px.snow)
    (hcan : forest = true → CanopyOK load (is.map In.px)) (hs : ∀ i ∈ is, SoilOK k s.taw i ∧ i.soil.soil = s) :
    ∃ fs load' q y, budgetRun forest cc (cryo c) cover k is ((load, p), x) = some (fs, ((load', q), y)) ∧
      (∀ f ∈ fs, ∃ et, f.et = some et ∧ 0 ≤ et ∧ 0 ≤ f.dp) ∧
      total (fun f : Flux (Cryo.Fluxes ℝ) => f.water.rainfall) fs =
        total (fun i : In (Cryo.StepIn ℝ) => i.px.above.rain) is ∧
      ∃ created, 0 ≤ created ∧ (∀ m, k = .sealed m → created = 0) ∧
        stored forest load' + q.swe + soilStore k s.taw y +
          (total (fun f : Flux (Cryo.Fluxes ℝ) => f.water.canopySubl) fs +
            (fs.map fun f => f.water.snow.sublimation).sum + (fs.map fun f => f.water.snow.runoff).sum +
            total Flux.et fs + (fs.map Flux.dp).sum) =
        stored forest load + p.swe + soilStore k s.taw x +
          total (fun i : In (Cryo.StepIn ℝ) => i.px.above.precip) is +
          (fs.map (soilInflow k)).sum + created := by
  obtain ⟨ws, load', q, h1, -, -, -, h2⟩ := C108_cryo_run forest cc hddf hdt lo c hc (is.map In.px) load p hp
    (by intro i hi; obtain ⟨j, hj, rfl⟩ := List.mem_map.mp hi; exact hg j hj)
    (by intro i hi; obtain ⟨j, hj, rfl⟩ := List.mem_map.mp hi; exact he j hj) hcan
  obtain ⟨fs, y, m1, rfl, -, m4, m5, cr, m6, m7, m8⟩ := budgetRun_water forest cc (cryo c) cover k s is (load, p)
    (load', q) x ws (fun i hi => ⟨(hs i hi).1, (hs i hi).2, by
      obtain ⟨_, r, _, h2, _, _, h5⟩ := hg i hi
      rw [h2]; exact h5⟩) hx h1
  refine ⟨fs, load', q, y, m1, m4, m5, cr, m6, m8, ?_⟩
  rw [total_map, total_map] at h2
  simp only [List.map_map, Function.comp_def] at h2
  linarith

/-- **C119, what holds** (multilayer model), up to the water of thin layers that are removed. -/
theorem C119_multilayer_partial (forest : Bool) (cc : SnowCfg) (hddf : 0 ≤ cc.ddf) (hdt : 0 ≤ cc.dt)
    (c : MultiLayer.Cfg ℝ) (hc : MultiLayer.CfgOK c) (cover : MultiLayer.Fluxes ℝ → MultiLayer.Pixel ℝ → Bool)
    (k : Kind ℝ) (s : Verif.Evapo.Soil ℝ) (is : List (In (MultiLayer.StepIn ℝ))) (load load' : Option ℝ)
    (p q : MultiLayer.Pixel ℝ) (x : PxSt ℝ) (ws : List (PixelFlux (MultiLayer.Fluxes ℝ)))
    (hp : PackOK c.lwcMethod c.minThickness.length p) (hx : StateOK k s x)
    (hg : ∀ i ∈ is, Given i.px) (he : ∀ i ∈ is, MultiIn c i.px.snow)
    (hcan : forest = true → CanopyOK load (is.map In.px)) (hs : ∀ i ∈ is, SoilOK k s.taw i ∧ i.soil.soil = s)
    (h : pixelRun forest cc (multi c) (is.map In.px) (load, p) = some (ws, (load', q))) :
    ∃ fs y, budgetRun forest cc (multi c) cover k is ((load, p), x) = some (fs, ((load', q), y)) ∧
      (∀ f ∈ fs, ∃ et, f.et = some et ∧ 0 ≤ et ∧ 0 ≤ f.dp) ∧
      ∃ created deleted, 0 ≤ created ∧ 0 ≤ deleted ∧ (∀ m, k = .sealed m → created = 0) ∧
        stored forest load' + MultiLayer.swe q + soilStore k s.taw y +
          (total (fun f : Flux (MultiLayer.Fluxes ℝ) => f.water.canopySubl) fs +
            (fs.map fun f => f.water.snow.sublimation).sum + (fs.map fun f => f.water.snow.runoff).sum +
            total Flux.et fs + (fs.map Flux.dp).sum) + deleted =
        stored forest load + MultiLayer.swe p + soilStore k s.taw x +
          total (fun i : In (MultiLayer.StepIn ℝ) => i.px.above.precip) is +
          (fs.map (soilInflow k)).sum + created := by
  obtain ⟨-, -, -, ds, -, hd, h2⟩ := C108_multilayer_run forest cc hddf hdt c hc (is.map In.px) load load' p q ws hp
    (by intro i hi; obtain ⟨j, hj, rfl⟩ := List.mem_map.mp hi; exact hg j hj)
    (by intro i hi; obtain ⟨j, hj, rfl⟩ := List.mem_map.mp hi; exact he j hj) hcan h
  obtain ⟨fs, y, m1, rfl, -, m4, -, cr, m6, m7, m8⟩ := budgetRun_water forest cc (multi c) cover k s is (load, p)
    (load', q) x ws (fun i hi => ⟨(hs i hi).1, (hs i hi).2, by
      obtain ⟨_, r, _, h2, _, _, h5⟩ := hg i hi
      rw [h2]; exact h5⟩) hx h
  refine ⟨fs, y, m1, m4, cr, ds.sum, m6, List.sum_nonneg fun d hd' => (hd d hd').1, m8, ?_⟩
  rw [total_map, total_map] at h2
  simp only [List.map_map, Function.comp_def] at h2
  linarith

/-- **C119 is false of the code**: in every run with rain on a pixel of a class with a root zone more water is stored
and lost than fell as precipitation, namely at least the rain once more. -/
theorem C119_false (forest : Bool) (cc : SnowCfg) (hddf : 0 ≤ cc.ddf) (hdt : 0 ≤ cc.dt) (lo : ℝ)
    (c : Cryo.Cfg ℝ) (hc : Cryo.CfgOK lo c) (cover : Cryo.Fluxes ℝ → Cryo.CPixel ℝ → Bool) (k : Kind ℝ)
    (hk : HasRoots k) (s : Verif.Evapo.Soil ℝ) (is : List (In (Cryo.StepIn ℝ))) (load : Option ℝ)
    (p : Cryo.CPixel ℝ) (x : PxSt ℝ)
    (hp : Cryo.EndPixel (c.lwcMethod = .poreVolume) lo c.albMax p) (hx : StateOK k s x)
    (hg : ∀ i ∈ is, Given i.px) (he : ∀ i ∈ is, CryoIn lo c i.px.snow)
    (hcan : forest = true → CanopyOK load (is.map In.px)) (hs : ∀ i ∈ is, SoilOK k s.taw i ∧ i.soil.soil = s)
    (hrain : 0 < total (fun i : In (Cryo.StepIn ℝ) => i.px.above.rain) is) :
    ∃ fs load' q y, budgetRun forest cc (cryo c) cover k is ((load, p), x) = some (fs, ((load', q), y)) ∧
      stored forest load + p.swe + soilStore k s.taw x +
          total (fun i : In (Cryo.StepIn ℝ) => i.px.above.precip) is <
        stored forest load' + q.swe + soilStore k s.taw y +
          (total (fun f : Flux (Cryo.Fluxes ℝ) => f.water.canopySubl) fs +
            (fs.map fun f => f.water.snow.sublimation).sum + (fs.map fun f => f.water.snow.runoff).sum +
            total Flux.et fs + (fs.map Flux.dp).sum) := by
  obtain ⟨fs, load', q, y, h1, -, h2, cr, h3, -, h4⟩ := C119_cryo_partial forest cc hddf hdt lo c hc cover k s is
    load p x hp hx hg he hcan hs
  refine ⟨fs, load', q, y, h1, ?_⟩
  rw [inflow_roots k hk, h2] at h4
  linarith

/-- **C119, second part, is false of the code**: without rain the root zone never gains water and nothing percolates,
however much meltwater leaves the snowpack, with any snow model. -/
theorem C119_melt_false {E F P : Type*} (forest : Bool) (cc : SnowCfg)
    (snow : Option ℝ → Option ℝ → E → P → Option (F × P)) (cover : F → P → Bool) (k : Kind ℝ) (hk : HasRoots k)
    (s : Verif.Evapo.Soil ℝ) (htaw : 0 < s.taw) (is : List (In E)) : ∀ (st st' : Option ℝ × P) (x y : PxSt ℝ) (fs : List (Flux F)),
    (∀ i ∈ is, SoilOK k s.taw i ∧ i.soil.soil = s ∧ i.px.above.rain.getD 0 = 0) → StateOK k s x →
    budgetRun forest cc snow cover k is (st, x) = some (fs, (st', y)) →
    soilStore k s.taw y ≤ soilStore k s.taw x ∧ ∀ f ∈ fs, f.dp = 0 := by
  induction is with
  | nil =>
    intro st st' x y fs _ _ h
    simp only [budgetRun, Option.some.injEq, Prod.mk.injEq] at h
    obtain ⟨rfl, -, rfl⟩ := h
    exact ⟨le_rfl, by simp⟩
  | cons i is ih =>
    intro st st' x y fs hi hx h
    simp only [budgetRun, budgetStep, Option.bind_eq_some_iff, Option.map_eq_some_iff, Prod.mk.injEq] at h
    obtain ⟨⟨f, st1, x1⟩, ⟨⟨w, st0⟩, h1, z, h2, rfl, rfl, rfl⟩, ⟨fs', stn, yn⟩, h3, rfl, rfl, rfl⟩ := h
    obtain ⟨hs, hsoil, hrain⟩ := hi i (by simp)
    have hw : w.rainfall = i.px.above.rain := by
      simp only [pixelStep, Option.map_eq_some_iff, Prod.mk.injEq] at h1
      obtain ⟨_, _, rfl, _⟩ := h1
      rfl
    obtain ⟨y', h4, h5, et, hb⟩ := C110_step k (soilIn i w (cover w.snow st0.2)) x
      (hs.in w _ (by rw [hw, hrain])) (by
        rw [show (soilIn i w (cover w.snow st0.2)).soil = i.soil.soil from rfl, hsoil]; exact hx)
    rw [h2, Option.some.injEq] at h4
    subst h4
    rw [show (soilIn i w (cover w.snow st0.2)).soil = i.soil.soil from rfl, hsoil] at h5
    obtain ⟨m1, m2⟩ := ih st0 st' x1 y fs' (fun j hj => hi j (List.mem_cons_of_mem _ hj)) h5 h3
    cases k with
    | sealed m => exact absurd hk (by simp [HasRoots])
    | crop dual water =>
      have : water = false := hk
      subst this
      obtain ⟨r1, r2, r3, r4, r5, r6⟩ := hb.root rfl
      have e : nn (soilIn i w (cover w.snow st0.2)).et.rain = 0 := by
        change w.rainfall.getD 0 = 0
        rw [hw, hrain]
      have e2 : (soilIn i w (cover w.snow st0.2)).soil.taw = s.taw := by rw [← hsoil]; rfl
      rw [e, e2] at r5 r6
      rw [e2] at r2
      have hx0 : 0 ≤ x.st.dr := hx.1.2.2.1
      have hx1 : x.st.dr ≤ s.taw := hx.1.2.2.2.1
      have het := hb.nonneg
      have hge : x.st.dr ≤ x1.st.dr := by
        rcases le_or_gt (x.st.dr - 0 + et + x1.dp) s.taw with h | h
        · rw [r5 h]; linarith
        · rw [r6 h]; exact hx1
      have hdp : x1.dp = 0 := by
        by_contra hne
        have hpos : 0 < x1.dp := lt_of_le_of_ne r3 (Ne.symm hne)
        have hz := r4 hpos
        rcases le_or_gt (x.st.dr - 0 + et + x1.dp) s.taw with h | h
        · have := r5 h; linarith
        · have := r6 h; linarith
      refine ⟨m1.trans ?_, ?_⟩
      · simp only [soilStore, Bool.false_eq_true, if_false]
        linarith
      · intro f hf
        rcases List.mem_cons.1 hf with rfl | hf
        · exact hdp
        · exact m2 f hf

/-! ## Concrete cases -/

/-- A dry pixel with dual crop coefficients. -/
noncomputable def exSoil : PxIn ℝ := ⟨⟨20, 8, 100, 50⟩, ⟨false, some 4, none, 1, 6 / 5, 1 / 2⟩, none⟩

/-- State of the soil. -/
noncomputable def exState : PxSt ℝ := ⟨⟨5, 0, 30⟩, 0, none, none, none, 0, none⟩

/-- The hypotheses of `C119_cryo_partial` and `C119_false` are met by rain on the snow of `PixelWater.exPixel` (the
other hypotheses are shown there). -/
example : SoilOK (.crop true false) exSoil.soil.taw (⟨PixelWater.exIn, exSoil⟩ : In (Cryo.StepIn ℝ)) ∧
    StateOK (.crop true false) exSoil.soil exState ∧ HasRoots (Kind.crop (K := ℝ) true false) ∧
    0 < total (fun i : In (Cryo.StepIn ℝ) => i.px.above.rain) [⟨PixelWater.exIn, exSoil⟩] := by
  refine ⟨⟨?_, rfl⟩, ⟨?_, fun m h => (by cases h)⟩, rfl, ?_⟩
  · constructor <;> first | (intro m h; cases h) | norm_num [exSoil, nn]
  · norm_num [Verif.Evapo.StOK, exSoil, exState]
  · norm_num [total, PixelWater.exIn]

/-- `C119_melt_false` is about runs with meltwater: without precipitation a thin snow cover melts and leaves as runoff
(the snow model with rational numbers). -/
example : (Cryo.step (K := ℚ)
    { dt := 3600, albMax := 85 / 100, firnAlb := 4 / 10, iceAlb := 2 / 10, single := true,
      lwcMethod := .poreVolume, maxFrac := 1 / 10, oldDensity := 200, iceDens := 900,
      coldCapacity := 1 / 20, refreezeFactor := 1, ddf := 6, albFactor := 1 / 10, threshold := 27415 / 100 }
    { snowfall := some 0, rainfall := some 0, freshDensity := 100, compNew := fun _ => 120,
      compOld := fun _ => 320, aged := fun a => a, melt := .energy 275 (some 200),
      moistureFlux := some 0, firnDate := false }
    { new := { thick := 1 / 1000, dens := some 100, ice := 1 / 10, lwc := 0, cc := 0, alb := some (8 / 10) },
      old := { thick := 0, dens := none, ice := 0, lwc := 0, cc := 0, alb := none },
      firn := { thick := 0, dens := none, ice := 0, lwc := 0, cc := 0, alb := none },
      ice := { thick := 0, dens := none, ice := 0, lwc := 0, cc := 0, alb := none },
      albedo := none }).map (fun r => decide (r.1.runoff = 1 / 10)) = some true := by
  decide +kernel

end Verif.PixelBudget
