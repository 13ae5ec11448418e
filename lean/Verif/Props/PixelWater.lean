import Verif.Model.PixelWater
import Verif.Props.Canopy
import Verif.Props.CryoStep
import Verif.Props.StepML
import Verif.Props.Precip

/-!
# C108: water balance of canopy and snowpack
-/

set_option linter.unusedSectionVars false

namespace Verif.PixelWater

open Verif.Canopy (SnowCfg T0 fillFactor snowStep SnowIn SnowOut Balanced)
open Verif.MultiLayer (PackOK)

/-! ## Specification -/

/-- Precipitation above the canopy is given, not negative and the sum of snow and rain. -/
def Given {E : Type*} (i : PixelIn E) : Prop :=
  ∃ s r, i.above.snow = some s ∧ i.above.rain = some r ∧ i.above.precip = some (s + r) ∧
    0 ≤ s ∧ 0 ≤ r

/-- Total of a recorded quantity, missing values not counted. -/
def total {α : Type*} (f : α → Option ℝ) (l : List α) : ℝ := (l.map fun a => (f a).getD 0).sum

/-- Intercepted snow of a pixel; pixels outside of the forest have none. -/
def stored (forest : Bool) (load : Option ℝ) : ℝ := if forest then load.getD 0 else 0

/-- Inputs and state of the canopy of a forest pixel: the load does not exceed the capacity, which is
positive and does not fall; the temperature is given. -/
def CanopyOK {E : Type*} (load : Option ℝ) (is : List (PixelIn E)) : Prop :=
  (∃ l, load = some l ∧ 0 ≤ l ∧ ∀ i ∈ is, l ≤ i.canopy.cap) ∧
  (is.Pairwise fun a b => a.canopy.cap ≤ b.canopy.cap) ∧
  ∀ i ∈ is, 0 < i.canopy.cap ∧ i.canopy.temp ≠ none

/-! ## Lemmas -/

theorem canopyStep_given (c : SnowCfg) (i : CanopyIn) (l s t : ℝ) (r : Option ℝ)
    (ht : i.temp = some t) (o : SnowOut)
    (h : snowStep c l ⟨i.cap, s, r.getD 0, i.rate, t⟩ = some o) :
    canopyStep c i (some l) (some s) r =
      ⟨some o.load, some o.intercepted, some o.subl, some o.melt, some o.snowfall,
        r.map fun r => o.snowfall + r⟩ := by
  simp only [snowStep, Option.map_eq_some_iff] at h
  obtain ⟨f, hf, rfl⟩ := h
  simp only [canopyStep, ht, hf, exposure, Option.bind_some, Option.map_some]
  rfl

theorem canopyStep_balance (c : SnowCfg) (hddf : 0 ≤ c.ddf) (hdt : 0 ≤ c.dt) (i : CanopyIn)
    (l s : ℝ) (r : Option ℝ) (hcap : 0 < i.cap) (hl0 : 0 ≤ l) (hl : l ≤ i.cap) (hs : 0 ≤ s)
    (ht : i.temp ≠ none) :
    ∃ l' s' u, (canopyStep c i (some l) (some s) r).load = some l' ∧
      (canopyStep c i (some l) (some s) r).snowfall = some s' ∧
      (canopyStep c i (some l) (some s) r).subl = some u ∧
      l' + s' + u = l + s ∧ 0 ≤ l' ∧ l' ≤ i.cap ∧ 0 ≤ s' := by
  obtain ⟨t, ht⟩ := Option.ne_none_iff_exists'.1 ht
  obtain ⟨o, ho, b1, b2, -, -, -, -, -, b3, b4, b5⟩ :=
    Canopy.C35_step c l ⟨i.cap, s, r.getD 0, i.rate, t⟩ hddf hdt hcap hl0 hl hs
  rw [canopyStep_given c i l s t r ht o ho]
  refine ⟨_, _, _, rfl, rfl, rfl, ?_, b3, b4, b5⟩
  rw [b1, b2]; ring

/-- One step for any snow model that keeps the books up to an amount `d`. -/
theorem pixelStep_balance {E F P : Type*} (forest : Bool) (cc : SnowCfg) (hddf : 0 ≤ cc.ddf)
    (hdt : 0 ≤ cc.dt) (snow : Option ℝ → Option ℝ → E → P → Option (F × P)) (okE : E → Prop)
    (inv : P → Prop) (mass : P → ℝ) (loss : F → ℝ) (del : P → ℝ → Prop)
    (hsnow : ∀ s r e p f q, 0 ≤ s → 0 ≤ r → okE e → inv p → snow (some s) (some r) e p = some (f, q) →
      inv q ∧ ∃ d, del q d ∧ mass q + loss f + d = mass p + s + r)
    (i : PixelIn E) (is : List (PixelIn E)) (st st' : Option ℝ × P) (f : PixelFlux F)
    (hp : inv st.2) (hi : Given i) (he : okE i.snow)
    (hcan : forest = true → CanopyOK st.1 (i :: is))
    (h : pixelStep forest cc snow i st = some (f, st')) :
    inv st'.2 ∧ (forest = true → CanopyOK st'.1 is) ∧ (forest = false → st'.1 = st.1) ∧
    ∃ d, del st'.2 d ∧
      stored forest st'.1 + mass st'.2 + f.canopySubl.getD 0 + loss f.snow + d =
        stored forest st.1 + mass st.2 + i.above.precip.getD 0 := by
  obtain ⟨s, r, h1, h2, h3, h4, h5⟩ := hi
  simp only [pixelStep, Option.map_eq_some_iff] at h
  obtain ⟨⟨g, q⟩, hg, he2⟩ := h
  simp only [Prod.mk.injEq] at he2
  obtain ⟨rfl, rfl⟩ := he2
  cases forest with
  | false =>
    simp only [Bool.false_eq_true, if_false, h1, h2] at hg
    obtain ⟨k1, d, k2, k3⟩ := hsnow s r i.snow st.2 g q h4 h5 he hp hg
    refine ⟨k1, fun h => absurd h (by simp), fun _ => by simp, d, k2, ?_⟩
    simp only [stored, h3, Option.getD_some, Bool.false_eq_true, if_false, Option.getD_none]
    linarith
  | true =>
    obtain ⟨⟨l, c1, c2, c3⟩, c4, c5⟩ := hcan rfl
    obtain ⟨c6, c7⟩ := c5 i (by simp)
    obtain ⟨l', s', u, w1, w2, w3, w4, w5, w6, w7⟩ := canopyStep_balance cc hddf hdt i.canopy l s
      (some r) c6 c2 (c3 i (by simp)) h4 c7
    simp only [if_true, h1, h2, c1, w2] at hg
    obtain ⟨k1, d, k2, k3⟩ := hsnow s' r i.snow st.2 g q w7 h5 he hp hg
    rw [List.pairwise_cons] at c4
    refine ⟨k1, fun _ => ?_, fun h => absurd h (by simp), d, k2, ?_⟩
    · simp only [if_true, h1, h2, c1, w1]
      exact ⟨⟨l', rfl, w5, fun j hj => w6.trans (c4.1 j hj)⟩, c4.2,
        fun j hj => c5 j (List.mem_cons_of_mem _ hj)⟩
    · simp only [stored, if_true, h1, h2, c1, w1, w3, h3, Option.getD_some]
      linarith

theorem pixelRun_balance {E F P : Type*} (forest : Bool) (cc : SnowCfg) (hddf : 0 ≤ cc.ddf)
    (hdt : 0 ≤ cc.dt) (snow : Option ℝ → Option ℝ → E → P → Option (F × P)) (okE : E → Prop)
    (inv : P → Prop) (mass : P → ℝ) (loss : F → ℝ) (del : P → ℝ → Prop)
    (hsnow : ∀ s r e p f q, 0 ≤ s → 0 ≤ r → okE e → inv p → snow (some s) (some r) e p = some (f, q) →
      inv q ∧ ∃ d, del q d ∧ mass q + loss f + d = mass p + s + r)
    (is : List (PixelIn E)) : ∀ (st st' : Option ℝ × P) (fs : List (PixelFlux F)),
    inv st.2 → (∀ i ∈ is, Given i) → (∀ i ∈ is, okE i.snow) →
    (forest = true → CanopyOK st.1 is) → pixelRun forest cc snow is st = some (fs, st') →
    inv st'.2 ∧ fs.length = is.length ∧ (forest = true → ∃ l, st'.1 = some l ∧ 0 ≤ l) ∧
    (forest = false → st'.1 = st.1) ∧
    ∃ ds : List ℝ, ds.length = is.length ∧ (∀ d ∈ ds, ∃ q, inv q ∧ del q d) ∧
      stored forest st'.1 + mass st'.2 + total PixelFlux.canopySubl fs +
          (fs.map fun f => loss f.snow).sum + ds.sum =
        stored forest st.1 + mass st.2 + total (fun i : PixelIn E => i.above.precip) is := by
  induction is with
  | nil =>
    intro st st' fs hp _ _ hc h
    simp only [pixelRun, Option.some.injEq, Prod.mk.injEq] at h
    obtain ⟨rfl, rfl⟩ := h
    refine ⟨hp, rfl, fun hf => ?_, fun _ => rfl, [], rfl, by simp, by simp [total]⟩
    obtain ⟨⟨l, c1, c2, -⟩, -⟩ := hc hf
    exact ⟨l, c1, c2⟩
  | cons i is ih =>
    intro st st' fs hp hg he hc h
    simp only [pixelRun, Option.bind_eq_some_iff, Option.map_eq_some_iff] at h
    obtain ⟨⟨f, st1⟩, h1, ⟨fs', st2⟩, h2, h3⟩ := h
    simp only [Prod.mk.injEq] at h3
    obtain ⟨rfl, rfl⟩ := h3
    obtain ⟨k1, k2, k3, d, k4, k5⟩ := pixelStep_balance forest cc hddf hdt snow okE inv mass loss del
      hsnow i is st st1 f hp (hg i (by simp)) (he i (by simp)) hc h1
    obtain ⟨m1, m2, m3, m4, ds, m5, m6, m7⟩ := ih st1 st2 fs' k1
      (fun j hj => hg j (List.mem_cons_of_mem _ hj)) (fun j hj => he j (List.mem_cons_of_mem _ hj))
      k2 h2
    refine ⟨m1, by simp [m2], m3, fun hf => (m4 hf).trans (k3 hf), d :: ds, by simp [m5], ?_, ?_⟩
    · intro x hx
      rcases List.mem_cons.1 hx with rfl | hx
      · exact ⟨_, k1, k4⟩
      · exact m6 x hx
    · simp only [total, List.map_cons, List.sum_cons] at m7 ⊢
      linarith

/-- A run exists if every step of the snow model exists. -/
theorem pixelRun_defined {E F P : Type*} (forest : Bool) (cc : SnowCfg)
    (snow : Option ℝ → Option ℝ → E → P → Option (F × P)) (okE : E → Prop) (okS : Option ℝ → Prop)
    (okC : Option ℝ → List (PixelIn E) → Prop) (inv : P → Prop)
    (hsnow : ∀ s r e p, okS s → okS r → okE e → inv p → ∃ f q, snow s r e p = some (f, q) ∧ inv q)
    (hcan : ∀ load i is, okC load (i :: is) → okS i.above.rain ∧
      okS (if forest then (canopyStep cc i.canopy load i.above.snow i.above.rain).snowfall
        else i.above.snow) ∧
      okC (if forest then (canopyStep cc i.canopy load i.above.snow i.above.rain).load else load) is)
    (is : List (PixelIn E)) : ∀ st : Option ℝ × P, inv st.2 → (∀ i ∈ is, okE i.snow) →
    okC st.1 is → ∃ fs st', pixelRun forest cc snow is st = some (fs, st') := by
  induction is with
  | nil => intro st _ _ _; exact ⟨_, _, rfl⟩
  | cons i is ih =>
    intro st hp he hc
    obtain ⟨c1, c2, c3⟩ := hcan st.1 i is hc
    obtain ⟨f, q, h1, h2⟩ := hsnow _ _ i.snow st.2 c2 c1 (he i (by simp)) hp
    obtain ⟨fs, st', h3⟩ := ih (if forest then
      (canopyStep cc i.canopy st.1 i.above.snow i.above.rain).load else st.1, q) h2
      (fun j hj => he j (List.mem_cons_of_mem _ hj)) c3
    refine ⟨⟨if forest then (canopyStep cc i.canopy st.1 i.above.snow i.above.rain).subl else none,
      if forest then (canopyStep cc i.canopy st.1 i.above.snow i.above.rain).snowfall
        else i.above.snow, i.above.rain, f⟩ :: fs, st', ?_⟩
    simp only [pixelRun, pixelStep, h1, Option.map_some, Option.bind_some, h3]

/-- Assumptions on the inputs of the cryolayer model other than precipitation. -/
def CryoIn (lo : ℝ) (c : Cryo.Cfg ℝ) (e : Cryo.StepIn ℝ) : Prop :=
  Cryo.InOK (c.lwcMethod = .poreVolume) lo c.albMax { e with snowfall := none, rainfall := none }

theorem CryoIn.with {lo : ℝ} {c : Cryo.Cfg ℝ} {e : Cryo.StepIn ℝ} (h : CryoIn lo c e)
    {s r : Option ℝ} (hs : 0 ≤ s.getD 0) (hr : 0 ≤ r.getD 0) :
    Cryo.InOK (c.lwcMethod = .poreVolume) lo c.albMax { e with snowfall := s, rainfall := r } :=
  ⟨hs, hr, h.fresh, h.fresh1, h.compNew, h.compNew1, h.compOld, h.compOld1, h.aged⟩

/-- Assumptions on the inputs of the multilayer model other than precipitation. -/
def MultiIn (c : MultiLayer.Cfg ℝ) (e : MultiLayer.StepIn ℝ) : Prop :=
  MultiLayer.InOK c.lwcMethod { e with snowfall := none, rainfall := none }

/-! ## Properties -/

/-- **C108** with the cryolayer model: over any run of a pixel within or outside of the forest,
precipitation ends up as intercepted snow, SWE, canopy sublimation, sublimation and runoff. -/
theorem C108_cryo_run (forest : Bool) (cc : SnowCfg) (hddf : 0 ≤ cc.ddf) (hdt : 0 ≤ cc.dt) (lo : ℝ)
    (c : Cryo.Cfg ℝ) (hc : Cryo.CfgOK lo c) (is : List (PixelIn (Cryo.StepIn ℝ))) (load : Option ℝ)
    (p : Cryo.CPixel ℝ) (hp : Cryo.EndPixel (c.lwcMethod = .poreVolume) lo c.albMax p)
    (hg : ∀ i ∈ is, Given i) (he : ∀ i ∈ is, CryoIn lo c i.snow)
    (hcan : forest = true → CanopyOK load is) :
    ∃ fs load' q, pixelRun forest cc (cryo c) is (load, p) = some (fs, (load', q)) ∧
      fs.length = is.length ∧ (forest = true → ∃ l, load' = some l ∧ 0 ≤ l) ∧
      (forest = false → load' = load) ∧
      stored forest load + p.swe + total (fun i : PixelIn (Cryo.StepIn ℝ) => i.above.precip) is =
        stored forest load' + q.swe + total PixelFlux.canopySubl fs +
          (fs.map fun f => f.snow.sublimation).sum + (fs.map fun f => f.snow.runoff).sum := by
  have hdef : ∃ fs st', pixelRun forest cc (cryo c) is (load, p) = some (fs, st') := by
    refine pixelRun_defined forest cc (cryo c) (CryoIn lo c) (fun x => ∃ y, x = some y ∧ 0 ≤ y)
      (fun l js => (∀ j ∈ js, Given j) ∧ (forest = true → CanopyOK l js))
      (Cryo.EndPixel (c.lwcMethod = .poreVolume) lo c.albMax) ?_ ?_ is (load, p) hp he ⟨hg, hcan⟩
    · rintro s r e p ⟨s, rfl, hs⟩ ⟨r, rfl, hr⟩ he hp
      obtain ⟨f, q, k1, k2, -⟩ := Cryo.C33_step lo c { e with snowfall := some s, rainfall := some r } p
        hc (he.with hs hr) hp
      exact ⟨f, q, k1, k2⟩
    · rintro l i js ⟨g, k⟩
      obtain ⟨s, r, h1, h2, h3, h4, h5⟩ := g i (by simp)
      refine ⟨⟨r, h2, h5⟩, ?_, fun j hj => g j (List.mem_cons_of_mem _ hj), ?_⟩
      · cases forest with
        | false => exact ⟨s, by simpa using h1, h4⟩
        | true =>
          obtain ⟨⟨l, c1, c2, c3⟩, c4, c5⟩ := k rfl
          obtain ⟨c6, c7⟩ := c5 i (by simp)
          obtain ⟨l', s', u, w1, w2, w3, w4, w5, w6, w7⟩ := canopyStep_balance cc hddf hdt i.canopy l s
            (some r) c6 c2 (c3 i (by simp)) h4 c7
          exact ⟨s', by simp only [if_true, c1, h1, h2, w2], w7⟩
      · intro hf
        subst hf
        obtain ⟨⟨l, c1, c2, c3⟩, c4, c5⟩ := k rfl
        obtain ⟨c6, c7⟩ := c5 i (by simp)
        obtain ⟨l', s', u, w1, w2, w3, w4, w5, w6, w7⟩ := canopyStep_balance cc hddf hdt i.canopy l s
          (some r) c6 c2 (c3 i (by simp)) h4 c7
        rw [List.pairwise_cons] at c4
        simp only [if_true, c1, h1, h2, w1]
        exact ⟨⟨l', rfl, w5, fun j hj => w6.trans (c4.1 j hj)⟩, c4.2,
          fun j hj => c5 j (List.mem_cons_of_mem _ hj)⟩
  obtain ⟨fs, ⟨load', q⟩, hrun⟩ := hdef
  obtain ⟨-, k2, k3, k4, ds, -, k6, k7⟩ := pixelRun_balance forest cc hddf hdt (cryo c) (CryoIn lo c)
    (Cryo.EndPixel (c.lwcMethod = .poreVolume) lo c.albMax) Cryo.CPixel.swe
    (fun f => f.sublimation + f.runoff) (fun _ d => d = 0)
    (by
      intro s r e p f q hs hr he hp h
      obtain ⟨f', q', k1, k2, -, -, k3, -⟩ := Cryo.C33_step lo c
        { e with snowfall := some s, rainfall := some r } p hc (he.with hs hr) hp
      rw [cryo, k1, Option.some.injEq, Prod.mk.injEq] at h
      obtain ⟨rfl, rfl⟩ := h
      refine ⟨k2, 0, rfl, ?_⟩
      simp only [Option.getD_some] at k3
      rw [k3]; ring) is (load, p) (load', q) fs hp hg he hcan hrun
  have hds : ds.sum = 0 := List.sum_eq_zero fun d hd => (k6 d hd).choose_spec.2
  have hsum : (fs.map fun f : PixelFlux (Cryo.Fluxes ℝ) => f.snow.sublimation + f.snow.runoff).sum =
      (fs.map fun f => f.snow.sublimation).sum + (fs.map fun f => f.snow.runoff).sum := by
    rw [List.sum_map_add]
  rw [hsum] at k7
  exact ⟨fs, load', q, hrun, k2, k3, k4, by simp only [hds] at k7; linarith⟩

/-- **C108** with the multilayer model: the same up to the SWE of deleted snowpacks, which are thinner
than 1e-6 m; nothing else is lost and nothing gained. -/
theorem C108_multilayer_run (forest : Bool) (cc : SnowCfg) (hddf : 0 ≤ cc.ddf) (hdt : 0 ≤ cc.dt)
    (c : MultiLayer.Cfg ℝ) (hc : MultiLayer.CfgOK c) (is : List (PixelIn (MultiLayer.StepIn ℝ)))
    (load load' : Option ℝ) (p q : MultiLayer.Pixel ℝ) (fs : List (PixelFlux (MultiLayer.Fluxes ℝ)))
    (hp : PackOK c.lwcMethod c.minThickness.length p)
    (hg : ∀ i ∈ is, Given i) (he : ∀ i ∈ is, MultiIn c i.snow)
    (hcan : forest = true → CanopyOK load is)
    (h : pixelRun forest cc (multi c) is (load, p) = some (fs, (load', q))) :
    fs.length = is.length ∧ (forest = true → ∃ l, load' = some l ∧ 0 ≤ l) ∧
      (forest = false → load' = load) ∧
      ∃ deleted : List ℝ, deleted.length = is.length ∧
        (∀ d ∈ deleted, 0 ≤ d ∧ (c.lwcMethod = .poreVolume → d < iceDensity / 1000000)) ∧
        stored forest load + MultiLayer.swe p +
            total (fun i : PixelIn (MultiLayer.StepIn ℝ) => i.above.precip) is =
          stored forest load' + MultiLayer.swe q + total PixelFlux.canopySubl fs +
            (fs.map fun f => f.snow.sublimation).sum + (fs.map fun f => f.snow.runoff).sum +
            deleted.sum := by
  obtain ⟨-, k2, k3, k4, ds, k5, k6, k7⟩ := pixelRun_balance forest cc hddf hdt (multi c) (MultiIn c)
    (PackOK c.lwcMethod c.minThickness.length) MultiLayer.swe
    (fun f => f.sublimation + f.runoff)
    (fun _ d => 0 ≤ d ∧ (c.lwcMethod = .poreVolume → d < iceDensity / 1000000))
    (by
      intro s r e p f q hs hr he hp h
      obtain ⟨k1, -, -, -, d, k2, k3, k4, -⟩ := MultiLayer.C18_step_water_balance c hc
        { e with snowfall := some s, rainfall := some r }
        ⟨fun x hx => by simpa [← Option.some.inj hx] using hs,
          fun x hx => by simpa [← Option.some.inj hx] using hr,
          he.density_pos, he.density_le, he.demand, he.compaction⟩ p q f hp h
      refine ⟨k1, d, ⟨k3, k4⟩, ?_⟩
      simp only [Option.getD_some] at k2
      rw [k2]; ring) is (load, p) (load', q) fs hp hg he hcan h
  refine ⟨k2, k3, k4, ds, k5, fun d hd => (k6 d hd).choose_spec.2, ?_⟩
  rw [List.sum_map_add] at k7
  simp only at k7
  linarith

/-- The precipitation of a time step is given in the sense of C108 wherever precipitation is given
and no redistribution factor is applied, whatever the temperature. -/
theorem C108_precipitation (c : Precip.Cfg ℝ) (hsrf : c.hasSrf = false) (pxs : List (Precip.Px ℝ))
    (outs : List (Precip.Out ℝ)) (h : Precip.process c pxs = some outs) (k : ℕ) (p : Precip.Px ℝ)
    (o : Precip.Out ℝ) (hk : pxs[k]? = some p) (ho : outs[k]? = some o) (x : ℝ)
    (hx : p.precip = some x) (h0 : 0 ≤ x) {E : Type*} (i : PixelIn E) (hi : i.above = o) :
    Given i ∧ i.above.precip = some x := by
  obtain ⟨k1, -, k2⟩ := Precip.C10_balance c hsrf pxs outs h k p o hk ho
  obtain ⟨s, r, h1, h2, h3, h4⟩ := k2 x hx
  obtain ⟨h5, h6⟩ := h4 h0
  rw [Given, hi]
  exact ⟨⟨s, r, h1, h2, by rw [k1, hx, h3], h5, h6⟩, by rw [k1, hx]⟩

/-- One time step with missing precipitation or temperature (of a forest pixel) makes the
intercepted snow and the snowfall at the ground missing. -/
theorem C108_missing_step_witness (cc : SnowCfg) (i : CanopyIn) (load snowfall rainfall : Option ℝ)
    (h : load = none ∨ snowfall = none ∨ i.temp = none) :
    (canopyStep cc i load snowfall rainfall).load = none ∧
    (canopyStep cc i load snowfall rainfall).snowfall = none := by
  rcases h with h | h | h
  · simp [canopyStep, h]
  · simp [canopyStep, h]
  · simp [canopyStep, h]

/-- From then on the balance is wrong for good: in all later time steps the snowfall of this pixel is
lost, whatever the inputs are; only rain reaches the ground. -/
theorem C108_missing_false (cc : SnowCfg) (lo : ℝ) (c : Cryo.Cfg ℝ) (hc : Cryo.CfgOK lo c)
    (is : List (PixelIn (Cryo.StepIn ℝ))) : ∀ (p : Cryo.CPixel ℝ),
    Cryo.EndPixel (c.lwcMethod = .poreVolume) lo c.albMax p →
    (∀ i ∈ is, 0 ≤ i.above.rain.getD 0) → (∀ i ∈ is, CryoIn lo c i.snow) →
    ∃ fs q, pixelRun true cc (cryo c) is (none, p) = some (fs, (none, q)) ∧
      (∀ f ∈ fs, f.snowfall = none) ∧
      p.swe + total (fun i : PixelIn (Cryo.StepIn ℝ) => i.above.rain) is =
        q.swe + (fs.map fun f => f.snow.sublimation).sum + (fs.map fun f => f.snow.runoff).sum := by
  induction is with
  | nil => intro p _ _ _; exact ⟨[], p, rfl, by simp, by simp [total]⟩
  | cons i is ih =>
    intro p hp hr he
    obtain ⟨w1, w2⟩ := C108_missing_step_witness cc i.canopy none i.above.snow i.above.rain (Or.inl rfl)
    obtain ⟨f, q, k1, k2, -, -, k3, -⟩ := Cryo.C33_step lo c
      { i.snow with snowfall := none, rainfall := i.above.rain } p hc
      ((he i (by simp)).with (by simp) (hr i (by simp))) hp
    obtain ⟨fs, q', m1, m2, m3⟩ := ih q k2 (fun j hj => hr j (List.mem_cons_of_mem _ hj))
      (fun j hj => he j (List.mem_cons_of_mem _ hj))
    refine ⟨⟨(canopyStep cc i.canopy none i.above.snow i.above.rain).subl, none, i.above.rain, f⟩ :: fs,
      q', ?_, ?_, ?_⟩
    · simp only [pixelRun, pixelStep, if_true, w1, w2, cryo, k1, Option.map_some, Option.bind_some]
      rw [show pixelRun true cc (cryo c) is (none, q) = _ from m1]
      rfl
    · intro g hg
      rcases List.mem_cons.1 hg with rfl | hg
      · rfl
      · exact m2 g hg
    · simp only [total, List.map_cons, List.sum_cons, Option.getD_none] at m3 k3 ⊢
      linarith

/-! ## A concrete case: two forest time steps with snow and rain -/

/-- Default-like configuration. -/
noncomputable def exCfg : Cryo.Cfg ℝ :=
  { dt := 3600, albMax := 85 / 100, firnAlb := 4 / 10, iceAlb := 2 / 10, single := true,
    lwcMethod := .poreVolume, maxFrac := 1 / 10, oldDensity := 200, iceDens := 900,
    coldCapacity := 1 / 20, refreezeFactor := 1, ddf := 6, albFactor := 1 / 10,
    threshold := 27415 / 100 }

/-- Inputs of the snow model. -/
noncomputable def exSnow : Cryo.StepIn ℝ :=
  { snowfall := none, rainfall := none, freshDensity := 100, compNew := fun _ => 120,
    compOld := fun _ => 320, aged := fun a => a, melt := .energy 275 (some 200),
    moistureFlux := some (-1 / 100000), firnDate := false }

/-- 2 mm of snow and 1 mm of rain on a canopy with a capacity of 10 mm. -/
noncomputable def exIn : PixelIn (Cryo.StepIn ℝ) :=
  ⟨⟨some 2, some 1, some 3⟩, ⟨10, -1 / 1000000, some 275⟩, exSnow⟩

/-- 20 mm of new snow. -/
noncomputable def exPixel : Cryo.CPixel ℝ :=
  { new := { thick := 1 / 5, dens := some 100, ice := 19, lwc := 1, cc := 0, alb := some (8 / 10) },
    old := { thick := 0, dens := none, ice := 0, lwc := 0, cc := 0, alb := none },
    firn := { thick := 0, dens := none, ice := 0, lwc := 0, cc := 0, alb := none },
    ice := { thick := 0, dens := none, ice := 0, lwc := 0, cc := 0, alb := none },
    albedo := none }

/-- The hypotheses of C108 are met and the run moves water. -/
example : Cryo.CfgOK (55 / 100) exCfg ∧
    Cryo.EndPixel (exCfg.lwcMethod = .poreVolume) (55 / 100) exCfg.albMax exPixel ∧
    Given exIn ∧ CryoIn (55 / 100) exCfg exIn.snow ∧ CanopyOK (some 1) [exIn, exIn] := by
  refine ⟨?_, ?_, ⟨2, 1, rfl, rfl, by norm_num [exIn], by norm_num, by norm_num⟩, ?_, ?_⟩
  · constructor <;> norm_num [exCfg, waterDensity, iceDensity]
  · refine ⟨⟨⟨Or.inr ?_, ?_⟩, ?_, ?_⟩, ⟨⟨Or.inl ?_, ?_⟩, ?_, ?_⟩, ⟨Or.inl ?_, ?_⟩, ⟨Or.inl ?_, ?_⟩⟩ <;>
      norm_num [exPixel, exCfg, iceDensity]
  · refine ⟨by simp, by simp, by norm_num [exIn, exSnow], fun _ => ?_, fun L => ?_, fun _ L => ?_,
      fun L => ?_, fun _ L => ?_, fun a h1 h2 => ⟨a, rfl, h1, h2⟩⟩ <;>
      norm_num [exIn, exSnow, iceDensity]
  · refine ⟨⟨1, rfl, by norm_num, ?_⟩, ?_, ?_⟩
    · intro i hi; simp at hi; subst hi; norm_num [exIn]
    · simp [exIn]
    · intro i hi; simp at hi; subst hi; exact ⟨by norm_num [exIn], by simp [exIn]⟩

end Verif.PixelWater
