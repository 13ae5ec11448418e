import Verif.Props.Comparison

/-!
# C154: once the snow is gone, what was before is forgotten
-/

set_option linter.unusedSectionVars false

namespace Verif.Forgetting

open Verif.Cryo

variable {K : Type*} [Field K] [LinearOrder K] [IsStrictOrderedRing K]

/-! ## Specification -/

/-- Specification: a pixel after `initialize` (`cryolayermodel.py:78-93`): nothing in any layer, no density, no albedo. -/
def bare : CPixel K where
  new := { thick := 0, ice := 0, lwc := 0, cc := 0, dens := none, alb := none }
  old := { thick := 0, ice := 0, lwc := 0, cc := 0, dens := none, alb := none }
  firn := { thick := 0, ice := 0, lwc := 0, cc := 0, dens := none, alb := none }
  ice := { thick := 0, ice := 0, lwc := 0, cc := 0, dens := none, alb := none }
  albedo := none

/-! ## Helper lemmas -/

/-- A layer with no content is the reset layer. -/
structure Tidy (L : CLayer K) : Prop where
  nn : 0 ≤ L.we
  empty : L.we ≤ 0 → L = emptyLayer

theorem tidy_empty : Tidy (emptyLayer : CLayer K) := ⟨by simp [emptyLayer, CLayer.we], fun _ => rfl⟩

theorem refresh_tidy {L M : CLayer K} (h : refresh L = some M) : Tidy M := by
  unfold refresh at h
  by_cases h0 : L.we ≤ 0
  · rw [if_pos h0] at h
    obtain rfl := Option.some.inj h
    exact tidy_empty
  · rw [if_neg h0] at h
    cases hd : L.dens with
    | none => simp [hd] at h
    | some d =>
      simp only [hd] at h
      by_cases hz : d = 0
      · simp [hz] at h
      · rw [if_neg hz] at h
        obtain rfl := Option.some.inj h
        have hp : 0 < L.we := not_le.1 h0
        exact ⟨hp.le, fun h' => absurd hp (not_lt.2 h')⟩

theorem transition_tidy {b : Bool} {s d s' d' : CLayer K} (hs : Tidy s) (hd : Tidy d)
    (h : transition b s d = some (s', d')) : Tidy s' ∧ Tidy d' := by
  cases b with
  | false =>
    simp only [transition, Bool.false_eq_true, if_false, Option.some.injEq, Prod.mk.injEq] at h
    obtain ⟨rfl, rfl⟩ := h
    exact ⟨hs, hd⟩
  | true =>
    simp only [transition, if_true] at h
    by_cases h1 : 0 < s.thick
    · rw [if_pos h1] at h
      by_cases h2 : 0 < d.thick
      · rw [if_pos h2] at h
        cases hm : mergeLayer s d with
        | none => simp [hm] at h
        | some m =>
          simp only [hm, Option.some.injEq, Prod.mk.injEq] at h
          obtain ⟨rfl, rfl⟩ := h
          refine ⟨tidy_empty, ?_⟩
          have hw : m.we = d.we + s.we := by
            simp only [mergeLayer] at hm
            by_cases g : s.we + d.we = 0
            · simp [g] at hm
            · rw [if_neg g] at hm
              split at hm
              · exact absurd hm (by simp)
              · split_ifs at hm
                obtain rfl := Option.some.inj hm
                simp only [CLayer.we]; ring
          have a := hs.nn; have b := hd.nn
          refine ⟨by rw [hw]; linarith, fun h0 => ?_⟩
          rw [hw] at h0
          have := hs.empty (by linarith)
          rw [this] at h1
          exact absurd h1 (lt_irrefl _)
      · rw [if_neg h2] at h
        by_cases h3 : d.thick = 0
        · rw [if_pos h3] at h
          obtain ⟨rfl, rfl⟩ := Prod.mk.inj (Option.some.inj h)
          exact ⟨tidy_empty, hs⟩
        · rw [if_neg h3] at h
          obtain ⟨rfl, rfl⟩ := Prod.mk.inj (Option.some.inj h)
          exact ⟨tidy_empty, hd⟩
    · rw [if_neg h1] at h
      obtain ⟨rfl, rfl⟩ := Prod.mk.inj (Option.some.inj h)
      exact ⟨tidy_empty, hd⟩

theorem updateLayers_tidy {od id : K} {fd : Bool} {p q : CPixel K} (h : updateLayers od id fd p = some q) :
    Tidy q.new ∧ Tidy q.old ∧ Tidy q.firn ∧ Tidy q.ice := by
  simp only [updateLayers, Option.bind_eq_bind, Option.bind_eq_some_iff] at h
  obtain ⟨n0, e1, o0, e2, f0, e3, i0, e4, ⟨n1, o1⟩, e5, ⟨o2, f1⟩, e6, ⟨f2, i1⟩, e7, hq⟩ := h
  obtain ⟨a, b⟩ := transition_tidy (refresh_tidy e1) (refresh_tidy e2) e5
  obtain ⟨c, d⟩ := transition_tidy b (refresh_tidy e3) e6
  obtain ⟨e, f⟩ := transition_tidy d (refresh_tidy e4) e7
  rw [← Option.some.inj hq]
  exact ⟨a, c, e, f⟩

/-- Layers between time steps without ice have no liquid water either. -/
theorem end_dry {L : CLayer K} (h : EndLayer L) (hi : L.ice = 0) : L.we = 0 := by
  rcases h.cons with ⟨-, b, c, -⟩ | ⟨a, -⟩
  · simp [CLayer.we, b, c]
  · exact absurd (h.ice a) (by rw [hi]; exact lt_irrefl _)

/-- A run of two parts. -/
theorem run_append (c : Cfg K) (es es2 : List (StepIn K)) (p q : CPixel K) (fs : List (Fluxes K))
    (h : run c es p = some (fs, q)) :
    run c (es ++ es2) p = (run c es2 q).map fun r => (fs ++ r.1, r.2) := by
  induction es generalizing p fs with
  | nil =>
    simp only [run, Option.some.injEq, Prod.mk.injEq] at h
    obtain ⟨rfl, rfl⟩ := h
    cases h2 : run c es2 p <;> simp [h2]
  | cons e es ih =>
    simp only [run] at h
    cases h1 : step c e p with
    | none => simp [h1] at h
    | some r =>
      obtain ⟨f, p'⟩ := r
      simp only [h1] at h
      cases h3 : run c es p' with
      | none => simp [h3] at h
      | some r2 =>
        obtain ⟨fs', q'⟩ := r2
        simp only [h3, Option.some.injEq, Prod.mk.injEq] at h
        obtain ⟨rfl, rfl⟩ := h
        have := ih p' fs' h3
        simp only [List.cons_append, run, h1, this]
        cases run c es2 q' <;> simp

/-! ## Theorems -/

/-- **C154, one step.** A pixel without ice after a time step is in every quantity as initialised. -/
theorem C154_reset (lo : K) (c : Cfg K) (e : StepIn K) (p q : CPixel K) (f : Fluxes K) (hc : CfgOK lo c)
    (he : InOK (c.lwcMethod = .poreVolume) lo c.albMax e)
    (hp : EndPixel (c.lwcMethod = .poreVolume) lo c.albMax p) (hs : step c e p = some (f, q)) (hq : q.iceSum = 0) :
    q = bare := by
  obtain ⟨f', q', e1, k, -, -, -, -, -, -, -, hal, -⟩ := C33_step lo c e p hc he hp
  rw [hs] at e1
  obtain ⟨rfl, rfl⟩ := Prod.mk.inj (Option.some.inj e1)
  have a1 := k.new.mid.nn.ice; have a2 := k.old.mid.nn.ice
  have a3 := k.firn.mid.nn.ice; have a4 := k.ice.mid.nn.ice
  simp only [CPixel.iceSum] at hq
  have z1 := end_dry k.new.toEndLayer (by linarith)
  have z2 := end_dry k.old.toEndLayer (by linarith)
  have z3 := end_dry k.firn (by linarith)
  have z4 := end_dry k.ice (by linarith)
  have hA := hal (by simp only [CPixel.swe, z1, z2, z3, z4, add_zero])
  simp only [step, Option.bind_eq_bind, Option.bind_eq_some_iff] at hs
  obtain ⟨p0, -, q', hu, hq'⟩ := hs
  obtain ⟨-, rfl⟩ := Prod.mk.inj (Option.some.inj hq')
  obtain ⟨t1, t2, t3, t4⟩ := updateLayers_tidy hu
  have b1 := t1.empty z1.le; have b2 := t2.empty z2.le
  have b3 := t3.empty z3.le; have b4 := t4.empty z4.le
  cases q'
  simp only at b1 b2 b3 b4 hA
  subst b1 b2 b3 b4 hA
  rfl

/-- The same after a run of at least one step. -/
theorem C154_end (lo : K) (c : Cfg K) (hc : CfgOK lo c) (es : List (StepIn K)) (hne : es ≠ []) (p q : CPixel K)
    (fs : List (Fluxes K)) (he : ∀ e ∈ es, InOK (c.lwcMethod = .poreVolume) lo c.albMax e)
    (hp : EndPixel (c.lwcMethod = .poreVolume) lo c.albMax p) (hr : run c es p = some (fs, q)) (hq : q.iceSum = 0) :
    q = bare := by
  induction es generalizing p fs with
  | nil => exact absurd rfl hne
  | cons e es ih =>
    obtain ⟨f, p', e1, hp', -⟩ := C33_step lo c e p hc (he e (by simp)) hp
    simp only [run, e1] at hr
    cases h3 : run c es p' with
    | none => simp [h3] at hr
    | some r2 =>
      obtain ⟨fs', q'⟩ := r2
      simp only [h3, Option.some.injEq, Prod.mk.injEq] at hr
      obtain ⟨-, rfl⟩ := hr
      by_cases hes : es = []
      · subst hes
        simp only [run, Option.some.injEq, Prod.mk.injEq] at h3
        obtain ⟨-, rfl⟩ := h3
        exact C154_reset lo c e p _ f hc (he e (by simp)) hp e1 hq
      · exact ih hes p' fs' (fun x hx => he x (by simp [hx])) hp' h3

/-- **C154.** Two runs with the same inputs `es ++ es2` from different states, both without ice after `es`, are
identical from then on: the same state after `es`, and after every continuation the same fluxes and the same state. -/
theorem C154_runs (lo : K) (c : Cfg K) (hc : CfgOK lo c) (es es2 : List (StepIn K)) (hne : es ≠ [])
    (p p' q q' : CPixel K) (fs fs' : List (Fluxes K))
    (he : ∀ e ∈ es ++ es2, InOK (c.lwcMethod = .poreVolume) lo c.albMax e)
    (hp : EndPixel (c.lwcMethod = .poreVolume) lo c.albMax p)
    (hp' : EndPixel (c.lwcMethod = .poreVolume) lo c.albMax p') (hr : run c es p = some (fs, q))
    (hr' : run c es p' = some (fs', q')) (hq : q.iceSum = 0) (hq' : q'.iceSum = 0) :
    q = q' ∧ ∃ gs r, run c (es ++ es2) p = some (fs ++ gs, r) ∧ run c (es ++ es2) p' = some (fs' ++ gs, r) := by
  have he1 : ∀ e ∈ es, InOK (c.lwcMethod = .poreVolume) lo c.albMax e := fun e h => he e (by simp [h])
  have b := C154_end lo c hc es hne p q fs he1 hp hr hq
  have b' := C154_end lo c hc es hne p' q' fs' he1 hp' hr' hq'
  obtain ⟨fs0, q0, h0, -, hend, -⟩ := C33_run lo c hc es p he1 hp
  rw [hr] at h0
  obtain ⟨-, rfl⟩ := Prod.mk.inj (Option.some.inj h0)
  obtain ⟨gs, r, e2, -⟩ := C33_run lo c hc es2 q (fun e h => he e (by simp [h])) hend
  refine ⟨b.trans b'.symm, gs, r, ?_, ?_⟩
  · rw [run_append c es es2 p q fs hr, e2]; rfl
  · rw [run_append c es es2 p' q' fs' hr', b', ← b, e2]; rfl

/-- **C154, temperature index.** With temperature-index melt the run that started with less ice is without ice as soon
as the other one is, so that the initial snow has no influence from then on. -/
theorem C154_index (lo : K) (c : Cfg K) (hc : CfgOK lo c) (hdt : 0 < c.dt) (hddf : 0 ≤ c.ddf) (haf : 0 ≤ c.albFactor)
    (es es2 : List (StepIn K)) (hne : es ≠ []) (hm : ∀ e ∈ es, ∃ T a sw, e.melt = .index .temperatureIndex T a sw)
    (p p' q : CPixel K) (fs : List (Fluxes K))
    (he : ∀ e ∈ es ++ es2, InOK (c.lwcMethod = .poreVolume) lo c.albMax e)
    (hp : EndPixel (c.lwcMethod = .poreVolume) lo c.albMax p)
    (hp' : EndPixel (c.lwcMethod = .poreVolume) lo c.albMax p') (hpp : p'.iceSum ≤ p.iceSum)
    (hr : run c es p = some (fs, q)) (hq : q.iceSum = 0) :
    ∃ fs' gs r, run c es p' = some (fs', q) ∧ run c (es ++ es2) p = some (fs ++ gs, r) ∧
      run c (es ++ es2) p' = some (fs' ++ gs, r) := by
  have he1 : ∀ e ∈ es, InOK (c.lwcMethod = .poreVolume) lo c.albMax e := fun e h => he e (by simp [h])
  have hh : List.Forall₂ Comparison.Harsher es es := by
    rw [List.forall₂_same]
    intro e h
    obtain ⟨T, a, sw, h'⟩ := hm e h
    exact ⟨le_rfl, le_rfl, .temperatureIndex, T, T, a, a, sw, sw, h', h', le_rfl, fun h => by cases h⟩
  obtain ⟨fs0, q0, fs', q', r0, r', -, -, hz⟩ := Comparison.C153_run lo lo c c hc hc hdt
    ⟨rfl, hddf, le_rfl, haf, le_rfl, le_rfl⟩ es es hh p p' he1 he1 hp hp' hpp
  rw [hr] at r0
  obtain ⟨-, rfl⟩ := Prod.mk.inj (Option.some.inj r0)
  obtain ⟨hqq, gs, r, s1, s2⟩ := C154_runs lo c hc es es2 hne p p' q q' fs fs' he hp hp' hr r' hq (hz hq)
  exact ⟨fs', gs, r, by rw [hqq]; exact r', s1, s2⟩

/-! ## Concrete case -/

/-- A warm day without precipitation removes a thin snow pack. -/
def exMelt : StepIn ℚ :=
  { Comparison.exEnh (1 / 2) with snowfall := none, melt := .index .temperatureIndex 280 (1 / 2) 200 }

example : (step Comparison.exEnhCfg exMelt Comparison.exDirty).map (fun r => r.2.iceSum) = some 0 ∧
    Comparison.exDirty.iceSum = 1 / 10 := by decide +kernel

end Verif.Forgetting
