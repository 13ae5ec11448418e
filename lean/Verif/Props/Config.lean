import Verif.Model.Config
import Mathlib.Tactic.Linarith
import Mathlib.Tactic.NormNum
import Mathlib.Tactic.FieldSimp
import Mathlib.Tactic.Ring
import Mathlib.Data.List.Nodup
import Mathlib.Data.List.MinMax

/-!
# C52-C55: configuration, logging, normalisation
-/

set_option linter.unusedSectionVars false

namespace Verif.Config

/-! ## C52 -/

section landcover

variable {C P V : Type*} [DecidableEq C] [DecidableEq P]

theorem ofItems_apply (ps : List (P × V)) (init : Params P V) (k : P)
    (hnd : (ps.map Prod.fst).Nodup) :
    ofItems ps init k = match ps.find? (fun kv => decide (kv.1 = k)) with
      | some kv => some kv.2
      | none => init k := by
  unfold ofItems
  induction ps generalizing init with
  | nil => rfl
  | cons p ps ih =>
    obtain ⟨h1, h2⟩ := List.nodup_cons.mp hnd
    rw [List.foldl_cons, ih _ h2]
    by_cases hk : p.1 = k
    · have hnone : ps.find? (fun kv => decide (kv.1 = k)) = none := by
        rw [List.find?_eq_none]
        intro x hx
        simp only [decide_eq_true_eq]
        intro e
        exact h1 (List.mem_map.mpr ⟨x, hx, by rw [e, hk]⟩)
      rw [hnone, List.find?_cons_of_pos (by simpa using hk)]
      simp [hk]
    · rw [List.find?_cons_of_neg (by simpa using hk)]
      cases ps.find? (fun kv => decide (kv.1 = k)) with
      | some kv => rfl
      | none => exact Function.update_of_ne (Ne.symm hk) _ _

/-- **C52.** Full description of the merged table (keys are unique in Python dicts): a class is
present iff it is in the defaults or given by the user; each parameter is the user's value if given for
that class, else the default one; classes without defaults have exactly the user's parameters. -/
theorem C52_merge (defaults : C → Option (Params P V)) (user : List (C × List (P × V)))
    (hu : (user.map Prod.fst).Nodup) (hp : ∀ u ∈ user, (u.2.map Prod.fst).Nodup) (c : C) :
    (∀ ps, (c, ps) ∈ user → ∃ m, mergeParams defaults user c = some m ∧
      ∀ k, (∀ v, (k, v) ∈ ps → m k = some v) ∧
        ((∀ v, (k, v) ∉ ps) → m k = (defaults c).bind fun d => d k)) ∧
    ((∀ ps, (c, ps) ∉ user) → mergeParams defaults user c = defaults c) := by
  have hitems : ∀ (ps : List (P × V)) (init : Params P V), (ps.map Prod.fst).Nodup → ∀ k,
      (∀ v, (k, v) ∈ ps → ofItems ps init k = some v) ∧
      ((∀ v, (k, v) ∉ ps) → ofItems ps init k = init k) := by
    intro ps init hnd k
    rw [ofItems_apply ps init k hnd]
    constructor
    · intro v hv
      cases hf : ps.find? (fun kv => decide (kv.1 = k)) with
      | none =>
        have := List.find?_eq_none.mp hf (k, v) hv
        simp at this
      | some kv =>
        have h1 := List.mem_of_find?_eq_some hf
        have h2 := List.find?_some hf
        simp only [decide_eq_true_eq] at h2
        have := List.inj_on_of_nodup_map hnd h1 hv h2
        rw [this]
    · intro hno
      cases hf : ps.find? (fun kv => decide (kv.1 = k)) with
      | none => rfl
      | some kv =>
        have h1 := List.mem_of_find?_eq_some hf
        have h2 := List.find?_some hf
        simp only [decide_eq_true_eq] at h2
        exact absurd (by rw [← h2]; exact h1) (hno kv.2)
  unfold mergeParams
  induction user generalizing defaults with
  | nil => simp
  | cons u us ih =>
    obtain ⟨c0, ps0⟩ := u
    obtain ⟨n1, n2⟩ := List.nodup_cons.mp hu
    rw [List.foldl_cons]
    obtain ⟨m0, hm0⟩ : ∃ m0, mergeClass defaults c0 ps0 = m0 := ⟨_, rfl⟩
    have ih' := ih m0 n2 (fun u hu => hp u (by simp [hu]))
    simp only [hm0]
    have hps0 := hp (c0, ps0) (by simp)
    have hc0 : ∃ m, m0 c0 = some m ∧ ∀ k, (∀ v, (k, v) ∈ ps0 → m k = some v) ∧
        ((∀ v, (k, v) ∉ ps0) → m k = (defaults c0).bind fun d => d k) := by
      rw [← hm0]
      unfold mergeClass
      cases hd : defaults c0 with
      | none =>
        refine ⟨_, Function.update_self .., fun k => ?_⟩
        exact hitems ps0 (fun _ => none) hps0 k
      | some d =>
        refine ⟨_, Function.update_self .., fun k => ?_⟩
        exact hitems ps0 d hps0 k
    have hother : ∀ c', c' ≠ c0 → m0 c' = defaults c' := by
      intro c' hne
      rw [← hm0]
      unfold mergeClass
      cases defaults c0 with
      | none => exact Function.update_of_ne hne _ _
      | some d => exact Function.update_of_ne hne _ _
    by_cases hc : c = c0
    · subst hc
      have hnot : ∀ ps, (c, ps) ∉ us := fun ps h => n1 (List.mem_map.mpr ⟨_, h, rfl⟩)
      have := ih'.2 hnot
      refine ⟨?_, ?_⟩
      · intro ps hmem
        have hps : ps = ps0 := by
          rcases List.mem_cons.mp hmem with h | h
          · simpa using h
          · exact absurd h (hnot ps)
        rw [hps, this]
        exact hc0
      · intro hno
        exact absurd (by simp) (hno ps0)
    · refine ⟨?_, ?_⟩
      · intro ps hmem
        have hin : (c, ps) ∈ us := by
          rcases List.mem_cons.mp hmem with h | h
          · simp only [Prod.mk.injEq] at h; exact absurd h.1 hc
          · exact h
        obtain ⟨m, h1, h2⟩ := ih'.1 ps hin
        refine ⟨m, h1, fun k => ?_⟩
        rw [← hother c hc]
        exact h2 k
      · intro hno
        rw [ih'.2 fun ps h => hno ps (by simp [h]), hother c hc]

/-- One parameter overridden, one kept, one class added. -/
example :
    let m := mergeParams (fun c : ℕ => if c = 1 then some fun p : ℕ => if p < 2 then some 10 else none
      else none) [(1, [(0, 5)]), (7, [(3, 8)])]
    ((m 1).bind (· 0), (m 1).bind (· 1), (m 7).bind (· 3), (m 7).bind (· 0), (m 2).isSome) =
      (some 5, some 10, some 8, none, false) := by decide

end landcover

/-! ## C53 -/

section validate

variable {K : Type*} [Field K] [LinearOrder K] [IsStrictOrderedRing K]

/-- Specification: what a configuration has to satisfy. -/
structure Acceptable (c : Cfg K) : Prop where
  order : c.start ≤ c.stop
  steps : ∃ n : ℤ, c.stop = c.start + n * c.dt
  projected : c.geographic = false
  writeFreq : 86400 < c.dt → ∃ w k : ℤ, c.writeFreq = some w ∧ w = k * c.dt
  multilayer : c.snow = .multilayer → c.melt = .energyBalance
  index : c.melt = .temperatureIndex → c.degreeDayFactor ≠ none
  enhanced : c.melt = .enhancedTemperatureIndex → c.degreeDayFactor ≠ none ∧ c.albedoFactor ≠ none
  glaciers : c.glaciers = true → c.snow = .cryolayers

theorem rejected_iff (c : Cfg K) (hdt : 0 < c.dt) : rejected c = false ↔ Acceptable c := by
  have hsteps : (c.stop - c.start) / c.dt * c.dt + c.start = c.stop ↔
      ∃ n : ℤ, c.stop = c.start + n * c.dt := by
    constructor
    · intro h
      exact ⟨(c.stop - c.start) / c.dt, by linarith⟩
    · rintro ⟨n, h⟩
      rw [h, add_sub_cancel_left, Int.mul_ediv_cancel _ hdt.ne']
      ring
  unfold rejected
  simp only [Bool.or_eq_false_iff]
  constructor
  · rintro ⟨⟨⟨⟨⟨⟨h1, h2⟩, h3⟩, h4⟩, h5⟩, h6⟩, h7⟩
    refine ⟨by simpa using h1, hsteps.mp (by simpa using h2), h3, ?_, ?_, ?_, ?_, ?_⟩
    · intro hlt
      simp only [hlt, decide_true, Bool.true_and] at h4
      cases hw : c.writeFreq with
      | none => rw [hw] at h4; simp at h4
      | some w =>
        rw [hw] at h4
        simp only [ne_eq, decide_eq_false_iff_not, not_not] at h4
        obtain ⟨k, hk⟩ := Int.dvd_of_emod_eq_zero h4
        exact ⟨w, k, rfl, by rw [hk]; ring⟩
    · intro hs
      simpa [hs] using h5
    · intro hm
      rw [hm] at h6
      intro e
      simp [e] at h6
    · intro hm
      rw [hm] at h6
      simp only [Bool.or_eq_false_iff] at h6
      refine ⟨?_, ?_⟩ <;> intro e <;> simp [e] at h6
    · intro hg
      simpa [hg] using h7
  · rintro ⟨h1, h2, h3, h4, h5, h6, h7, h8⟩
    refine ⟨⟨⟨⟨⟨⟨by simpa using h1, by simpa using hsteps.mpr h2⟩, h3⟩, ?_⟩, ?_⟩, ?_⟩, ?_⟩
    · by_cases hlt : 86400 < c.dt
      · obtain ⟨w, k, hw, hk⟩ := h4 hlt
        rw [hw]
        simp [hk]
      · simp [hlt]
    · by_cases hs : c.snow = .multilayer
      · simp [h5 hs]
      · simp [hs]
    · cases hm : c.melt with
      | energyBalance => rfl
      | temperatureIndex =>
        have := h6 hm
        cases hd : c.degreeDayFactor with
        | none => exact absurd hd this
        | some _ => rfl
      | enhancedTemperatureIndex =>
        obtain ⟨a, b⟩ := h7 hm
        cases hd : c.degreeDayFactor with
        | none => exact absurd hd a
        | some _ =>
          cases ha : c.albedoFactor with
          | none => exact absurd ha b
          | some _ => rfl
    · cases hg : c.glaciers with
      | false => rfl
      | true => simp [h8 hg]

/-- **C53.** The additional checks accept exactly the acceptable configurations (with non-zero decay
constants for the deprecated albedo method). -/
theorem C53_accepts (c : Cfg K) (hdt : 0 < c.dt) :
    (∃ c', validate c = .ok c') ↔
      Acceptable c ∧ (c.albedo.method = .usaco → c.albedo.kNeg ≠ 0 ∧ c.albedo.kPos ≠ 0) := by
  rw [← rejected_iff c hdt]
  unfold validate
  cases hr : rejected c with
  | true => simp
  | false =>
    simp only [Bool.false_eq_true, if_false, true_and]
    cases hm : c.albedo.method with
    | snowAge => simp [convertAlbedo, hm]
    | fsm => simp [convertAlbedo, hm]
    | usaco =>
      by_cases h : c.albedo.kNeg = 0 ∨ c.albedo.kPos = 0
      · simp only [convertAlbedo, hm, h, if_true, true_implies]
        constructor
        · rintro ⟨c', h'⟩; cases h'
        · rintro ⟨h1, h2⟩; rcases h with h | h <;> contradiction
      · simp only [convertAlbedo, hm, h, if_false, true_implies]
        push Not at h
        exact ⟨fun _ => h, fun _ => ⟨_, rfl⟩⟩

/-- **C53.** Validation is idempotent. -/
theorem C53_idempotent (c c' : Cfg K) (h : validate c = .ok c') : validate c' = .ok c' := by
  unfold validate at h
  cases hr : rejected c with
  | true => rw [hr] at h; simp at h
  | false =>
    rw [hr] at h
    simp only [Bool.false_eq_true, if_false] at h
    cases ha : convertAlbedo c.albedo with
    | none => rw [ha] at h; cases h
    | some a =>
      rw [ha] at h
      simp only [Except.ok.injEq] at h
      subst h
      have hmeth : a.method = .snowAge := by
        unfold convertAlbedo at ha
        split at ha
        · split_ifs at ha
          cases ha; rfl
        · cases ha; rfl
        · rename_i hm; cases ha; exact hm
      have ha' : convertAlbedo a = some a := by
        unfold convertAlbedo
        rw [hmeth]
      have ht : convertThreshold (convertThreshold c.threshold) = convertThreshold c.threshold := by
        unfold convertThreshold
        by_cases h20 : |c.threshold| < 20
        · rw [if_pos h20, if_neg]
          rw [not_lt]
          have := (abs_lt.mp h20).1
          exact le_trans (by unfold T0; linarith) (le_abs_self _)
        · rw [if_neg h20, if_neg h20]
      have hr' : rejected { c with threshold := convertThreshold c.threshold, albedo := a } = false := hr
      unfold validate
      rw [hr']
      simp only [Bool.false_eq_true, if_false, ha', ht]

/-- **C53.** What validation changes: a threshold within ±20 is taken as degrees Celsius and shifted
by 273.15, deprecated albedo methods become "snow_age" with time scales of 24 h divided by the decay
constants; nothing else. -/
theorem C53_changes (c c' : Cfg K) (h : validate c = .ok c') :
    c'.threshold = (if -20 < c.threshold ∧ c.threshold < 20 then c.threshold + 27315 / 100
      else c.threshold) ∧
    c'.albedo.method = .snowAge ∧
    (c.albedo.method = .snowAge → c'.albedo = c.albedo) ∧
    (c.albedo.method = .usaco → c'.albedo.cold * c.albedo.kNeg = 24 ∧
      c'.albedo.melting * c.albedo.kPos = 24 ∧ c'.albedo.temp = .air ∧
      c'.albedo.refreshSnowfall = c.albedo.significantSnowfall ∧ c'.albedo.refresh = .binary) ∧
    (c.albedo.method = .fsm → c'.albedo.cold = c.albedo.cold ∧ c'.albedo.melting = c.albedo.melting ∧
      c'.albedo.temp = .surface ∧ c'.albedo.refresh = .continuous) ∧
    { c' with threshold := c.threshold, albedo := c.albedo } = c := by
  unfold validate at h
  cases hr : rejected c with
  | true => rw [hr] at h; simp at h
  | false =>
    rw [hr] at h
    simp only [Bool.false_eq_true, if_false] at h
    cases ha : convertAlbedo c.albedo with
    | none => rw [ha] at h; cases h
    | some a =>
      rw [ha] at h
      simp only [Except.ok.injEq] at h
      subst h
      refine ⟨?_, ?_, ?_, ?_, ?_, rfl⟩
      · simp only [convertThreshold, abs_lt, T0]
      · unfold convertAlbedo at ha
        split at ha
        · split_ifs at ha
          cases ha; rfl
        · cases ha; rfl
        · rename_i hm; cases ha; exact hm
      · intro hm
        simp only [convertAlbedo, hm, Option.some.injEq] at ha
        exact ha.symm
      · intro hm
        simp only [convertAlbedo, hm] at ha
        split_ifs at ha with h0
        cases ha
        push Not at h0
        refine ⟨?_, ?_, rfl, rfl, rfl⟩
        · simp only; field_simp [h0.1]
        · simp only; field_simp [h0.2]
      · intro hm
        simp only [convertAlbedo, hm, Option.some.injEq] at ha
        subst ha
        exact ⟨rfl, rfl, rfl, rfl⟩

/-- **C53.** The coercions of deprecated names are idempotent and remove the deprecated names. -/
theorem C53_coercions {V : Type*} (s : List Char) (m : String) (d : String → Option V) :
    coerceTimestep (coerceTimestep s) = coerceTimestep s ∧
    (coerceTimestep s).length = s.length ∧ (coerceTimestep s).getLast? ≠ some 'H' ∧
    coerceSnowModel (coerceSnowModel m) = coerceSnowModel m ∧ coerceSnowModel m ≠ "layers" ∧
    coerceInterpolation (coerceInterpolation d) = coerceInterpolation d ∧
    coerceInterpolation d "wind_speed" = none ∧
    coerceInterpolation d "wind" = (d "wind_speed").or (d "wind") := by
  have h1 : (coerceTimestep s).getLast? ≠ some 'H' := by
    unfold coerceTimestep
    split_ifs with h
    · simp
    · exact h
  have h2 : coerceSnowModel m ≠ "layers" := by
    unfold coerceSnowModel
    split_ifs with h
    · decide
    · exact h
  have h3 : coerceInterpolation d "wind_speed" = none := by
    unfold coerceInterpolation
    cases h : d "wind_speed" with
    | none => exact h
    | some v => simp [Function.update]
  refine ⟨?_, ?_, h1, ?_, h2, ?_, h3, ?_⟩
  · rw [coerceTimestep.eq_1 (coerceTimestep s), if_neg h1]
  · unfold coerceTimestep
    split_ifs with h
    · have hne : s ≠ [] := by rintro rfl; simp at h
      have := List.length_pos_iff.mpr hne
      simp; omega
    · rfl
  · rw [coerceSnowModel.eq_1 (coerceSnowModel m), if_neg h2]
  · rw [coerceInterpolation.eq_1 (coerceInterpolation d), h3]
  · unfold coerceInterpolation
    cases h : d "wind_speed" with
    | none => simp
    | some v => simp [Function.update]

/-- **C53.** The cloudiness options: an error iff both names of the day method are given, otherwise no
deprecated name remains and the values are kept. -/
theorem C53_cloudiness {V : Type*} (d : String → Option V) :
    (coerceCloudiness d = none ↔ d "day_method" ≠ none ∧ d "method" ≠ none) ∧
    ∀ d', coerceCloudiness d = some d' →
      d' "day_method" = none ∧ d' "night_method" = none ∧
      d' "method" = (d "day_method").or (d "method") ∧
      d' "clear_sky_fraction_night_method" =
        (d "night_method").or (d "clear_sky_fraction_night_method") ∧
      coerceCloudiness d' = some d' := by
  cases hd : d "day_method" with
  | none =>
    cases hn : d "night_method" with
    | none =>
      simp only [coerceCloudiness, hd, hn, Option.map_some]
      refine ⟨by simp, ?_⟩
      intro d' h
      simp only [Option.some.injEq] at h
      subst h
      simp [hd, hn]
    | some w =>
      simp only [coerceCloudiness, hd, hn, Option.map_some]
      refine ⟨by simp, ?_⟩
      intro d' h
      simp only [Option.some.injEq] at h
      subst h
      simp [Function.update, hd]
  | some v =>
    cases hm : d "method" with
    | some w =>
      simp [coerceCloudiness, hd, hm]
    | none =>
      cases hn : d "night_method" with
      | none =>
        have e : coerceCloudiness d =
            some (Function.update (Function.update d "day_method" none) "method" (some v)) := by
          simp [coerceCloudiness, hd, hm, Function.update, hn]
        rw [e]
        refine ⟨by simp, ?_⟩
        intro d' h
        simp only [Option.some.injEq] at h
        subst h
        simp [coerceCloudiness, Function.update, hn]
      | some w =>
        have e : coerceCloudiness d =
            some (Function.update (Function.update (Function.update (Function.update d "day_method" none)
              "method" (some v)) "night_method" none) "clear_sky_fraction_night_method" (some w)) := by
          simp [coerceCloudiness, hd, hm, Function.update, hn]
        rw [e]
        refine ⟨by simp, ?_⟩
        intro d' h
        simp only [Option.some.injEq] at h
        subst h
        simp [coerceCloudiness, Function.update]

/-- A configuration with the deprecated albedo method and a threshold in degrees Celsius. -/
example :
    let c : Cfg ℚ := ⟨0, 21600, 10800, false, none, .cryolayers, .temperatureIndex, some 5, none, 1,
      ⟨.usaco, 12 / 100, 5 / 100, 0, 0, .surface, 0, 1 / 2, .continuous⟩, true⟩
    rejected c = false ∧ convertThreshold c.threshold = 27415 / 100 ∧
      (convertAlbedo c.albedo).map (·.cold) = some 480 := by
  refine ⟨by decide, ?_, ?_⟩ <;> norm_num [convertAlbedo, convertThreshold, T0]

end validate

/-! ## C54 -/

/-- Number of default handlers. -/
def defaults (l : Logger) : ℕ := (l.handlers.filter fun h => decide (h = .default)).length

/-- Handlers of the host (including null handlers), in order. -/
def hostHandlers (l : Logger) : List Handler := l.handlers.filter fun h => decide (h ≠ .default)

theorem filter_filter_default (hs : List Handler) :
    (hs.filter fun h => decide (h ≠ .default)).filter (fun h => decide (h = .default)) = [] := by
  rw [List.filter_eq_nil_iff]
  intro h hm
  have := (List.mem_filter.mp hm).2
  simpa using this

/-- **C54.** After configuring: the handlers of the host are untouched; a default handler is attached
— exactly one — iff default logging is enabled and the host has no handler besides null handlers. -/
theorem C54_configure (enabled : Bool) (level : ℕ) (l : Logger) :
    hostHandlers (configure enabled level l) = hostHandlers l ∧
    defaults (configure enabled level l) =
      (if enabled ∧ ∀ h ∈ l.handlers, h = .null ∨ h = .default then 1 else 0) := by
  have hhost : ((l.handlers.filter fun h => decide (h ≠ .default)).filter
      fun h => decide (h ≠ .null)) = [] ↔ ∀ h ∈ l.handlers, h = .null ∨ h = .default := by
    rw [List.filter_eq_nil_iff]
    constructor
    · intro h x hx
      by_cases hd : x = .default
      · exact Or.inr hd
      · left
        have := h x (List.mem_filter.mpr ⟨hx, by simpa using hd⟩)
        simpa using this
    · intro h x hx
      obtain ⟨h1, h2⟩ := List.mem_filter.mp hx
      rcases h x h1 with e | e
      · simp [e]
      · simp [e] at h2
  unfold configure hostHandlers defaults
  simp only
  by_cases hc : ((l.handlers.filter fun h => decide (h ≠ .default)).filter
      fun h => decide (h ≠ .null)) = []
  · have hall := hhost.mp hc
    rw [if_pos hc]
    cases enabled with
    | true =>
      simp only [if_true]
      refine ⟨by simp [List.filter_append, List.filter_filter], ?_⟩
      rw [List.filter_append, filter_filter_default, if_pos ⟨trivial, hall⟩]
      rfl
    | false =>
      simp only [Bool.false_eq_true, if_false, false_and]
      refine ⟨by simp [List.filter_filter], ?_⟩
      rw [filter_filter_default]
      rfl
  · have hall : ¬ ∀ h ∈ l.handlers, h = .null ∨ h = .default := fun h => hc (hhost.mpr h)
    rw [if_neg hc, if_neg (fun h => hall h.2)]
    refine ⟨by simp [List.filter_filter], ?_⟩
    rw [filter_filter_default]
    rfl

/-- **C54.** The logger's level is the configured one with the default handler, left alone if the host has a handler
besides null handlers, and inherited otherwise. -/
theorem C54_level (enabled : Bool) (level : ℕ) (l : Logger) :
    ((∃ h ∈ l.handlers, h ≠ .null ∧ h ≠ .default) → (configure enabled level l).level = l.level) ∧
    ((∀ h ∈ l.handlers, h = .null ∨ h = .default) →
      (configure enabled level l).level = if enabled then some level else none) := by
  have hhost : ((l.handlers.filter fun h => decide (h ≠ .default)).filter
      fun h => decide (h ≠ .null)) = [] ↔ ∀ h ∈ l.handlers, h = .null ∨ h = .default := by
    rw [List.filter_filter, List.filter_eq_nil_iff]
    refine forall₂_congr fun x _ => ?_
    by_cases h1 : x = .null <;> by_cases h2 : x = .default <;> simp [h1, h2]
  constructor
  · rintro ⟨h, hm, h1, h2⟩
    have hne : ¬ ((l.handlers.filter fun h => decide (h ≠ .default)).filter fun h => decide (h ≠ .null)) = [] := by
      rw [hhost]
      exact fun hall => (hall h hm).elim h1 h2
    simp only [configure, hne, if_false]
  · intro hall
    simp only [configure, hhost.2 hall, if_true]
    cases enabled <;> rfl

example : (configure true 3 ⟨[.host 1], some 7⟩).level = some 7 ∧ (configure true 3 ⟨[.null], some 7⟩).level = some 3 :=
  ⟨by decide, by decide⟩

/-- **C54.** Repeating the configuration changes nothing. -/
theorem C54_idempotent (enabled : Bool) (level : ℕ) (l : Logger) :
    configure enabled level (configure enabled level l) = configure enabled level l := by
  obtain ⟨r, hr⟩ : ∃ r, (l.handlers.filter fun h => decide (h ≠ .default)) = r := ⟨_, rfl⟩
  have hrr : r.filter (fun h => decide (h ≠ .default)) = r := by
    rw [← hr, List.filter_filter]; simp
  unfold configure
  simp only [hr]
  by_cases hc : (r.filter fun h => decide (h ≠ .null)) = []
  · simp only [hc, if_true]
    cases enabled with
    | true =>
      have e1 : (r ++ [Handler.default]).filter (fun h => decide (h ≠ .default)) = r := by
        rw [List.filter_append, hrr]; simp
      simp only [if_true, e1, hc]
    | false =>
      simp only [Bool.false_eq_true, if_false, hrr, hc, if_true]
  · simp only [hc, if_false, hrr]

/-- **C54.** Over every sequence of configurations by models and changes by the host there is at most
one default handler, starting with none. -/
theorem C54_at_most_one (ops : List LogOp) (hops : ∀ o ∈ ops, o.legal = true) (l : Logger)
    (h : defaults l ≤ 1) : defaults (ops.foldl logStep l) ≤ 1 := by
  induction ops generalizing l with
  | nil => exact h
  | cons o ops ih =>
    rw [List.foldl_cons]
    apply ih (fun o' h' => hops o' (by simp [h']))
    have hl := hops o (by simp)
    cases o with
    | configure e lv =>
      rw [logStep, (C54_configure e lv l).2]
      split_ifs <;> omega
    | hostAdd x =>
      have hx : x ≠ .default := by simpa [LogOp.legal] using hl
      unfold defaults logStep
      rw [List.filter_append]
      simpa [hx, defaults] using h
    | hostRemove i =>
      refine le_trans ?_ h
      unfold defaults logStep
      simp only [List.filter_filter]
      apply List.Sublist.length_le
      apply List.monotone_filter_right
      intro x hx
      simp only [Bool.and_eq_true, decide_eq_true_eq] at hx ⊢
      exact hx.1

/-- **C54.** Within one process a model configures logging at most once: a handler attached by the
host or another model afterwards stays. -/
theorem C54_once (enabled : Bool) (level pid : ℕ) (l l' : Logger) (p : Option ℕ) :
    (ensure enabled level pid (l, p)).2 = some pid ∧
    ensure enabled level pid (l', (ensure enabled level pid (l, p)).2) = (l', some pid) := by
  have h1 : (ensure enabled level pid (l, p)).2 = some pid := by
    unfold ensure
    split_ifs with h
    · rfl
    · simpa using h
  refine ⟨h1, ?_⟩
  rw [h1]
  simp [ensure]

/-- A null handler does not count as a configured host; a host handler does. -/
example : configure true 20 ⟨[.null], none⟩ = ⟨[.null, .default], some 20⟩ ∧
    configure true 20 ⟨[.host 1, .default], some 30⟩ = ⟨[.host 1], some 30⟩ := by decide

/-! ## C55 -/

section normalize

variable {K : Type*} [Field K] [LinearOrder K] [IsStrictOrderedRing K]

/-- **C55.** Full description for data with two different values: with `a` the minimum and `b` the
maximum, missing values stay missing, `a` maps to `mn`, `b` to `mx`, and everything is mapped affinely
with values between `mn` and `mx` (`mn ≤ mx`). -/
theorem C55_normalize (data : List (Option K)) (mn mx a b : K)
    (ha : some a ∈ data) (hb : some b ∈ data)
    (hmin : ∀ x, some x ∈ data → a ≤ x) (hmax : ∀ x, some x ∈ data → x ≤ b) (hab : a ≠ b) :
    ∃ out, normalize data mn mx = some out ∧ out.length = data.length ∧
      ∀ i : ℕ, (data[i]? = some none → out[i]? = some none) ∧
        ∀ x, data[i]? = some (some x) → ∃ y, out[i]? = some (some y) ∧
          (y - mn) * (b - a) = (mx - mn) * (x - a) ∧ (x = a → y = mn) ∧ (x = b → y = mx) ∧
          (mn ≤ mx → mn ≤ y ∧ y ≤ mx) := by
  have hv : ∀ x, x ∈ data.filterMap id ↔ some x ∈ data := by
    intro x; simp
  have h1 : (data.filterMap id).min? = some a := by
    rw [List.min?_eq_some_iff]
    exact ⟨(hv a).mpr ha, fun x hx => hmin x ((hv x).mp hx)⟩
  have h2 : (data.filterMap id).max? = some b := by
    rw [List.max?_eq_some_iff]
    exact ⟨(hv b).mpr hb, fun x hx => hmax x ((hv x).mp hx)⟩
  have hlt : 0 < b - a := sub_pos.mpr (lt_of_le_of_ne (hmin b hb) hab)
  simp only [normalize, h1, h2]
  rw [if_neg hlt.ne']
  refine ⟨_, rfl, by simp, fun i => ⟨?_, ?_⟩⟩
  · intro h
    rw [List.getElem?_map, h]; rfl
  · intro x h
    have hx := List.mem_of_getElem? h
    have hxa := hmin x hx
    have hxb := hmax x hx
    refine ⟨mn + (mx - mn) / (b - a) * (x - a), by rw [List.getElem?_map, h]; rfl, ?_, ?_, ?_, ?_⟩
    · field_simp
      ring
    · rintro rfl; ring
    · rintro rfl
      field_simp
      ring
    · intro hle
      have hs : 0 ≤ (mx - mn) / (b - a) := div_nonneg (by linarith) hlt.le
      have e : (mx - mn) / (b - a) * (b - a) = mx - mn := div_mul_cancel₀ _ hlt.ne'
      constructor <;> nlinarith

/-- **C55.** For constant data, or without any value, nothing is defined. -/
theorem C55_constant_false (data : List (Option K)) (mn mx : K)
    (h : ∀ x y, some x ∈ data → some y ∈ data → x = y) : normalize data mn mx = none := by
  have hv : ∀ x, x ∈ data.filterMap id ↔ some x ∈ data := by
    intro x; simp
  simp only [normalize]
  cases h1 : (data.filterMap id).min? with
  | none => simp
  | some a =>
    cases h2 : (data.filterMap id).max? with
    | none => simp
    | some b =>
      have ha := (hv a).mp (List.min?_eq_some_iff.mp h1).1
      have hb := (hv b).mp (List.max?_eq_some_iff.mp h2).1
      simp [h a b ha hb]

example : normalize [some 2, none, some 4, some (3 : ℚ)] 0 10 =
    some [some 0, none, some 10, some 5] := by
  norm_num [normalize, List.filterMap, List.min?, List.max?]

end normalize

end Verif.Config
