import Verif.Lemmas.DataFlow
import Mathlib.Data.Int.Notation

/-!
# C102: resetting state variables

The modules are arbitrary functions that respect the table of variables read and written in
`Model/DataFlow`.
-/

namespace Verif.DataFlow

open Var

/-- Variables that are not retained and set somewhere. -/
private def unretained (c : Cfg) : List Var :=
  ([false, true].flatMap fun y => (stepActs c y).flatMap fun a => a.writes ++ a.cond).filter
    (fun v => !retained c v) ++ [depth, areaFraction, sublimation, glacier]

private lemma idx_injective : Function.Injective Var.ctorIdx := by
  intro a b h
  cases a <;> cases b <;> first | rfl | exact absurd h (by decide)

private lemma mask_table : ∀ li mu ti ca ev gl : Bool,
    taintM Var.ctorIdx (mask Var.ctorIdx (unretained ⟨li, mu, ti, ca, ev, gl⟩))
      (stepActs ⟨li, mu, ti, ca, ev, gl⟩ false) ||| 2 ^ Var.ctorIdx glacier = 2 ^ Var.ctorIdx glacier := by
  decide +kernel

private lemma mask_table' : ∀ li mu ti ca ev : Bool,
    taintM Var.ctorIdx (mask Var.ctorIdx (unretained ⟨li, mu, ti, ca, ev, false⟩))
      (stepActs ⟨li, mu, ti, ca, ev, false⟩ true) ||| 2 ^ Var.ctorIdx glacier = 2 ^ Var.ctorIdx glacier := by
  decide +kernel

private lemma taint_table (li mu ti ca ev gl : Bool) : ∀ v ∈ taint (unretained ⟨li, mu, ti, ca, ev, gl⟩)
    (stepActs ⟨li, mu, ti, ca, ev, gl⟩ false), v = glacier :=
  taint_only idx_injective (mask_table li mu ti ca ev gl)

private lemma taint_table' (li mu ti ca ev : Bool) : ∀ v ∈ taint (unretained ⟨li, mu, ti, ca, ev, false⟩)
    (stepActs ⟨li, mu, ti, ca, ev, false⟩ true), v = glacier :=
  taint_only idx_injective (mask_table' li mu ti ca ev)

private lemma unretained_spec (c : Cfg) (v : Var) (hr : retained c v = false) (hv : v ∉ unretained c) :
    initialized c v = false ∧ ∀ y, ∀ a ∈ stepActs c y, v ∉ a.writes ∧ v ∉ a.cond := by
  unfold unretained at hv
  simp only [List.mem_append, not_or, List.mem_filter, List.mem_flatMap, not_and, hr] at hv
  obtain ⟨h1, h2⟩ := hv
  constructor
  · simp only [List.mem_cons, List.not_mem_nil, or_false, not_or] at h2
    obtain ⟨a, b, d, e⟩ := h2
    unfold initialized
    rw [hr]
    cases v <;> simp_all
  · intro y a ha
    have := fun hm => h1 ⟨y, by cases y <;> simp, a, ha, hm⟩ rfl
    constructor
    · exact fun h => this (Or.inl h)
    · exact fun h => this (Or.inr h)

/-- **C102 (resetting).** For every configuration, every behaviour of the modules that respects the variables
they read and write, and every number of time steps: a run with `reset_state_variables` has the same values
of all state variables, except the glacier ids, as a run without it — with the glacier model as long as no
mass balance year has ended. -/
theorem C102_partial {α : Type*} (c : Cfg) (yearEnd : ℕ → Bool) (missing : Var → α)
    (sem : ℕ → List (State Var α → State Var α))
    (hsem : ∀ n, List.Forall₂ Respects (stepActs c (yearEnd n)) (sem n)) (s0 : State Var α)
    (h0 : ∀ v, initialized c v = false → s0 v = missing v) (n : ℕ)
    (hg : c.glaciers = true → ∀ m < n, yearEnd m = false) (v : Var) (hv : v ≠ glacier) :
    run true (retained c) missing sem s0 n v = run false (retained c) missing sem s0 n v := by
  have htab : ∀ m < n, ∀ w ∈ taint (unretained c) (stepActs c (yearEnd m)), w = glacier := by
    intro m hm
    obtain ⟨li, mu, ti, ca, ev, gl⟩ := c
    cases gl with
    | true =>
      rw [hg rfl m hm]
      exact taint_table li mu ti ca ev true
    | false =>
      cases yearEnd m with
      | true => exact taint_table' li mu ti ca ev
      | false => exact taint_table li mu ti ca ev false
  cases n with
  | zero => rfl
  | succ n =>
    refine run_agree hsem (T0 := unretained c) ?_ n ?_ v ?_
    · intro w hr hw
      obtain ⟨h1, h2⟩ := unretained_spec c w hr hw
      exact ⟨h0 w h1, fun m => h2 (yearEnd m)⟩
    · intro m hm w hw
      rw [htab m (by omega) w hw]
      rfl
    · exact fun hm => hv (htab n (by omega) v hm)

/-- A module that sets its variables to a constant. -/
private def constAct {α : Type*} (k : α) (a : Act Var) : State Var α → State Var α :=
  fun s v => if v ∈ a.writes then k else s v

private lemma constAct_respects {α : Type*} (k : α) (a : Act Var) : Respects a (constAct k a) := by
  refine ⟨fun s v hv _ => if_neg hv, fun s s' _ => ⟨fun v hv => ?_, fun v _ he => ?_⟩⟩
  · simp [constAct, hv]
  · by_cases hv : v ∈ a.writes
    · simp [constAct, hv]
    · simpa [constAct, hv] using he

/-- The hypotheses are met by every configuration, e.g. with modules that set constants. -/
example (c : Cfg) (y : Bool) : List.Forall₂ Respects (stepActs c y) ((stepActs c y).map (constAct (1 : ℤ))) := by
  rw [List.forall₂_map_right_iff]
  exact List.forall₂_same.2 fun a _ => constAct_respects 1 a

/-- At the end of a mass balance year the ice of pixel 1 of glacier 1 melts. -/
private def meltGlacier : State Var ℤ → State Var ℤ := fun s v =>
  if v = ice then (if s glacier = 1 then 0 else s ice) else constAct 5 glacierEnd s v

private lemma meltGlacier_respects : Respects glacierEnd meltGlacier := by
  refine ⟨fun s v hv hc => ?_, fun s s' h => ⟨fun v hv => ?_, fun v hv => by simp [glacierEnd] at hv⟩⟩
  · have : v ≠ ice := by rintro rfl; simp [glacierEnd] at hv
    simp [meltGlacier, this, constAct, hv]
  · by_cases hi : v = ice
    · simp only [meltGlacier, hi, if_true]
      rw [h glacier (by simp [glacierEnd]), h ice (by simp [glacierEnd])]
    · simp [meltGlacier, hi, constAct, hv]

/-- **C102 fails with the glacier model**: the glacier ids are not retained but read at the end of every mass
balance year (glaciermodel.py lines 31, 71).  With a reset no pixel belongs to a glacier any more, and the
geometry is not updated: the ice, which is retained, differs. -/
theorem C102_glaciers_false : ∃ (c : Cfg) (yearEnd : ℕ → Bool) (missing : Var → ℤ)
    (sem : ℕ → List (State Var ℤ → State Var ℤ)) (s0 : State Var ℤ) (n : ℕ),
    (∀ n, List.Forall₂ Respects (stepActs c (yearEnd n)) (sem n)) ∧
    (∀ v, initialized c v = false → s0 v = missing v) ∧ retained c ice = true ∧
    run true (retained c) missing sem s0 n ice ≠ run false (retained c) missing sem s0 n ice := by
  let c : Cfg := ⟨false, false, false, false, false, true⟩
  let sem : List (State Var ℤ → State Var ℤ) :=
    ((stepActs c true).dropLast.map (constAct 5)) ++ [meltGlacier]
  refine ⟨c, fun _ => true, fun _ => -1, fun _ => sem, fun v => if v = glacier then 1 else -1, 1, ?_, ?_, rfl,
    ?_⟩
  · intro n
    have e : stepActs c true = (stepActs c true).dropLast ++ [glacierEnd] := rfl
    rw [e]
    refine List.rel_append ?_ (.cons meltGlacier_respects .nil)
    rw [List.forall₂_map_right_iff]
    exact List.forall₂_same.2 fun a _ => constAct_respects 5 a
  · intro v hv
    have : v ≠ glacier := by rintro rfl; simp [initialized] at hv
    simp [this]
  · have e1 : run true (retained c) (fun _ => (-1 : ℤ)) (fun _ => sem)
        (fun v => if v = glacier then 1 else -1) 1 ice = 5 := by decide +kernel
    have e2 : run false (retained c) (fun _ => (-1 : ℤ)) (fun _ => sem)
        (fun v => if v = glacier then 1 else -1) 1 ice = 0 := by decide +kernel
    rw [e1, e2]
    decide

end Verif.DataFlow
