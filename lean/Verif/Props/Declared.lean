import Verif.Model.DataFlow

/-!
# C120: state variables exist when they are used

The tables of variables read, set and declared are in `Model/DataFlow`.
-/

namespace Verif.DataFlow

open Var

private lemma table : ∀ li mu ti ca ev gl y : Bool, accepted ⟨li, mu, ti, ca, ev, gl⟩ = true →
    ∀ a ∈ stepActs ⟨li, mu, ti, ca, ev, gl⟩ y,
      (a.reads ++ a.writes ++ a.cond).all (declared ⟨li, mu, ti, ca, ev, gl⟩) = true := by
  decide +kernel

private lemma stepChecked_some {V α : Type*} {decl : V → Bool} :
    ∀ {as : List (Act V)} {fs : List (State V α → State V α)} {s : State V α},
      (∀ a ∈ as, (a.reads ++ a.writes ++ a.cond).all decl = true) → as.length = fs.length →
      stepChecked decl as fs s = some (step fs s)
  | [], [], s, _, _ => rfl
  | [], _ :: _, _, _, hl => by simp at hl
  | _ :: _, [], _, _, hl => by simp at hl
  | a :: as, f :: fs, s, h, hl => by
    unfold stepChecked
    rw [if_pos (h a (by simp)), stepChecked_some (fun b hb => h b (by simp [hb])) (by simpa using hl)]
    rfl

/-- **C120 (variables).** With every accepted configuration, at every time step, with every behaviour of the
modules: no module reads or sets a state variable that does not exist; the time step runs to its end. -/
theorem C120_variables {α : Type*} (c : Cfg) (hc : accepted c = true) (yearEnd : Bool)
    (fs : List (State Var α → State Var α)) (hfs : List.Forall₂ Respects (stepActs c yearEnd) fs)
    (s : State Var α) :
    stepChecked (declared c) (stepActs c yearEnd) fs s = some (step fs s) ∧
    ∀ a ∈ stepActs c yearEnd, ∀ v, v ∈ a.reads ∨ v ∈ a.writes ∨ v ∈ a.cond → declared c v = true := by
  obtain ⟨li, mu, ti, ca, ev, gl⟩ := c
  have ht := table li mu ti ca ev gl yearEnd hc
  refine ⟨stepChecked_some ht hfs.length_eq, fun a ha v hv => ?_⟩
  refine List.all_eq_true.mp (ht a ha) v ?_
  simp only [List.mem_append]
  tauto

example : accepted ⟨true, false, true, true, true, true⟩ = true ∧
    (stepActs ⟨true, false, true, true, true, true⟩ true).length = 22 := by decide +kernel

/-- **C120 (attributes).** With every accepted configuration, all submodules and methods of the snow model
that a time step calls exist. -/
theorem C120_attributes (c : Cfg) (hc : accepted c = true) : ∀ a ∈ used c, created c a = true := by
  obtain ⟨li, mu, ti, ca, ev, gl⟩ := c
  revert li mu ti ca ev gl
  decide +kernel

example : used ⟨true, false, true, true, true, true⟩ ≠ [] := by decide

/-- **C120 (validation).** The two combinations of options that the validation rejects are exactly those with
which a time step (of the end of a mass balance year) would fail: the glacier module needs variables of the
cryo layers, the multilayer model has no temperature index method. -/
theorem C120_validation (c : Cfg) :
    accepted c = true ↔
      (∀ a ∈ used c, created c a = true) ∧
      ∀ a ∈ stepActs c true, ∀ v, v ∈ a.reads ∨ v ∈ a.writes ∨ v ∈ a.cond → declared c v = true := by
  constructor
  · intro hc
    refine ⟨C120_attributes c hc, fun a ha v hv => ?_⟩
    obtain ⟨li, mu, ti, ca, ev, gl⟩ := c
    refine List.all_eq_true.mp (table li mu ti ca ev gl true hc a ha) v ?_
    simp only [List.mem_append]
    tauto
  · rintro ⟨h1, h2⟩
    by_contra hc
    obtain ⟨li, mu, ti, ca, ev, gl⟩ := c
    cases mu with
    | false => exact hc (by cases ti <;> cases gl <;> rfl)
    | true =>
      cases gl with
      | true =>
        have := h2 glacierEnd (by unfold stepActs; simp) coldContent (Or.inl (by decide))
        exact absurd this (by unfold declared; simp)
      | false =>
        cases ti with
        | true =>
          have := h1 .temperatureIndex (by unfold used; simp)
          exact absurd this (by unfold created; simp)
        | false => exact hc rfl

/-- The declarations do not contain everything: without land cover and glaciers a module that reads the
respective variables would fail. -/
example : declared ⟨false, true, false, false, false, false⟩ landCover = false ∧
    declared ⟨false, true, false, false, false, false⟩ coldContent = false ∧
    stepChecked (α := ℕ) (declared ⟨false, true, false, false, false, true⟩) [glacierEnd] [id]
      (fun _ => 0) = none := by
  refine ⟨rfl, rfl, ?_⟩
  unfold stepChecked
  exact if_neg (by decide)

end Verif.DataFlow
