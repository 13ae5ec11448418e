import Verif.Model.StateVars
import Mathlib.Data.String.Basic
import Mathlib.Tactic.Common

/-!
# C06, C07: reset of state variables, categories
-/

namespace Verif.StateVars

variable {α : Type*}

/-! ## C06 -/

/-- Specification: the value of a cleared cell. -/
def noData : DType → Val α
  | .float => .nan
  | .int => .int 0
  | .bool => .bool false

/-- Specification: what a reset has to do with one variable. -/
def Cleared (v w : Var α) : Prop :=
  w.name = v.name ∧ w.dtype = v.dtype ∧ w.retain = v.retain ∧ w.data.length = v.data.length ∧
    if v.retain then w.data = v.data else ∀ x ∈ w.data, x = noData v.dtype

/-- **C06 (partial).** The full claim — reset clears every variable that is not retained and keeps
the others — holds if no variable of type bool is subject to the reset; for those the call
raises (`C06_bool_false`). No such variable is declared in the code base. -/
theorem C06_reset_partial (vs : List (Var α)) (h : ∀ v ∈ vs, v.retain = false → v.dtype ≠ .bool) :
    (reset vs).2 = true ∧ List.Forall₂ Cleared vs (reset vs).1 := by
  induction vs with
  | nil => exact ⟨rfl, List.Forall₂.nil⟩
  | cons v vs ih =>
    obtain ⟨h1, h2⟩ := ih fun w hw => h w (List.mem_cons_of_mem _ hw)
    have hv := h v List.mem_cons_self
    unfold reset
    cases hr : v.retain with
    | true =>
      simp only [if_true]
      refine ⟨h1, List.Forall₂.cons ⟨rfl, rfl, rfl, rfl, ?_⟩ h2⟩
      simp [hr]
    | false =>
      have hb := hv hr
      cases hd : v.dtype with
      | bool => exact absurd hd hb
      | float =>
        refine ⟨h1, List.Forall₂.cons ⟨rfl, hd.symm ▸ rfl, hr.symm ▸ rfl, by simp, ?_⟩ h2⟩
        simp only [hr, hd, Bool.false_eq_true, if_false, noData]
        intro x hx
        exact List.eq_of_mem_replicate hx
      | int =>
        refine ⟨h1, List.Forall₂.cons ⟨rfl, hd.symm ▸ rfl, hr.symm ▸ rfl, by simp, ?_⟩ h2⟩
        simp only [hr, hd, Bool.false_eq_true, if_false, noData]
        intro x hx
        exact List.eq_of_mem_replicate hx

/-- **C06.** With a non-retained bool variable the reset raises, and neither it nor any later
variable is cleared. -/
theorem C06_bool_false (pre post : List (Var α)) (v : Var α)
    (hpre : ∀ w ∈ pre, w.retain = false → w.dtype ≠ .bool) (hr : v.retain = false)
    (hb : v.dtype = .bool) :
    reset (pre ++ v :: post) = ((reset pre).1 ++ v :: post, false) := by
  induction pre with
  | nil => simp [reset, hr, hb, initVal]
  | cons w ws ih =>
    have ih' := ih fun x hx => hpre x (List.mem_cons_of_mem _ hx)
    have hw := hpre w List.mem_cons_self
    rw [List.cons_append]
    cases hwr : w.retain with
    | true => simp [reset, hwr, ih']
    | false =>
      cases hd : w.dtype with
      | bool => exact absurd hd (hw hwr)
      | float => simp [reset, hwr, hd, initVal, ih']
      | int => simp [reset, hwr, hd, initVal, ih']

/-- **C06.** Resetting twice is the same as resetting once. -/
theorem C06_idempotent (vs : List (Var α)) : reset (reset vs).1 = reset vs := by
  induction vs with
  | nil => rfl
  | cons v vs ih =>
    cases hr : v.retain with
    | true => simp [reset, hr, ih]
    | false =>
      cases hd : v.dtype with
      | bool => simp [reset, hr, hd, initVal]
      | float => simp [reset, hr, hd, initVal, ih]
      | int => simp [reset, hr, hd, initVal, ih]

/-- **C06.** Retained variables are unchanged and variables are neither added nor removed, also if
the call raises. -/
theorem C06_retained (vs : List (Var α)) :
    List.Forall₂ (fun v w => w.name = v.name ∧ w.dtype = v.dtype ∧ w.retain = v.retain ∧
      (v.retain = true → w = v)) vs (reset vs).1 := by
  induction vs with
  | nil => exact List.Forall₂.nil
  | cons v vs ih =>
    have self : List.Forall₂ (fun v w : Var α => w.name = v.name ∧ w.dtype = v.dtype ∧
        w.retain = v.retain ∧ (v.retain = true → w = v)) vs vs := by
      apply List.forall₂_same.mpr
      intro x _
      exact ⟨rfl, rfl, rfl, fun _ => rfl⟩
    unfold reset
    cases hr : v.retain with
    | true => exact List.Forall₂.cons ⟨rfl, rfl, rfl, fun _ => rfl⟩ ih
    | false =>
      cases hd : v.dtype with
      | bool => exact List.Forall₂.cons ⟨rfl, rfl, rfl, fun _ => rfl⟩ self
      | float => exact List.Forall₂.cons ⟨rfl, hd.symm ▸ rfl, hr.symm ▸ rfl,
          fun h => absurd (hr ▸ h) (by simp)⟩ ih
      | int => exact List.Forall₂.cons ⟨rfl, hd.symm ▸ rfl, hr.symm ▸ rfl,
          fun h => absurd (hr ▸ h) (by simp)⟩ ih

/-- Three variables as declared by the snow and glacier models. -/
def exVars : List (Var ℕ) :=
  [⟨"swe", .float, true, [.flt 3, .flt 4]⟩, ⟨"melt", .float, false, [.flt 1, .nan]⟩,
   ⟨"glacier", .int, false, [.int 7, .int 0]⟩]

example : ∀ v ∈ exVars, v.retain = false → v.dtype ≠ .bool := by decide
example : reset exVars = ([⟨"swe", .float, true, [.flt 3, .flt 4]⟩,
    ⟨"melt", .float, false, [.nan, .nan]⟩, ⟨"glacier", .int, false, [.int 0, .int 0]⟩], true) := by
  decide
example : (reset ([⟨"m", .bool, false, [.bool true]⟩] : List (Var ℕ))).2 = false := by decide

/-! ## C07 -/

/-- Specification: the manager's list of categories is in order. -/
def InOrder (cats : List String) : Prop := cats.Pairwise (· < ·)

theorem sort_spec (l : List String) :
    (l.mergeSort (fun a b => decide (a ≤ b))).Pairwise (· ≤ ·) ∧
      (l.mergeSort (fun a b => decide (a ≤ b))).Perm l := by
  refine ⟨?_, List.mergeSort_perm _ _⟩
  have h := List.pairwise_mergeSort (le := fun a b : String => decide (a ≤ b))
    (fun a b c h1 h2 => by simp only [decide_eq_true_eq] at *; exact le_trans h1 h2)
    (fun a b => by simp only [Bool.or_eq_true, decide_eq_true_eq]; exact le_total a b) l
  exact h.imp (by simp)

/-- **C07.** A rejected name changes nothing and is one that exists already or is no identifier. -/
theorem C07_rejected (ident : String → Bool) (cats : List String) (c : String) :
    ((addCategory ident cats c).2 = .categoryError ↔ c ∈ cats ∨ ident c = false) ∧
    ((addCategory ident cats c).2 = .categoryError → (addCategory ident cats c).1 = cats) := by
  simp only [addCategory]
  by_cases h1 : c ∈ cats
  · simp [h1]
  · cases h2 : ident c with
    | false => simp [h1]
    | true =>
      simp only [h1, if_false, Bool.not_true, Bool.false_eq_true]
      by_cases h3 : c = "categories"
      · simp [h3]
      · by_cases h4 : c = "_categories"
        · simp [h4]
        · simp [h3, h4]

theorem add_inOrder (ident : String → Bool) (cats : List String) (c : String) (h : InOrder cats) :
    InOrder (addCategory ident cats c).1 := by
  simp only [addCategory]
  by_cases h1 : c ∈ cats
  · simpa [h1] using h
  · cases h2 : ident c with
    | false => simpa [h1] using h
    | true =>
      simp only [h1, if_false, Bool.not_true, Bool.false_eq_true]
      have key : InOrder ((cats ++ [c]).mergeSort (fun a b => decide (a ≤ b))) := by
        obtain ⟨hs, hp⟩ := sort_spec (cats ++ [c])
        have hnd : (cats ++ [c]).Nodup := by
          rw [List.nodup_append]
          refine ⟨h.imp ne_of_lt, by simp, ?_⟩
          intro a ha b hb
          rw [List.mem_singleton] at hb
          subst hb
          intro e
          exact h1 (e ▸ ha)
        have hnd' := hp.nodup_iff.mpr hnd
        exact (hs.and hnd').imp fun ⟨a, b⟩ => lt_of_le_of_ne a b
      by_cases h3 : c = "categories"
      · rw [if_pos h3]; exact key
      · rw [if_neg h3]
        by_cases h4 : c = "_categories"
        · rw [if_pos h4]
          simp only [InOrder, List.pairwise_cons, List.mem_singleton, forall_eq]
          refine ⟨by decide, by simp⟩
        · rw [if_neg h4]; exact key

/-- **C07 (partial).** After any sequence of calls the categories are sorted and without
duplicates, and — if no call uses the name `_categories` — they are exactly the initial ones and
the distinct identifiers passed. Missing: for the name `_categories` the list of categories is lost
(`C07_overwrite_witness`), and for the name `categories` a call raises although it adds the name
(`C07_raise_witness`). -/
theorem C07_categories_partial (ident : String → Bool) (cats cs : List String) (h : InOrder cats) :
    InOrder (addAll ident cats cs) ∧
    ("_categories" ∉ cs → ∀ c, c ∈ addAll ident cats cs ↔ c ∈ cats ∨ (c ∈ cs ∧ ident c = true)) := by
  unfold addAll
  induction cs generalizing cats with
  | nil => simpa using h
  | cons a cs ih =>
    rw [List.foldl_cons]
    obtain ⟨h1, h2⟩ := ih _ (add_inOrder ident cats a h)
    refine ⟨h1, fun hn c => ?_⟩
    have hn1 : a ≠ "_categories" := fun e => hn (by simp [e])
    have hn2 : "_categories" ∉ cs := fun e => hn (by simp [e])
    rw [h2 hn2 c]
    have step : c ∈ (addCategory ident cats a).1 ↔ c ∈ cats ∨ (c = a ∧ ident c = true) := by
      simp only [addCategory]
      by_cases h1 : a ∈ cats
      · simp only [h1, if_true]
        constructor
        · exact Or.inl
        · rintro (h | ⟨rfl, -⟩)
          · exact h
          · exact h1
      · cases h2 : ident a with
        | false =>
          simp only [h1, if_false, Bool.not_false, if_true]
          constructor
          · exact Or.inl
          · rintro (h | ⟨rfl, h⟩)
            · exact h
            · rw [h2] at h; cases h
        | true =>
          simp only [h1, if_false, Bool.not_true, Bool.false_eq_true, hn1]
          have hm : c ∈ (cats ++ [a]).mergeSort (fun a b => decide (a ≤ b)) ↔
              c ∈ cats ∨ (c = a ∧ ident c = true) := by
            rw [(sort_spec (cats ++ [a])).2.mem_iff, List.mem_append, List.mem_singleton]
            constructor
            · rintro (h | rfl)
              · exact Or.inl h
              · exact Or.inr ⟨rfl, h2⟩
            · rintro (h | ⟨rfl, -⟩)
              · exact Or.inl h
              · exact Or.inr rfl
          split_ifs <;> exact hm
    rw [step, List.mem_cons]
    constructor
    · rintro ((h | ⟨h, h'⟩) | ⟨h, h'⟩)
      · exact Or.inl h
      · exact Or.inr ⟨Or.inl h, h'⟩
      · exact Or.inr ⟨Or.inr h, h'⟩
    · rintro (h | ⟨h | h, h'⟩)
      · exact Or.inl (Or.inl h)
      · exact Or.inl (Or.inr ⟨h, h'⟩)
      · exact Or.inr ⟨h, h'⟩

/-- **C07.** The name `categories` raises but is added to the list. -/
theorem C07_raise_witness (ident : String → Bool) (h : ident "categories" = true)
    (cats : List String) (hc : "categories" ∉ cats) :
    (addCategory ident cats "categories").2 = .attributeError ∧
      "categories" ∈ (addCategory ident cats "categories").1 := by
  simp only [addCategory, hc, h, if_false, Bool.not_true, Bool.false_eq_true, if_true]
  refine ⟨trivial, ?_⟩
  rw [(sort_spec _).2.mem_iff]
  simp

/-- **C07.** The name `_categories` loses all categories. -/
theorem C07_overwrite_witness (ident : String → Bool) (h : ident "_categories" = true)
    (cats : List String) (hc : "_categories" ∉ cats) :
    addCategory ident cats "_categories" = (["_manager", "_meta"], .ok) := by
  simp [addCategory, hc, h]

/-- The categories of a model, and a call sequence with a repeated and an invalid name. -/
example : InOrder ["base", "meteo", "snow"] ∧ "_categories" ∉ ["soil", "1x", "snow"] ∧
    (addCategory (fun s => s != "1x") ["base", "meteo", "snow"] "1x").2 = .categoryError ∧
    (addCategory (fun s => s != "1x") ["base", "meteo", "snow"] "soil").2 = .ok := by
  refine ⟨?_, by decide, by simp [addCategory], by simp [addCategory]⟩
  simp only [InOrder, List.pairwise_cons, List.mem_cons, List.not_mem_nil, or_false,
    forall_eq_or_imp, forall_eq]
  refine ⟨⟨by decide +kernel, by decide +kernel⟩, by decide +kernel, by simp⟩

/-! ### Keys -/

theorem splitOn_append (c v : List Char) (hc : '.' ∉ c) :
    (c ++ '.' :: v).splitOn '.' = c :: v.splitOn '.' := by
  induction c with
  | nil => simp [List.splitOn, List.splitOnP_cons_eq_if_modifyHead]
  | cons a c ih =>
    have ha : a ≠ '.' := fun e => hc (by simp [e])
    have := ih fun e => hc (by simp [e])
    simp only [List.splitOn] at this ⊢
    rw [List.cons_append, List.splitOnP_cons_eq_if_modifyHead, this]
    simp [ha, List.modifyHead]

theorem splitOn_none (v : List Char) (hv : '.' ∉ v) : v.splitOn '.' = [v] := by
  induction v with
  | nil => simp [List.splitOn]
  | cons a v ih =>
    have ha : a ≠ '.' := fun e => hv (by simp [e])
    have := ih fun e => hv (by simp [e])
    simp only [List.splitOn] at this ⊢
    rw [List.splitOnP_cons_eq_if_modifyHead, this]
    simp [ha, List.modifyHead]

/-- Every key has no dot, or splits uniquely at its first dot. -/
theorem first_dot (s : List Char) (h : '.' ∈ s) :
    ∃ c v, s = c ++ '.' :: v ∧ '.' ∉ c := by
  induction s with
  | nil => simp at h
  | cons a s ih =>
    by_cases ha : a = '.'
    · exact ⟨[], s, by simp [ha], by simp⟩
    · have h' : '.' ∈ s := by
        rcases List.mem_cons.mp h with e | e
        · exact absurd e.symm ha
        · exact e
      obtain ⟨c, v, h1, h2⟩ := ih h'
      refine ⟨a :: c, v, by simp [h1], ?_⟩
      intro e
      rcases List.mem_cons.mp e with e | e
      · exact ha e.symm
      · exact h2 e

theorem splitOn_many (v : List Char) (h : '.' ∈ v) :
    ∃ a b l, v.splitOn '.' = a :: b :: l := by
  obtain ⟨c, w, h1, h2⟩ := first_dot v h
  subst h1
  rw [splitOn_append c w h2]
  by_cases hw : '.' ∈ w
  · obtain ⟨c', w', h3, h4⟩ := first_dot w hw
    subst h3
    rw [splitOn_append c' w' h4]
    cases hl : w'.splitOn '.' with
    | nil => exact ⟨_, _, _, rfl⟩
    | cons x xs => exact ⟨_, _, _, rfl⟩
  · rw [splitOn_none w hw]
    exact ⟨_, _, _, rfl⟩

/-- **C07.** A key is read as a pair exactly if it is category, dot, variable without further dots;
as a category alone exactly if it has no dot; it is rejected exactly if it has several dots. -/
theorem C07_parse (s : List Char) :
    (∀ c v, parse s = some (c, some v) ↔ s = c ++ '.' :: v ∧ '.' ∉ c ∧ '.' ∉ v) ∧
    (∀ c, parse s = some (c, none) ↔ s = c ∧ '.' ∉ s) ∧
    (parse s = none ↔ 2 ≤ s.count '.') := by
  unfold parse
  by_cases h : '.' ∈ s
  · simp only [h, if_true]
    obtain ⟨c, v, rfl, hc⟩ := first_dot s h
    rw [splitOn_append c v hc]
    by_cases hv : '.' ∈ v
    · obtain ⟨a, b, l, hl⟩ := splitOn_many v hv
      rw [hl]
      refine ⟨fun c' v' => ?_, by simp, ?_⟩
      · constructor
        · intro e; simp at e
        · rintro ⟨e, h1, h2⟩
          exfalso
          have := congrArg (List.count '.') e
          simp only [List.count_append, List.count_cons_self,
            List.count_eq_zero.mpr hc, List.count_eq_zero.mpr h1, List.count_eq_zero.mpr h2] at this
          have := List.count_pos_iff.mpr hv
          omega
      · have := List.count_pos_iff.mpr hv
        simp only [List.count_append, List.count_cons_self, true_iff]
        omega
    · rw [splitOn_none v hv]
      refine ⟨fun c' v' => ?_, by simp, ?_⟩
      · simp only [Option.some.injEq, Prod.mk.injEq]
        constructor
        · rintro ⟨rfl, rfl⟩; exact ⟨rfl, hc, hv⟩
        · rintro ⟨e, h1, h2⟩
          have e1 := congrArg (List.splitOn '.') e
          rw [splitOn_append c v hc, splitOn_append c' v' h1, splitOn_none v hv,
            splitOn_none v' h2] at e1
          simpa using e1
      · simp [List.count_eq_zero.mpr hc, List.count_eq_zero.mpr hv]
  · simp only [h, if_false]
    refine ⟨fun c v => ?_, fun c => by simp, by simp [List.count_eq_zero.mpr h]⟩
    simp only [Option.some.injEq, Prod.mk.injEq, reduceCtorEq, and_false, false_iff]
    rintro ⟨rfl, -⟩
    exact h (by simp)

example : parse "meteo.temp".toList = some ("meteo".toList, some "temp".toList) := by
  decide +kernel
example : parse "a.b.c".toList = none := by decide +kernel

end Verif.StateVars
