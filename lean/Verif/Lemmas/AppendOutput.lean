import Verif.Model.AppendOutput
import Verif.Props.GridDef

/-!
# Lemmas for the contents of the appended output file
-/

set_option linter.unusedSimpArgs false

namespace Verif.AppendOutput

open Verif.OutputDef

/-- A quantity that a step either sets to `v` or leaves alone. -/
theorem fold_cell {E S A : Type*} (g : S → E → S) (get : S → A) (hit : E → Prop) [DecidablePred hit] (v : A)
    (es : List E) (h : ∀ s, ∀ e ∈ es, get (g s e) = if hit e then v else get s) (s : S) :
    get (es.foldl g s) = open scoped Classical in if ∃ e ∈ es, hit e then v else get s := by
  classical
  induction es generalizing s with
  | nil => simp
  | cons e rest ih =>
    rw [List.foldl_cons, ih (fun s e he => h s e (List.mem_cons_of_mem _ he)), h s e (by simp)]
    by_cases h1 : ∃ e ∈ rest, hit e
    · rw [if_pos h1, if_pos]
      obtain ⟨a, ha, hb⟩ := h1
      exact ⟨a, List.mem_cons_of_mem _ ha, hb⟩
    · rw [if_neg h1]
      by_cases h2 : hit e
      · rw [if_pos h2, if_pos ⟨e, by simp, h2⟩]
      · rw [if_neg h2, if_neg]
        rintro ⟨a, ha, hb⟩
        rcases List.mem_cons.mp ha with rfl | ha
        · exact h2 hb
        · exact h1 ⟨a, ha, hb⟩

/-- The writes of a run, one after the other. -/
def events (fs : List OutField) (dates : List ℤ) : List (ℤ × OutField) :=
  dates.flatMap fun t => fs.map fun f => (t, f)

theorem mem_events {fs : List OutField} {dates : List ℤ} {e : ℤ × OutField} :
    e ∈ events fs dates ↔ e.1 ∈ dates ∧ e.2 ∈ fs := by
  obtain ⟨t, f⟩ := e
  simp [events]

theorem run_events {V : Type*} (append : Bool) (start : ℤ) (fs : List OutField) (val : OutField → ℤ → V)
    (dates : List ℤ) : run append start fs val dates
      = (events fs dates).foldl (fun F e => put append start fs val e.1 F e.2) (create append start fs) := by
  simp only [run, events]
  generalize create append start fs = F
  induction dates generalizing F with
  | nil => rfl
  | cons t rest ih => simp only [List.foldl_cons, List.flatMap_cons, List.foldl_append, List.foldl_map, step, ih]

theorem owner_of {fs : List OutField} {f : OutField} (hf : f ∈ fs) :
    ∃ g, owner fs (timeName fs f) = some g ∧ g.write = f.write ∧ g.agg = f.agg := by
  cases ho : owner fs (timeName fs f) with
  | none =>
    simp only [owner, List.find?_eq_none, decide_eq_true_eq] at ho
    exact absurd rfl (ho f hf)
  | some g =>
    have h1 := List.find?_some ho
    have h2 := List.mem_of_find?_eq_some ho
    obtain ⟨h3, h4⟩ := (C94_shared fs g f h2 hf).mp (by simpa using h1)
    exact ⟨g, rfl, h3, h4⟩

theorem timesOf_eq {fs : List OutField} {f : OutField} (hf : f ∈ fs) : timesOf fs (timeName fs f) = f.write := by
  obtain ⟨g, h1, h2, _⟩ := owner_of hf
  simp only [timesOf, h1, h2]

theorem boundsOf_eq (start : ℤ) {fs : List OutField} {f : OutField} (hf : f ∈ fs) :
    boundsOf start fs (timeName fs f) = if f.agg then timeBounds start f.write else [] := by
  obtain ⟨g, h1, h2, h3⟩ := owner_of hf
  simp only [boundsOf, h1, h2, h3]

theorem idx_hit {w : List ℤ} (hw : w.Nodup) (t : ℤ) (k : ℕ) : (t ∈ w ∧ w.idxOf t = k) ↔ w[k]? = some t := by
  constructor
  · rintro ⟨h1, rfl⟩
    exact List.getElem?_idxOf h1
  · intro h
    obtain ⟨hk, rfl⟩ := List.getElem?_eq_some_iff.mp h
    exact ⟨List.getElem_mem hk, hw.idxOf_getElem k hk⟩

variable {V : Type*}

section cells

variable (start : ℤ) (fs : List OutField) (val : OutField → ℤ → V) (dates : List ℤ) (f : OutField)

theorem inj_of_names (hn : (fs.map OutField.out).Nodup) {g : OutField} (hf : f ∈ fs) (hg : g ∈ fs) (h : g.out = f.out) :
    g = f := List.inj_on_of_nodup_map hn hg hf h

theorem run_data (append : Bool) (hn : (fs.map OutField.out).Nodup) (hf : f ∈ fs) (hw : f.write.Nodup) (k : ℕ) :
    (run append start fs val dates).data f.out k
      = f.write[k]?.bind fun t => if t ∈ dates then some (val f t) else none := by
  classical
  cases hk : f.write[k]? with
  | none =>
    rw [run_events, fold_cell _ (fun F : File V => F.data f.out k) (fun _ => False) none]
    · cases append <;> simp [create]
    · rintro F ⟨t, g⟩ he
      rw [mem_events] at he
      by_cases ht : t ∈ g.write
      · have : ¬ (f.out = g.out ∧ k = g.write.idxOf t) := by
          rintro ⟨h1, h2⟩
          have := inj_of_names fs f hn hf he.2 h1.symm
          subst this
          have := (idx_hit hw t k).mp ⟨ht, h2.symm⟩
          rw [hk] at this
          simp at this
        cases append <;> simp [put, if_pos ht, set2, this]
      · simp [put, if_neg ht]
  | some t0 =>
    rw [run_events, fold_cell _ (fun F : File V => F.data f.out k) (fun e => e.1 = t0 ∧ e.2.out = f.out)
      (some (val f t0))]
    · have hc : (create append start fs : File V).data f.out k = none := by cases append <;> simp [create]
      simp only [Option.bind_some]
      by_cases ht : t0 ∈ dates
      · rw [if_pos ⟨(t0, f), mem_events.mpr ⟨ht, hf⟩, rfl, rfl⟩, if_pos ht]
      · rw [if_neg, if_neg ht, hc]
        rintro ⟨e, he, h1, _⟩
        exact ht (h1 ▸ (mem_events.mp he).1)
    · rintro F ⟨t, g⟩ he
      rw [mem_events] at he
      by_cases hh : t = t0 ∧ g.out = f.out
      · obtain ⟨rfl, h2⟩ := hh
        have := inj_of_names fs f hn hf he.2 h2
        subst this
        obtain ⟨h3, h4⟩ := (idx_hit hw _ _).mpr hk
        cases append <;> simp [put, if_pos h3, set2, h4]
      · rw [if_neg hh]
        by_cases ht : t ∈ g.write
        · have : ¬ (f.out = g.out ∧ k = g.write.idxOf t) := by
            rintro ⟨h1, h2⟩
            have := inj_of_names fs f hn hf he.2 h1.symm
            subst this
            have := (idx_hit hw t k).mp ⟨ht, h2.symm⟩
            rw [hk] at this
            exact hh ⟨(Option.some.inj this).symm, rfl⟩
          cases append <;> simp [put, if_pos ht, set2, this]
        · simp [put, if_neg ht]

/-- Which writes of the run hit the record `k` of the time axis of `f`. -/
theorem hit_iff (hf : f ∈ fs) (hw : f.write.Nodup) (p : ℕ → Prop) :
    (∃ e ∈ events fs dates, timeName fs e.2 = timeName fs f ∧ e.1 ∈ e.2.write ∧ p (e.2.write.idxOf e.1))
      ↔ ∃ j t, f.write[j]? = some t ∧ t ∈ dates ∧ p j := by
  constructor
  · rintro ⟨⟨t, g⟩, he, h1, h2, h3⟩
    rw [mem_events] at he
    have := ((C94_shared fs g f he.2 hf).mp h1).1
    rw [this] at h2 h3
    exact ⟨_, t, (idx_hit hw t _).mp ⟨h2, rfl⟩, he.1, h3⟩
  · rintro ⟨j, t, h1, h2, h3⟩
    obtain ⟨h4, h5⟩ := (idx_hit hw t j).mpr h1
    exact ⟨(t, f), mem_events.mpr ⟨h2, hf⟩, rfl, h4, by simpa only [h5] using h3⟩

theorem run_size (hf : f ∈ fs) (hw : f.write.Nodup) (k : ℕ) :
    k < (run true start fs val dates).size (timeName fs f) ↔ ∃ j t, f.write[j]? = some t ∧ t ∈ dates ∧ k ≤ j := by
  classical
  rw [run_events, ← hit_iff fs dates f hf hw (fun j => k ≤ j)]
  have := fold_cell (fun F (e : ℤ × OutField) => put true start fs val e.1 F e.2)
    (fun F : File V => k < F.size (timeName fs f))
    (fun e => timeName fs e.2 = timeName fs f ∧ e.1 ∈ e.2.write ∧ k ≤ e.2.write.idxOf e.1) True (events fs dates) ?_
    (create true start fs)
  · rw [this]
    simp [create]
  · rintro F ⟨t, g⟩ _
    by_cases ht : t ∈ g.write
    · by_cases hd : timeName fs f = timeName fs g
      · simp only [put, if_pos ht, if_true, hd, ht, true_and]
        by_cases hk : k ≤ g.write.idxOf t
        · simp only [hk, if_true, eq_iff_iff, iff_true]; omega
        · simp only [hk, if_false, eq_iff_iff]; omega
      · simp [put, if_pos ht, hd, Ne.symm hd]
    · simp [put, if_neg ht, ht]

theorem run_time (hf : f ∈ fs) (hw : f.write.Nodup) (k : ℕ) :
    (run true start fs val dates).time (timeName fs f) k
      = f.write[k]?.bind fun t => if t ∈ dates then some t else none := by
  classical
  rw [run_events, fold_cell _ (fun F : File V => F.time (timeName fs f) k)
    (fun e => timeName fs e.2 = timeName fs f ∧ e.1 ∈ e.2.write ∧ e.2.write.idxOf e.1 = k) f.write[k]?]
  · have := hit_iff fs dates f hf hw (fun j => j = k)
    by_cases h : ∃ j t, f.write[j]? = some t ∧ t ∈ dates ∧ j = k
    · rw [if_pos (this.mpr h)]
      obtain ⟨j, t, h1, h2, rfl⟩ := h
      simp [h1, h2]
    · rw [if_neg (fun h' => h (this.mp h'))]
      cases hk : f.write[k]? with
      | none => simp [create]
      | some t =>
        have : t ∉ dates := fun ht => h ⟨k, t, hk, ht, rfl⟩
        simp [create, this]
  · rintro F ⟨t, g⟩ he
    rw [mem_events] at he
    by_cases ht : t ∈ g.write
    · by_cases hd : timeName fs f = timeName fs g
      · simp only [put, if_pos ht, if_true, set2, hd, ht, true_and, eq_comm (a := k)]
        rw [← hd, timesOf_eq hf]
        split
        · rename_i h; rw [h]
        · rfl
      · simp [put, if_pos ht, set2, hd, Ne.symm hd]
    · simp [put, if_neg ht, ht]

theorem run_bounds (hf : f ∈ fs) (hw : f.write.Nodup) (k : ℕ) :
    (run true start fs val dates).bounds (timeName fs f) k
      = f.write[k]?.bind fun t => if t ∈ dates ∧ f.agg = true then (timeBounds start f.write)[k]? else none := by
  classical
  rw [run_events, fold_cell _ (fun F : File V => F.bounds (timeName fs f) k)
    (fun e => f.agg = true ∧ timeName fs e.2 = timeName fs f ∧ e.1 ∈ e.2.write ∧ e.2.write.idxOf e.1 = k)
    (timeBounds start f.write)[k]?]
  · have := hit_iff fs dates f hf hw (fun j => j = k)
    by_cases h : f.agg = true ∧ ∃ j t, f.write[j]? = some t ∧ t ∈ dates ∧ j = k
    · rw [if_pos]
      · obtain ⟨h0, j, t, h1, h2, rfl⟩ := h
        simp [h0, h1, h2]
      · obtain ⟨e, h1, h2⟩ := this.mpr h.2
        exact ⟨e, h1, h.1, h2⟩
    · rw [if_neg]
      · cases hk : f.write[k]? with
        | none => simp [create]
        | some t =>
          have : ¬ (t ∈ dates ∧ f.agg = true) := fun ht => h ⟨ht.2, k, t, hk, ht.1, rfl⟩
          simp only [Option.bind_some, if_neg this, create, if_true]
      · rintro ⟨e, h1, h2, h3⟩
        exact h ⟨h2, this.mp ⟨e, h1, h3⟩⟩
  · rintro F ⟨t, g⟩ he
    rw [mem_events] at he
    by_cases ht : t ∈ g.write
    · by_cases hd : timeName fs f = timeName fs g
      · simp only [put, if_pos ht, if_true]
        rw [← hd, boundsOf_eq start hf]
        cases ha : f.agg
        · simp
        · have hne : timeBounds start f.write ≠ [] := by
            have := ((C94_shared fs f g hf he.2).mp hd).1
            rw [← this] at ht
            cases hf' : f.write with
            | nil => rw [hf'] at ht; simp at ht
            | cons a l => simp [timeBounds]
          simp only [if_true, if_neg hne, set2, true_and, ht, eq_comm (a := k)]
          split
          · rename_i h; rw [h]
          · rfl
      · have hd' : ¬ (timeName fs g = timeName fs f) := Ne.symm hd
        simp only [put, if_pos ht, if_true, hd', false_and, and_false, if_false]
        split
        · rfl
        · simp [set2, hd]
    · simp [put, if_neg ht, ht]

/-- Without the option the time axes do not change. -/
theorem run_direct_axis (d : Name) (k : ℕ) :
    (run false start fs val dates).size d = (timesOf fs d).length
      ∧ (run false start fs val dates).time d k = (timesOf fs d)[k]?
      ∧ (run false start fs val dates).bounds d k = (boundsOf start fs d)[k]? := by
  classical
  refine ⟨?_, ?_, ?_⟩
  · have key : ∀ es : List (ℤ × OutField), (∀ e ∈ es, e.2 ∈ fs) → ∀ F : File V, F.size d = (timesOf fs d).length →
        (es.foldl (fun F e => put false start fs val e.1 F e.2) F).size d = (timesOf fs d).length := by
      intro es
      induction es with
      | nil => intro _ F h; exact h
      | cons e rest ih =>
        intro he F h
        refine ih (fun e' h' => he e' (List.mem_cons_of_mem _ h')) _ ?_
        by_cases ht : e.1 ∈ e.2.write
        · by_cases hd : d = timeName fs e.2
          · simp only [put, if_pos ht, Bool.false_eq_true, if_false, if_pos hd, h]
            rw [hd, timesOf_eq (he e (by simp))]
            have := List.idxOf_lt_length_of_mem ht
            omega
          · simp [put, if_pos ht, hd, h]
        · simp only [put, if_neg ht, h]
    rw [run_events]
    exact key _ (fun e he => (mem_events.mp he).2) _ (by simp [create])
  · rw [run_events, fold_cell _ (fun F : File V => F.time d k) (fun _ => False) none]
    · simp [create]
    · rintro F ⟨t, g⟩ _
      by_cases ht : t ∈ g.write <;> simp [put, ht]
  · rw [run_events, fold_cell _ (fun F : File V => F.bounds d k) (fun _ => False) none]
    · simp [create]
    · rintro F ⟨t, g⟩ _
      by_cases ht : t ∈ g.write <;> simp [put, ht]

end cells

end Verif.AppendOutput
