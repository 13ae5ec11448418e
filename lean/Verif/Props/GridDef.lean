import Verif.Model.OutputDef
import Verif.Props.WriteDates
import Verif.Props.Freq
import Mathlib.Tactic

/-!
# C94, C95: time coordinates and files of gridded outputs
-/

namespace Verif.OutputDef

open Verif.Freq Verif.Gridded Verif.WriteDates

theorem getD_eq {α : Type*} (l : List α) (d : α) {k : ℕ} (h : k < l.length) : l.getD k d = l[k] := by
  simp [List.getD, List.getElem?_eq_getElem h]

/-! ## C94 -/

/-- Specification: a field restricted to the run. -/
def Restricted (start stop : ℤ) (f : OutField) : OutField :=
  { f with write := f.write.filter fun t => decide (start ≤ t ∧ t ≤ stop) }

/-- **C94.** The fields of a run are the configured ones that have a date in the run, restricted to these dates; they
are rejected exactly if two of them have the same name. -/
theorem C94_fields (start stop : ℤ) (cfg fs : List OutField) (hfs : (fs.map OutField.out).Nodup) :
    initFields start stop cfg fs =
      let new := (cfg.map (Restricted start stop)).filter fun f => decide (f.write ≠ [])
      if ((fs ++ new).map OutField.out).Nodup then some (fs ++ new) else none := by
  induction cfg generalizing fs with
  | nil => simp [initFields, hfs]
  | cons f rest ih =>
    simp only [initFields, List.map_cons]
    by_cases h0 : (f.write.filter fun t => decide (start ≤ t ∧ t ≤ stop)) = []
    · rw [if_pos h0, ih fs hfs]
      have hd : (Restricted start stop f).write = [] := h0
      rw [List.filter_cons_of_neg (by simp [hd])]
    · rw [if_neg h0]
      have hd : (Restricted start stop f).write ≠ [] := h0
      rw [List.filter_cons_of_pos (by simp [hd])]
      by_cases hm : f.out ∈ fs.map OutField.out
      · rw [if_pos hm, if_neg]
        intro hnd
        rw [List.map_append, List.nodup_append] at hnd
        exact hnd.2.2 _ hm _ (by simp [Restricted]) rfl
      · rw [if_neg hm]
        have hnd : ((fs ++ [Restricted start stop f]).map OutField.out).Nodup := by
          rw [List.map_append, List.nodup_append]
          refine ⟨hfs, by simp, ?_⟩
          intro a ha b hb
          simp only [Restricted, List.map_cons, List.map_nil, List.mem_singleton] at hb
          subst hb
          rintro rfl
          exact hm ha
        have := ih (fs ++ [Restricted start stop f]) hnd
        simp only [List.append_assoc, List.singleton_append] at this
        exact this

theorem timeKeys_spec (fs : List OutField) (ks : List (List ℤ × Bool)) (hks : ks.Nodup) :
    (timeKeys fs ks).Nodup ∧ ∀ k, k ∈ timeKeys fs ks ↔ k ∈ ks ∨ ∃ f ∈ fs, f.key = k := by
  induction fs generalizing ks with
  | nil => simp [timeKeys, hks]
  | cons f rest ih =>
    unfold timeKeys
    by_cases h : f.key ∈ ks
    · rw [if_pos h]
      obtain ⟨h1, h2⟩ := ih ks hks
      refine ⟨h1, fun k => ?_⟩
      rw [h2 k]
      constructor
      · rintro (hk | ⟨g, hg, rfl⟩)
        · exact Or.inl hk
        · exact Or.inr ⟨g, by simp [hg], rfl⟩
      · rintro (hk | ⟨g, hg, rfl⟩)
        · exact Or.inl hk
        · rcases List.mem_cons.mp hg with rfl | hg
          · exact Or.inl h
          · exact Or.inr ⟨g, hg, rfl⟩
    · rw [if_neg h]
      obtain ⟨h1, h2⟩ := ih (ks ++ [f.key]) (by
        rw [List.nodup_append]
        refine ⟨hks, by simp, ?_⟩
        intro a ha b hb
        rw [List.mem_singleton] at hb
        subst hb
        rintro rfl
        exact h ha)
      refine ⟨h1, fun k => ?_⟩
      rw [h2 k]
      rw [List.mem_append, List.mem_singleton]
      simp only [List.mem_cons, exists_eq_or_imp]
      constructor
      · rintro ((hk | hk) | hk)
        · exact Or.inl hk
        · exact Or.inr (Or.inl hk.symm)
        · exact Or.inr (Or.inr hk)
      · rintro (hk | hk | hk)
        · exact Or.inl (Or.inl hk)
        · exact Or.inl (Or.inr hk.symm)
        · exact Or.inr hk

theorem showNat_inj {a b : ℕ} (h : showNat a = showNat b) : a = b := by
  have := parse_show a
  rw [h, parse_show b] at this
  simpa using this.symm

/-- **C94.** Two fields of the output have the same time coordinate exactly if they are written at the same dates and
both or none of them are aggregated. -/
theorem C94_shared (fs : List OutField) (f g : OutField) (hf : f ∈ fs) (hg : g ∈ fs) :
    timeName fs f = timeName fs g ↔ f.write = g.write ∧ f.agg = g.agg := by
  have hkey : f.key = g.key ↔ f.write = g.write ∧ f.agg = g.agg := by
    simp only [OutField.key, Prod.mk.injEq]
    cases f.agg <;> cases g.agg <;> simp
  rw [← hkey]
  obtain ⟨hnd, hmem⟩ := timeKeys_spec fs [] (by simp)
  have hf' : f.key ∈ timeKeys fs [] := (hmem _).mpr (Or.inr ⟨f, hf, rfl⟩)
  have hg' : g.key ∈ timeKeys fs [] := (hmem _).mpr (Or.inr ⟨g, hg, rfl⟩)
  constructor
  · intro h
    simp only [timeName] at h
    by_cases h1 : (timeKeys fs []).length = 1
    · obtain ⟨k, hk⟩ := List.length_eq_one_iff.mp h1
      rw [hk, List.mem_singleton] at hf' hg'
      rw [hf', hg']
    · rw [if_neg h1, if_neg h1] at h
      have h2 := showNat_inj (List.append_cancel_left h)
      exact (List.idxOf_inj hf').mp (by omega)
  · intro h
    simp only [timeName, h]

theorem timeBounds_getD (start : ℤ) (w : List ℤ) (k : ℕ) (hk : k < w.length) :
    (timeBounds start w).getD k (0, 0) = (if k = 0 then start else w.getD (k - 1) 0, w.getD k 0) := by
  have hl : k < (timeBounds start w).length := by simp [timeBounds]; omega
  rw [getD_eq _ _ hl]
  simp only [timeBounds, List.getElem_zip]
  rw [getD_eq w 0 hk]
  congr 1
  cases k with
  | zero => simp
  | succ k =>
    rw [if_neg (by omega), List.getElem_cons_succ, show k + 1 - 1 = k by omega,
      getD_eq w 0 (by omega)]

/-- Specification: the date is enclosed by the bounds, of which the first interval contains its left end. -/
def Within (k : ℕ) (b : ℤ × ℤ) (t : ℤ) : Bool :=
  decide ((b.1 < t ∨ (k = 0 ∧ b.1 ≤ t)) ∧ t ≤ b.2)

theorem blocksAux_bounds (p : ℤ → Bool) (acc ds : List ℤ) (hs : (acc ++ ds).Pairwise (· < ·))
    (hacc : ∀ t ∈ acc, p t = false) :
    blocksAux p acc ds = (List.range (ds.filter p).length).map fun k =>
      if k = 0 then (acc ++ ds).filter fun t => decide (t ≤ (ds.filter p).getD 0 0)
      else ds.filter fun t => decide ((ds.filter p).getD (k - 1) 0 < t ∧ t ≤ (ds.filter p).getD k 0) := by
  induction ds generalizing acc with
  | nil => simp [blocksAux]
  | cons d ds ih =>
    unfold blocksAux
    have hassoc : acc ++ d :: ds = (acc ++ [d]) ++ ds := by simp
    cases hp : p d with
    | false =>
      rw [if_neg (by simp)]
      rw [ih (acc ++ [d]) (by rw [← hassoc]; exact hs) (by
        intro t ht
        rcases List.mem_append.mp ht with ht | ht
        · exact hacc t ht
        · rw [List.mem_singleton] at ht; rw [ht]; exact hp)]
      rw [List.filter_cons_of_neg (by simp [hp])]
      apply List.map_congr_left
      intro k hk
      rw [List.mem_range] at hk
      by_cases hk0 : k = 0
      · rw [if_pos hk0, if_pos hk0, hassoc]
      · rw [if_neg hk0, if_neg hk0, List.filter_cons_of_neg]
        simp only [decide_eq_true_eq, not_and]
        intro hlt
        exfalso
        have hd : ∀ t ∈ ds, d < t := by
          rw [hassoc] at hs
          intro t ht
          exact (List.pairwise_append.mp hs).2.2 d (by simp) t ht
        have hk1 : k - 1 < (ds.filter p).length := by omega
        rw [getD_eq _ _ hk1] at hlt
        have := hd _ (List.mem_of_mem_filter (List.getElem_mem hk1))
        omega
    | true =>
      rw [if_pos rfl]
      have hs' : ([] ++ ds : List ℤ).Pairwise (· < ·) := by
        rw [hassoc] at hs
        exact (List.pairwise_append.mp hs).2.1
      rw [ih [] hs' (by simp)]
      have hw : (d :: ds).filter p = d :: ds.filter p := List.filter_cons_of_pos hp
      rw [hw, List.length_cons, List.range_succ_eq_map, List.map_cons, List.map_map]
      have hd : ∀ t ∈ ds, d < t := by
        rw [hassoc] at hs
        intro t ht
        exact (List.pairwise_append.mp hs).2.2 d (by simp) t ht
      have ha : ∀ t ∈ acc, t < d := by
        intro t ht
        exact (List.pairwise_append.mp hs).2.2 t ht d (by simp)
      congr 1
      · rw [if_pos rfl, hassoc]
        simp only [List.getD_cons_zero]
        rw [List.filter_append, List.filter_eq_self.mpr, List.filter_eq_nil_iff.mpr, List.append_nil]
        · intro t ht
          have := hd t ht
          simp only [decide_eq_true_eq]; omega
        · intro t ht
          simp only [decide_eq_true_eq]
          rcases List.mem_append.mp ht with ht | ht
          · exact (ha t ht).le
          · rw [List.mem_singleton] at ht; omega
      · apply List.map_congr_left
        intro k hk
        rw [List.mem_range] at hk
        simp only [Function.comp, Nat.succ_eq_add_one, Nat.add_eq_zero_iff, one_ne_zero, and_false,
          if_false, Nat.add_sub_cancel, List.getD_cons_succ, List.nil_append]
        by_cases hk0 : k = 0
        · subst hk0
          rw [if_pos rfl, List.getD_cons_zero, List.filter_cons_of_neg (by simp)]
          apply List.filter_congr
          intro t ht
          have := hd t ht
          simp [this]
        · rw [if_neg hk0]
          obtain ⟨j, rfl⟩ : ∃ j, k = j + 1 := ⟨k - 1, by omega⟩
          rw [List.getD_cons_succ, List.filter_cons_of_neg]
          · rfl
          · simp only [decide_eq_true_eq, not_and]
            intro hlt
            exfalso
            have hj : j < (ds.filter p).length := by omega
            rw [getD_eq _ _ hj] at hlt
            have := hd _ (List.mem_of_mem_filter (List.getElem_mem hj))
            omega

theorem sorted_filter (dates write : List ℤ) (hd : dates.Pairwise (· < ·)) (hw : write.Pairwise (· < ·))
    (hsub : ∀ t ∈ write, t ∈ dates) : dates.filter (fun t => decide (t ∈ write)) = write := by
  apply List.SortedLT.eq_of_mem_iff
  · rw [List.sortedLT_iff_pairwise]; exact hd.filter _
  · rw [List.sortedLT_iff_pairwise]; exact hw
  · intro t
    simp only [List.mem_filter, decide_eq_true_eq]
    exact ⟨fun h => h.2, fun h => ⟨hsub t h, h⟩⟩

theorem store_set {V : Type*} (l : List (ℕ × V)) (pre arr : List (Option V)) :
    store (l.map fun q => (q.1 + pre.length, q.2)) (pre ++ arr) = pre ++ store l arr := by
  induction l generalizing arr with
  | nil => rfl
  | cons q l ih =>
    obtain ⟨k, v⟩ := q
    simp only [List.map_cons, store]
    rw [List.set_append, if_neg (by omega), Nat.add_sub_cancel, ih]

theorem store_range {V : Type*} (n : ℕ) (v : ℕ → V) :
    store ((List.range n).map fun k => (k, v k)) (List.replicate n none) =
      (List.range n).map fun k => some (v k) := by
  induction n generalizing v with
  | zero => rfl
  | succ n ih =>
    rw [List.range_succ_eq_map, List.map_cons, List.map_cons, List.replicate_succ]
    simp only [store, List.set_cons_zero, List.map_map]
    have := store_set ((List.range n).map fun k => (k, v (k + 1))) [some (v 0)] (List.replicate n none)
    simp only [List.map_map, List.length_singleton, List.singleton_append] at this
    simp only [Function.comp_def, Nat.succ_eq_add_one] at this ⊢
    rw [this, ih]

/-- **C94, partial.** The values of an aggregated field with increasing write dates that are model dates: one for each
write date, stored at its index, and aggregated over exactly those time steps that its time bounds enclose. Full
statement: for all accepted dates. -/
theorem C94_bounds_partial {C K : Type*} [Field K] [CharZero K] (a : Agg) (roi : C → Bool) (fill : Option K)
    (x : ℤ → C → Option K) (start : ℤ) (dates write : List ℤ) (hstart : ∀ t ∈ dates, start ≤ t)
    (hd : dates.Pairwise (· < ·)) (hw : write.Pairwise (· < ·)) (hsub : ∀ t ∈ write, t ∈ dates) :
    store (run (some a) roi fill write (dates.map fun t => (t, x t)) ⟨none, 0⟩)
        (List.replicate write.length none) =
      (List.range write.length).map fun k => some fun c =>
        if roi c then
          aggregated a ((dates.filter (Within k ((timeBounds start write).getD k (0, 0)))).map fun t => x t c)
        else fill := by
  have hrun : run (some a) roi fill write (dates.map fun t => (t, x t)) ⟨none, 0⟩ =
      (List.range write.length).map fun k => (k, fun c =>
        if roi c then
          aggregated a ((dates.filter (Within k ((timeBounds start write).getD k (0, 0)))).map fun t => x t c)
        else fill) := by
    rw [C45_aggregated]
    unfold blocks
    have hm := blocksAux_map (fun t : ℤ => (t, x t)) (fun r => decide (r.1 ∈ write)) [] dates
    rw [List.map_nil] at hm
    rw [hm, List.map_map, blocksAux_bounds _ [] dates (by simpa using hd) (by simp)]
    simp only [Function.comp_def, List.nil_append]
    rw [sorted_filter dates write hd hw hsub, List.map_map]
    apply List.map_congr_left
    intro k hk
    rw [List.mem_range] at hk
    simp only [Function.comp]
    have hblk : (if k = 0 then dates.filter fun t => decide (t ≤ write.getD 0 0)
        else dates.filter fun t => decide (write.getD (k - 1) 0 < t ∧ t ≤ write.getD k 0)) =
        dates.filter (Within k ((timeBounds start write).getD k (0, 0))) := by
      rw [timeBounds_getD start write k hk]
      by_cases hk0 : k = 0
      · subst hk0
        rw [if_pos rfl, if_pos rfl]
        apply List.filter_congr
        intro t ht
        have := hstart t ht
        simp [Within, this]
      · rw [if_neg hk0, if_neg hk0]
        apply List.filter_congr
        intro t _
        simp [Within, hk0]
    rw [hblk]
    congr 1
    · -- the last date of the interval is the write date
      rw [List.getLast?_map]
      have hlast : (dates.filter (Within k ((timeBounds start write).getD k (0, 0)))).getLast? =
          some (write.getD k 0) := by
        rw [timeBounds_getD start write k hk]
        have hmemw : write.getD k 0 ∈ write := by
          rw [getD_eq _ _ hk]; exact List.getElem_mem hk
        have hmem := hsub _ hmemw
        obtain ⟨l1, l2, hl⟩ := List.append_of_mem hmem
        have hsrt := hd
        rw [hl] at hsrt ⊢
        have h2 : ∀ t ∈ l2, write.getD k 0 < t :=
          (List.pairwise_cons.mp (List.pairwise_append.mp hsrt).2.1).1
        have h3 : l2.filter (Within k
            (if k = 0 then start else write.getD (k - 1) 0, write.getD k 0)) = [] := by
          rw [List.filter_eq_nil_iff]
          intro t ht
          have := h2 t ht
          simp only [Within, decide_eq_true_eq, not_and]
          intro _; omega
        rw [List.filter_append, List.filter_cons_of_pos, h3]
        · simp
        · have : write.getD k 0 ≥ start := hstart _ hmem
          simp only [Within, decide_eq_true_eq, le_refl, and_true]
          by_cases hk0 : k = 0
          · right; simp [hk0] at this ⊢; exact this
          · left
            rw [if_neg hk0, getD_eq _ _ hk, getD_eq _ _ (by omega : k - 1 < write.length)]
            exact List.pairwise_iff_getElem.mp hw _ _ _ _ (by omega)
      rw [hlast]
      simp only [Option.map_some, Option.getD_some]
      rw [getD_eq _ _ hk]
      exact List.Nodup.idxOf_getElem (hw.imp fun h => h.ne) k hk
    · funext c
      simp [List.map_map, Function.comp_def]
  rw [hrun]
  exact store_range _ _

/-- **C94.** Values of a field that is not aggregated: those of the write dates, in their order, if these are increasing
model dates. -/
theorem C94_instantaneous_partial {C K : Type*} [Field K] [CharZero K] (roi : C → Bool) (fill : Option K)
    (x : ℤ → C → Option K) (dates write : List ℤ)
    (hd : dates.Pairwise (· < ·)) (hw : write.Pairwise (· < ·)) (hsub : ∀ t ∈ write, t ∈ dates) :
    store (run none roi fill write (dates.map fun t => (t, x t)) ⟨none, 0⟩)
        (List.replicate write.length none) = write.map fun t => some (x t) := by
  rw [C45_instantaneous]
  have h1 : ((dates.map fun t => (t, x t)).filter fun r => decide (r.1 ∈ write)) =
      write.map fun t => (t, x t) := by
    rw [List.filter_map]
    have : (dates.filter ((fun r : ℤ × (C → Option K) => decide (r.1 ∈ write)) ∘ fun t => (t, x t))) = write :=
      sorted_filter dates write hd hw hsub
    rw [this]
  rw [h1, List.map_map]
  have h2 : (write.map ((fun r : ℤ × (C → Option K) => (write.idxOf r.1, r.2)) ∘ fun t => (t, x t))) =
      (List.range write.length).map fun k => (k, x (write.getD k 0)) := by
    apply List.ext_getElem
    · simp
    · intro k h3 h4
      simp only [List.length_map] at h3
      simp only [List.getElem_map, Function.comp, List.getElem_range]
      rw [getD_eq _ _ h3, List.Nodup.idxOf_getElem (hw.imp fun h => h.ne) k h3]
  rw [h2, store_range]
  apply List.ext_getElem
  · simp
  · intro k h3 h4
    simp only [List.length_map] at h4
    simp only [List.getElem_map, List.getElem_range]
    rw [getD_eq _ _ h4]

/-- **C94.** The bounds do not enclose the aggregated steps if configured dates are not in order: of the dates 2 and 1,
the value of 1 is the aggregate over step 1, but its bounds are from 2 to 1. -/
theorem C94_unsorted_false {K : Type*} [Field K] [CharZero K] : ¬ ∀ (dates write : List ℤ) (x : ℤ → Unit → Option K)
    (k : ℕ), (∀ t ∈ write, t ∈ dates) → k < write.length →
    (store (run (some .sum) (fun _ => true) none write (dates.map fun t => (t, x t)) ⟨none, 0⟩)
        (List.replicate write.length none)).getD k none =
      some fun c => aggregated .sum
        ((dates.filter (Within k ((timeBounds (dates.headD 0) write).getD k (0, 0)))).map fun t => x t c) := by
  intro h
  have := h [1, 2] [2, 1] (fun _ _ => some 1) 1 (by decide) (by decide)
  simp only [List.map_cons, List.map_nil, run, update, aggregate, accum, store, List.mem_cons,
    List.not_mem_nil, or_false, or_true, true_or, if_true, Option.getD_none,
    List.length_cons, List.length_nil, List.replicate, List.headD_cons] at this
  have hf : ([1, 2] : List ℤ).filter (Within 1 ((timeBounds 1 [2, 1]).getD 1 (0, 0))) = [] := by decide
  rw [hf] at this
  have hi1 : ([2, 1] : List ℤ).idxOf 1 = 1 := by decide
  have hi2 : ([2, 1] : List ℤ).idxOf 2 = 0 := by decide
  rw [hi1, hi2] at this
  simp [aggregated, total] at this
  have := congrFun this ()
  simp at this

/-- **C94.** Likewise if a configured date in between is no model date: of the dates 2, 5 and 6 in a run with time steps
2, 4 and 6, the value of 6 is the aggregate over steps 4 and 6, but its bounds are from 5 to 6. -/
theorem C94_between_false {K : Type*} [Field K] [CharZero K] : ¬ ∀ (dates write : List ℤ) (x : ℤ → Unit → Option K)
    (k : ℕ), write.Pairwise (· < ·) → k < write.length → write.getD k 0 ∈ dates →
    (store (run (some .sum) (fun _ => true) none write (dates.map fun t => (t, x t)) ⟨none, 0⟩)
        (List.replicate write.length none)).getD k none =
      some fun c => aggregated .sum
        ((dates.filter (Within k ((timeBounds (dates.headD 0) write).getD k (0, 0)))).map fun t => x t c) := by
  intro h
  have := h [2, 4, 6] [2, 5, 6] (fun _ _ => some 1) 2 (by decide) (by decide) (by decide)
  simp only [List.map_cons, List.map_nil, run, update, aggregate, accum, store, List.mem_cons,
    List.not_mem_nil, or_false, or_true, true_or, if_true, Option.getD_none,
    List.length_cons, List.length_nil, List.replicate, List.headD_cons,
    show ¬ ((4 : ℤ) = 2 ∨ (4 : ℤ) = 5 ∨ (4 : ℤ) = 6) by decide, if_false, Option.getD_some] at this
  have hf : ([2, 4, 6] : List ℤ).filter (Within 2 ((timeBounds 2 [2, 5, 6]).getD 2 (0, 0))) = [6] := by decide
  rw [hf] at this
  have hi1 : ([2, 5, 6] : List ℤ).idxOf 2 = 0 := by decide
  have hi2 : ([2, 5, 6] : List ℤ).idxOf 6 = 2 := by decide
  rw [hi1, hi2] at this
  simp [aggregated, total] at this
  have := congrFun this ()
  simp at this

-- C94_bounds_partial: two intervals of two and one time steps, the last step is not written.
example : ([0, 3, 6, 9] : List ℤ).Pairwise (· < ·) ∧ ([3, 6] : List ℤ).Pairwise (· < ·) ∧
    (∀ t ∈ ([3, 6] : List ℤ), t ∈ ([0, 3, 6, 9] : List ℤ)) ∧
    timeBounds 0 [3, 6] = [(0, 3), (3, 6)] := by decide

-- C94_shared: three fields, two of which share a time coordinate.
example : (let fs : List OutField := [⟨['a'], false, 0, [1, 2]⟩, ⟨['b'], true, 0, [1, 2]⟩, ⟨['c'], false, 3, [1, 2]⟩]
    fs.map fun f => String.ofList (timeName fs f)) = ["time1", "time2", "time1"] := by decide

/-! ## C95 -/

theorem split_last (a a' b b' : List Char) (hb : '_' ∉ b) (hb' : '_' ∉ b')
    (h : a ++ ['_'] ++ b = a' ++ ['_'] ++ b') : a = a' ∧ b = b' := by
  have hr := congrArg List.reverse h
  simp only [List.reverse_append, List.append_assoc, List.reverse_cons, List.reverse_nil, List.nil_append] at hr
  have key : ∀ (r r' s s' : List Char), '_' ∉ r → '_' ∉ r' → r ++ (['_'] ++ s) = r' ++ (['_'] ++ s') →
      r = r' ∧ s = s' := by
    intro r
    induction r with
    | nil =>
      intro r' s s' _ h' e
      cases r' with
      | nil => simpa using e
      | cons c r' =>
        simp only [List.nil_append, List.cons_append, List.cons.injEq] at e
        exact absurd (by rw [e.1]; simp) h'
    | cons c r ih =>
      intro r' s s' h1 h' e
      cases r' with
      | nil =>
        simp only [List.nil_append, List.cons_append, List.cons.injEq] at e
        exact absurd (by rw [e.1]; simp) h1
      | cons c' r' =>
        simp only [List.cons_append, List.cons.injEq] at e
        obtain ⟨e1, e2⟩ := ih r' s s' (fun hm => h1 (by simp [hm])) (fun hm => h' (by simp [hm])) e.2
        exact ⟨by rw [e.1, e1], e2⟩
  obtain ⟨h1, h2⟩ := key _ _ _ _ (by simpa using hb) (by simpa using hb') hr
  exact ⟨List.reverse_injective h2, List.reverse_injective h1⟩

/-- Specification: name of the field or of its layer. -/
def Base (f : OutField) (layer : Option ℕ) : Name :=
  match layer with
  | none => f.out
  | some l => f.out ++ ['_'] ++ showNat l

theorem fileName_eq (fmt : ℤ → Name) (start step : ℤ) (f : OutField) (layer : Option ℕ) (date : ℤ) :
    ∃ from_, fileName fmt start step f layer date =
      (if f.agg then Base f layer ++ ['_'] ++ fmt from_ else Base f layer) ++ ['_'] ++ fmt date := by
  refine ⟨if f.write.idxOf date = 0 then start else f.write.getD (f.write.idxOf date - 1) 0 + step, ?_⟩
  · cases layer <;> cases h : f.agg <;> simp [fileName, dateStr, Base, h]

/-- **C95, partial.** Within a run no two values are written to the same file, if the output names do not end with a
layer number or a date as appended to other names, and the date format is injective on the written dates. Full statement:
for all accepted output names. -/
theorem C95_files_partial (fmt : ℤ → Name) (start step : ℤ) (fs : List OutField)
    (hfmt : ∀ d, '_' ∉ fmt d ∧ '-' ∈ fmt d)
    (hnames : (fs.map OutField.out).Nodup)
    (hlayer : ∀ f ∈ fs, ∀ g ∈ fs, ∀ l < g.dim3, f.out ≠ g.out ++ ['_'] ++ showNat l)
    (hdate : ∀ f ∈ fs, ∀ g ∈ fs, ∀ layer d, f.out ≠ Base g layer ++ ['_'] ++ fmt d)
    (f g : OutField) (hf : f ∈ fs) (hg : g ∈ fs) (l m : Option ℕ) (s t : ℤ)
    (hinj : fmt s = fmt t → s = t) (hfw : Written f l s) (hgw : Written g m t)
    (h : fileName fmt start step f l s = fileName fmt start step g m t) : f = g ∧ l = m ∧ s = t := by
  obtain ⟨u, hu⟩ := fileName_eq fmt start step f l s
  obtain ⟨v, hv⟩ := fileName_eq fmt start step g m t
  rw [hu, hv] at h
  obtain ⟨h1, h2⟩ := split_last _ _ _ _ (hfmt s).1 (hfmt t).1 h
  have hshow : ∀ n : ℕ, '_' ∉ showNat n ∧ '-' ∉ showNat n := by
    intro n
    constructor
    · intro hm
      have := showNat_mem n _ hm
      revert this; decide
    · intro hm
      have := showNat_mem n _ hm
      revert this; decide
  have hmix : ∀ f ∈ fs, ∀ g ∈ fs, ∀ (l m : Option ℕ) (d : ℤ), Base f l ≠ Base g m ++ ['_'] ++ fmt d := by
    intro f hf g hg l m d he
    cases l with
    | none => exact hdate f hf g hg m d he
    | some l =>
      obtain ⟨-, e⟩ := split_last _ _ _ _ (hshow l).1 (hfmt d).1 he
      exact (hshow l).2 (e ▸ (hfmt d).2)
  have hbase : Base f l = Base g m := by
    cases ha : f.agg <;> cases hb : g.agg <;> simp only [ha, hb, if_true, Bool.false_eq_true, if_false] at h1
    · exact h1
    · exact absurd h1 (hmix f hf g hg _ _ _)
    · exact absurd h1.symm (hmix g hg f hf _ _ _)
    · exact (split_last _ _ _ _ (hfmt u).1 (hfmt v).1 h1).1
  have hout : f.out = g.out → f = g := fun he => List.inj_on_of_nodup_map hnames hf hg he
  cases l with
  | none =>
    cases m with
    | none => exact ⟨hout hbase, rfl, hinj h2⟩
    | some m => exact absurd hbase (hlayer f hf g hg m (hgw.2.2 m rfl))
  | some l =>
    cases m with
    | none => exact absurd hbase.symm (hlayer g hg f hf l (hfw.2.2 l rfl))
    | some m =>
      obtain ⟨e1, e2⟩ := split_last _ _ _ _ (hshow l).1 (hshow m).1 hbase
      exact ⟨hout e1, by rw [showNat_inj e2], hinj h2⟩

/-- **C95 (partial).** The same for the fields of a run: no assumption on the configured names, since duplicate names of
fields with dates are refused. -/
theorem C95_run_partial (fmt : ℤ → Name) (start stop step : ℤ) (cfg fs : List OutField)
    (hrun : initFields start stop cfg [] = some fs)
    (hfmt : ∀ d, '_' ∉ fmt d ∧ '-' ∈ fmt d)
    (hlayer : ∀ f ∈ fs, ∀ g ∈ fs, ∀ l < g.dim3, f.out ≠ g.out ++ ['_'] ++ showNat l)
    (hdate : ∀ f ∈ fs, ∀ g ∈ fs, ∀ layer d, f.out ≠ Base g layer ++ ['_'] ++ fmt d)
    (f g : OutField) (hf : f ∈ fs) (hg : g ∈ fs) (l m : Option ℕ) (s t : ℤ)
    (hinj : fmt s = fmt t → s = t) (hfw : Written f l s) (hgw : Written g m t)
    (h : fileName fmt start step f l s = fileName fmt start step g m t) : f = g ∧ l = m ∧ s = t := by
  rw [C94_fields start stop cfg [] (by simp)] at hrun
  simp only at hrun
  split_ifs at hrun with hnd
  have hfs : fs = _ := (Option.some.inj hrun).symm
  exact C95_files_partial fmt start step fs hfmt (hfs ▸ hnd) hlayer hdate f g hf hg l m s t hinj hfw hgw h

/-- **C95.** False in general: layer 0 of a three-dimensional variable with the output name `temp` and a two-dimensional
one with the output name `temp_0` are written to the same file. -/
theorem C95_layer_false (fmt : ℤ → Name) : ¬ ∀ (start step : ℤ) (cfg fs : List OutField),
    initFields start (start + step) cfg [] = some fs →
    ∀ f ∈ fs, ∀ g ∈ fs, ∀ l m s t, Written f l s → Written g m t →
      fileName fmt start step f l s = fileName fmt start step g m t → f = g := by
  intro h
  have := h 0 1 [⟨"temp".toList, false, 2, [0]⟩, ⟨"temp_0".toList, false, 0, [0]⟩]
    [⟨"temp".toList, false, 2, [0]⟩, ⟨"temp_0".toList, false, 0, [0]⟩] (by
      simp [initFields])
    ⟨"temp".toList, false, 2, [0]⟩ (by simp) ⟨"temp_0".toList, false, 0, [0]⟩ (by simp)
    (some 0) none 0 0 ⟨by simp, by simp, by simp⟩ ⟨by simp, by simp, by simp⟩ (by
      simp [fileName, dateStr, showNat, digitChars])
  simp at this

end Verif.OutputDef
