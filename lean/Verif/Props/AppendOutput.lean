import Verif.Lemmas.AppendOutput

/-!
# C145: appending gridded output
-/

namespace Verif.AppendOutput

open Verif.OutputDef

variable {V : Type*}

/-- Specification: one record per date, with the date, for aggregates the interval since the previous date, and the
value. -/
def records (agg : Bool) (v : ℤ → Option V) : ℤ → List ℤ → List (Option ℤ × Option (ℤ × ℤ) × Option V)
  | _, [] => []
  | prev, t :: rest => (some t, if agg then some (prev, t) else none, v t) :: records agg v t rest

theorem records_length (agg : Bool) (v : ℤ → Option V) (prev : ℤ) (w : List ℤ) :
    (records agg v prev w).length = w.length := by
  induction w generalizing prev with
  | nil => rfl
  | cons t rest ih => simp [records, ih]

theorem records_getElem? (agg : Bool) (v : ℤ → Option V) (prev : ℤ) (w : List ℤ) (k : ℕ) :
    (records agg v prev w)[k]?
      = w[k]?.map fun t => (some t, if agg then (timeBounds prev w)[k]? else none, v t) := by
  induction w generalizing prev k with
  | nil => simp [records]
  | cons t rest ih =>
    cases k with
    | zero => simp [records, timeBounds]
    | succ k =>
      simp only [records, List.getElem?_cons_succ, ih, timeBounds, List.zip_cons_cons]

theorem records_take (agg : Bool) (v : ℤ → Option V) (prev : ℤ) (w : List ℤ) (n : ℕ) :
    records agg v prev (w.take n) = (records agg v prev w).take n := by
  induction w generalizing prev n with
  | nil => simp [records]
  | cons t rest ih => cases n <;> simp [records, ih]

theorem records_congr (agg : Bool) (v v' : ℤ → Option V) (prev : ℤ) (w : List ℤ) (h : ∀ t ∈ w, v t = v' t) :
    records agg v prev w = records agg v' prev w := by
  induction w generalizing prev with
  | nil => rfl
  | cons t rest ih =>
    simp only [records, h t (by simp), ih t (fun s hs => h s (List.mem_cons_of_mem _ hs))]

/-- The dates up to `now` of an increasing list are its first ones. -/
theorem filter_eq_take (w : List ℤ) (hw : w.Pairwise (· < ·)) (now : ℤ) :
    w.filter (fun t => decide (t ≤ now)) = w.take (w.filter fun t => decide (t ≤ now)).length := by
  induction w with
  | nil => rfl
  | cons t rest ih =>
    rw [List.pairwise_cons] at hw
    by_cases h : t ≤ now
    · rw [List.filter_cons_of_pos (by simpa using h), List.length_cons, List.take_succ_cons, ← ih hw.2]
    · have : (t :: rest).filter (fun t => decide (t ≤ now)) = [] := by
        rw [List.filter_eq_nil_iff]
        intro a ha
        have : t ≤ a := by
          rcases List.mem_cons.mp ha with rfl | ha
          · exact le_rfl
          · exact (hw.1 a ha).le
        simp; omega
      rw [this]; rfl

theorem reached {dates pre post w : List ℤ} {now : ℤ} (hd : dates.Pairwise (· < ·)) (he : dates = pre ++ now :: post)
    (hw : ∀ t ∈ w, t ∈ dates) : ∀ t ∈ w, (t ∈ pre ++ [now] ↔ t ≤ now) := by
  intro t ht
  have h1 := hw t ht
  subst he
  rw [List.pairwise_append] at hd
  obtain ⟨_, h3, h4⟩ := hd
  rw [List.pairwise_cons] at h3
  constructor
  · intro h
    rcases List.mem_append.mp h with h | h
    · exact (h4 t h now (by simp)).le
    · simp at h; omega
  · intro h
    rcases List.mem_append.mp h1 with h1 | h1
    · exact List.mem_append_left _ h1
    · rcases List.mem_cons.mp h1 with h1 | h1
      · simp [h1]
      · have := h3.1 t h1
        omega

/-- **C145.** Without the option the file has from the first time step on a record for every output date, with a value if
the date was reached. This holds for all output dates without repetitions. -/
theorem C145_direct (start : ℤ) (fs : List OutField) (val : OutField → ℤ → V) (dates : List ℤ)
    (hn : (fs.map OutField.out).Nodup) (f : OutField) (hf : f ∈ fs) (hw : f.write.Nodup) :
    view fs (run false start fs val dates) f
      = records f.agg (fun t => if t ∈ dates then some (val f t) else none) start f.write := by
  apply List.ext_getElem?
  intro k
  rw [records_getElem?, view, List.getElem?_map]
  obtain ⟨h1, h2, h3⟩ := run_direct_axis start fs val dates (timeName fs f) k
  rw [h1, timesOf_eq hf]
  by_cases hk : k < f.write.length
  · rw [List.getElem?_range hk, Option.map_some, h2, h3, timesOf_eq hf, boundsOf_eq start hf,
      run_data start fs val dates f false hn hf hw, List.getElem?_eq_getElem hk]
    cases f.agg <;> simp
  · have hz : f.write[k]? = none := List.getElem?_eq_none (by omega)
    rw [hz, List.getElem?_eq_none (by simpa using hk)]
    rfl

/-- **C145.** With the option the file has, for any output dates without repetitions, the records up to the last
one written; those that were not written are missing as a whole. -/
theorem C145_contents (start : ℤ) (fs : List OutField) (val : OutField → ℤ → V) (dates : List ℤ)
    (hn : (fs.map OutField.out).Nodup) (f : OutField) (hf : f ∈ fs) (hw : f.write.Nodup) (k : ℕ) :
    (view fs (run true start fs val dates) f)[k]?
      = open scoped Classical in if ∃ j t, f.write[j]? = some t ∧ t ∈ dates ∧ k ≤ j then
          f.write[k]?.map fun t =>
            if t ∈ dates then
              (some t, if f.agg then some (if k = 0 then start else f.write.getD (k - 1) 0, t) else none, some (val f t))
            else (none, none, none)
        else none := by
  rw [view, List.getElem?_map]
  have hs := run_size start fs val dates f hf hw k
  by_cases hk : k < (run true start fs val dates).size (timeName fs f)
  · rw [if_pos (hs.mp hk), List.getElem?_range hk, Option.map_some, run_time start fs val dates f hf hw,
      run_bounds start fs val dates f hf hw, run_data start fs val dates f true hn hf hw]
    obtain ⟨j, t, h1, _, h3⟩ := hs.mp hk
    obtain ⟨hj, _⟩ := List.getElem?_eq_some_iff.mp h1
    have hk' : k < f.write.length := by omega
    rw [List.getElem?_eq_getElem hk']
    simp only [Option.bind_some, Option.map_some]
    have hb : (timeBounds start f.write)[k]? = some (if k = 0 then start else f.write.getD (k - 1) 0, f.write[k]) := by
      have h4 := timeBounds_getD start f.write k hk'
      have hl : k < (timeBounds start f.write).length := by simp [timeBounds]; omega
      rw [getD_eq _ _ hl, getD_eq _ (0 : ℤ) hk'] at h4
      rw [List.getElem?_eq_getElem hl, h4]
    rw [hb]
    by_cases hd : f.write[k] ∈ dates
    · cases f.agg <;> simp [hd]
    · simp [hd]
  · rw [if_neg (fun h => hk (hs.mpr h)), List.getElem?_eq_none (by simpa using hk)]
    rfl

theorem view_true (start : ℤ) (fs : List OutField) (val : OutField → ℤ → V) (dates : List ℤ)
    (hn : (fs.map OutField.out).Nodup) (f : OutField) (hf : f ∈ fs) (hw : f.write.Pairwise (· < ·)) (now : ℤ)
    (hr : ∀ t ∈ f.write, (t ∈ dates ↔ t ≤ now)) :
    view fs (run true start fs val dates) f
      = records f.agg (fun t => some (val f t)) start (f.write.filter fun t => decide (t ≤ now)) := by
  have hnd : f.write.Nodup := hw.imp fun h => h.ne
  have hft := filter_eq_take f.write hw now
  set n := (f.write.filter fun t => decide (t ≤ now)).length with hn'
  have hlt : ∀ j (hj : j < f.write.length), f.write[j] ≤ now ↔ j < n := by
    intro j hj
    constructor
    · intro h
      by_contra hc
      have h1 : f.write[j] ∈ f.write.filter fun t => decide (t ≤ now) := by simp [h]
      rw [hft] at h1
      obtain ⟨i, hi, hij⟩ := List.getElem_of_mem h1
      rw [List.getElem_take] at hij
      have := (List.Nodup.getElem_inj_iff hnd).mp hij
      simp only [List.length_take] at hi
      omega
    · intro h
      have h1 : f.write[j] ∈ f.write.take n := by
        rw [List.mem_take_iff_getElem]
        exact ⟨j, by omega, rfl⟩
      rw [← hft] at h1
      simpa using (List.mem_filter.mp h1).2
  have hsz : (run true start fs val dates).size (timeName fs f) = n := by
    have key : ∀ k, k < (run true start fs val dates).size (timeName fs f) ↔ k < n := by
      intro k
      rw [run_size start fs val dates f hf hnd]
      constructor
      · rintro ⟨j, t, h1, h2, h3⟩
        obtain ⟨hj, rfl⟩ := List.getElem?_eq_some_iff.mp h1
        have := (hlt j hj).mp ((hr _ (List.getElem_mem hj)).mp h2)
        omega
      · intro h
        have hl : n ≤ f.write.length := List.length_filter_le _ _
        have hk : k < f.write.length := by omega
        exact ⟨k, _, List.getElem?_eq_getElem hk, (hr _ (List.getElem_mem hk)).mpr ((hlt k hk).mpr h), le_rfl⟩
    have h1 := key n
    have h2 := key (run true start fs val dates |>.size (timeName fs f))
    omega
  rw [hft, records_take]
  apply List.ext_getElem?
  intro k
  rw [view, List.getElem?_map, hsz, List.getElem?_take]
  by_cases hk : k < n
  · have hl : n ≤ f.write.length := List.length_filter_le _ _
    have hk' : k < f.write.length := by omega
    have hd : f.write[k] ∈ dates := (hr _ (List.getElem_mem hk')).mpr ((hlt k hk').mpr hk)
    rw [List.getElem?_range hk, Option.map_some, if_pos hk, records_getElem?, run_time start fs val dates f hf hnd,
      run_bounds start fs val dates f hf hnd, run_data start fs val dates f true hn hf hnd,
      List.getElem?_eq_getElem hk']
    simp [hd]
  · rw [List.getElem?_eq_none (by simpa using hk), if_neg hk]
    rfl

/-- **C145.** If the output dates are increasing and on the time axis of the model, then after every time step the file
has exactly the records of the output dates reached so far. -/
theorem C145_prefix (start : ℤ) (fs : List OutField) (val : OutField → ℤ → V) (dates pre post : List ℤ) (now : ℤ)
    (hd : dates.Pairwise (· < ·)) (he : dates = pre ++ now :: post) (hn : (fs.map OutField.out).Nodup)
    (f : OutField) (hf : f ∈ fs) (hw : f.write.Pairwise (· < ·)) (hon : ∀ t ∈ f.write, t ∈ dates) :
    view fs (run true start fs val (pre ++ [now])) f
      = records f.agg (fun t => some (val f t)) start (f.write.filter fun t => decide (t ≤ now)) :=
  view_true start fs val _ hn f hf hw now (reached hd he hon)

/-- **C145.** These are the first records of the file without the option. -/
theorem C145_start (start : ℤ) (fs : List OutField) (val : OutField → ℤ → V) (dates pre post : List ℤ) (now : ℤ)
    (hd : dates.Pairwise (· < ·)) (he : dates = pre ++ now :: post) (hn : (fs.map OutField.out).Nodup)
    (f : OutField) (hf : f ∈ fs) (hw : f.write.Pairwise (· < ·)) (hon : ∀ t ∈ f.write, t ∈ dates) :
    view fs (run true start fs val (pre ++ [now])) f
      = (view fs (run false start fs val (pre ++ [now])) f).take (f.write.filter fun t => decide (t ≤ now)).length := by
  have hnd : f.write.Nodup := hw.imp fun h => h.ne
  rw [C145_prefix start fs val dates pre post now hd he hn f hf hw hon, C145_direct start fs val _ hn f hf hnd,
    ← records_take, ← filter_eq_take f.write hw now]
  apply records_congr
  intro t ht
  obtain ⟨h1, h2⟩ := List.mem_filter.mp ht
  rw [if_pos ((reached hd he hon t h1).mpr (by simpa using h2))]

/-- **C145.** After the run both files have the same records. -/
theorem C145_same_partial (start : ℤ) (fs : List OutField) (val : OutField → ℤ → V) (dates : List ℤ)
    (hn : (fs.map OutField.out).Nodup) (f : OutField) (hf : f ∈ fs) (hw : f.write.Pairwise (· < ·))
    (hon : ∀ t ∈ f.write, t ∈ dates) :
    view fs (run true start fs val dates) f = view fs (run false start fs val dates) f := by
  have hnd : f.write.Nodup := hw.imp fun h => h.ne
  obtain ⟨now, hnow⟩ : ∃ now, ∀ t ∈ f.write, t ≤ now := by
    refine ⟨f.write.foldr max 0, ?_⟩
    generalize f.write = w
    induction w with
    | nil => simp
    | cons a l ih =>
      intro t ht
      rcases List.mem_cons.mp ht with rfl | ht
      · exact le_max_left _ _
      · exact (ih t ht).trans (le_max_right _ _)
  rw [view_true start fs val dates hn f hf hw now (fun t ht => ⟨fun _ => hnow t ht, fun _ => hon t ht⟩),
    C145_direct start fs val dates hn f hf hnd, List.filter_eq_self.mpr (fun t ht => by simpa using hnow t ht)]
  exact records_congr _ _ _ _ _ fun t ht => by rw [if_pos (hon t ht)]

/-- Two fields with different dates, one of them aggregated. -/
def exFields : List OutField := [⟨['a'], false, 0, [1, 3]⟩, ⟨['b'], true, 0, [2, 4]⟩, ⟨['c'], true, 0, [2, 4]⟩]

example : (exFields.map OutField.out).Nodup ∧ (∀ f ∈ exFields, f.write.Pairwise (· < ·) ∧ ∀ t ∈ f.write, t ∈ [1, 2, 3, 4])
    ∧ ([1, 2, 3, 4] : List ℤ).Pairwise (· < ·) ∧ ([1, 2, 3, 4] : List ℤ) = [1, 2] ++ 3 :: [4]
    ∧ view exFields (run true 0 exFields (fun f t => (f.out, t)) [1, 2, 3]) ⟨['c'], true, 0, [2, 4]⟩
        = [(some 2, some (0, 2), some (['c'], 2))] := by
  decide +kernel

/-- **C145 does not hold for output dates that are not sorted**: in the midst of the run there is a record without time
and values. -/
theorem C145_unsorted_false :
    ∃ (fs : List OutField) (f : OutField), f ∈ fs ∧ (fs.map OutField.out).Nodup ∧ f.write.Nodup
      ∧ (∀ t ∈ f.write, t ∈ ([1, 2] : List ℤ))
      ∧ view fs (run true 1 fs (fun _ t => t) [1]) f = [(none, none, none), (some 1, none, some 1)] :=
  ⟨[⟨['a'], false, 0, [2, 1]⟩], ⟨['a'], false, 0, [2, 1]⟩, List.mem_singleton_self _, by decide +kernel⟩

/-- **C145 does not hold for output dates between the time steps**: the files after the run differ; with the option the
record in between has no time and the last one does not exist. -/
theorem C145_between_false :
    ∃ (fs : List OutField) (f : OutField), f ∈ fs ∧ (fs.map OutField.out).Nodup ∧ f.write.Pairwise (· < ·)
      ∧ view fs (run true 1 fs (fun _ t => t) [1, 4, 7]) f
          = [(some 1, none, some 1), (none, none, none), (some 4, none, some 4)]
      ∧ view fs (run false 1 fs (fun _ t => t) [1, 4, 7]) f
          = [(some 1, none, some 1), (some 3, none, none), (some 4, none, some 4), (some 6, none, none)] :=
  ⟨[⟨['a'], false, 0, [1, 3, 4, 6]⟩], ⟨['a'], false, 0, [1, 3, 4, 6]⟩, List.mem_singleton_self _, by decide +kernel⟩

end Verif.AppendOutput
