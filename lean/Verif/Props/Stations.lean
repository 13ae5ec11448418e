import Verif.Model.Stations
import Mathlib.Tactic.Linarith
import Mathlib.Tactic.NormNum
import Mathlib.Data.Rat.Floor
import Mathlib.Data.List.Nodup

/-!
# C48, C49, C51: stations
-/

set_option linter.unusedSectionVars false

namespace Verif.Stations

variable {K : Type*} [Field K] [LinearOrder K] [IsStrictOrderedRing K]

/-! ## C48 -/

theorem dedup_mem (seen : List ℕ) (l : List (Station K)) (s : Station K) (h : s ∈ dedup seen l) :
    s ∈ l ∧ s.id ∉ seen := by
  induction l generalizing seen with
  | nil => simp [dedup] at h
  | cons a l ih =>
    simp only [dedup] at h
    split_ifs at h with ha
    · obtain ⟨h1, h2⟩ := ih seen h
      exact ⟨by simp [h1], h2⟩
    · rcases List.mem_cons.mp h with rfl | h
      · exact ⟨by simp, ha⟩
      · obtain ⟨h1, h2⟩ := ih _ h
        exact ⟨by simp [h1], fun e => h2 (by simp [e])⟩

theorem dedup_nodup (seen : List ℕ) (l : List (Station K)) :
    ((dedup seen l).map Station.id).Nodup := by
  induction l generalizing seen with
  | nil => simp [dedup]
  | cons a l ih =>
    simp only [dedup]
    split_ifs with ha
    · exact ih seen
    · rw [List.map_cons, List.nodup_cons]
      refine ⟨?_, ih _⟩
      intro hm
      obtain ⟨s, hs, he⟩ := List.mem_map.mp hm
      exact (dedup_mem _ _ _ hs).2 (by simp [he])

theorem dedup_complete (seen : List ℕ) (l : List (Station K)) (s : Station K) (h : s ∈ l)
    (hs : s.id ∉ seen) (hu : ∀ t ∈ l, t.id = s.id → t = s) : s ∈ dedup seen l := by
  induction l generalizing seen with
  | nil => simp at h
  | cons a l ih =>
    simp only [dedup]
    by_cases has : a = s
    · subst has
      rw [if_neg hs]
      simp
    · have hne : a.id ≠ s.id := fun e => has (hu a (by simp) e)
      have hl : s ∈ l := by
        rcases List.mem_cons.mp h with e | e
        · exact absurd e.symm has
        · exact e
      have hu' : ∀ t ∈ l, t.id = s.id → t = s := fun t ht => hu t (by simp [ht])
      split_ifs
      · exact ih seen hl hs hu'
      · exact List.mem_cons_of_mem _ (ih _ hl (by simp [hs, Ne.symm hne]) hu')

theorem addIncluded_spec (all : List (Station K)) (inc : List ℕ) (m : List (Station K)) :
    (addIncluded all inc m = none ↔ ∃ i ∈ inc, ∀ s ∈ all, s.id ≠ i) ∧
    ∀ r, addIncluded all inc m = some r → ∀ s, s ∈ r ↔ s ∈ m ∨ (s ∈ all ∧ s.id ∈ inc) := by
  induction inc generalizing m with
  | nil =>
    refine ⟨by simp [addIncluded], ?_⟩
    intro r hr s
    simp only [addIncluded, Option.some.injEq] at hr
    subst hr
    simp
  | cons i inc ih =>
    cases hf : all.filter fun s => decide (s.id = i) with
    | nil =>
      have hno : ∀ s ∈ all, s.id ≠ i := by
        intro s hs e
        have : s ∈ all.filter fun s => decide (s.id = i) := by simp [hs, e]
        rw [hf] at this
        simp at this
      have hn : addIncluded all (i :: inc) m = none := by simp only [addIncluded, hf]
      refine ⟨⟨fun _ => ⟨i, by simp, hno⟩, fun _ => hn⟩, ?_⟩
      intro r hr
      rw [hn] at hr
      cases hr
    | cons a as =>
      have he : addIncluded all (i :: inc) m = addIncluded all inc (m ++ a :: as) := by
        simp only [addIncluded, hf]
      have ham : a ∈ all ∧ a.id = i := by
        have : a ∈ all.filter fun s => decide (s.id = i) := by rw [hf]; simp
        simpa using this
      rw [he]
      obtain ⟨h1, h2⟩ := ih (m ++ a :: as)
      refine ⟨?_, ?_⟩
      · rw [h1]
        constructor
        · rintro ⟨j, hj, h⟩
          exact ⟨j, by simp [hj], h⟩
        · rintro ⟨j, hj, h⟩
          rcases List.mem_cons.mp hj with rfl | hj
          · exact absurd ham.2 (h a ham.1)
          · exact ⟨j, hj, h⟩
      · intro r hr s
        rw [h2 r hr s, ← hf]
        simp only [List.mem_append, List.mem_filter, decide_eq_true_eq, List.mem_cons]
        tauto

/-- **C48.** Including an unknown station is an error, and the only one. -/
theorem C48_error (bounds : Option (Bounds K)) (exclude inclusion : Option (List ℕ))
    (table : List (Station K)) :
    applyRules bounds exclude inclusion table = none ↔
      ∃ inc, inclusion = some inc ∧ ∃ i ∈ inc, ∀ s ∈ table, s.id ≠ i := by
  unfold applyRules
  cases inclusion with
  | none => simp
  | some inc =>
    simp only [Option.map_eq_none_iff]
    rw [(addIncluded_spec table inc _).1]
    simp

/-- **C48.** For a table with unique IDs the selected stations are, each once, exactly those of the
table that are inside the half-open bounds (if any) and not excluded, or that are explicitly
included. -/
theorem C48_selected (bounds : Option (Bounds K)) (exclude inclusion : Option (List ℕ))
    (table r : List (Station K)) (hu : (table.map Station.id).Nodup)
    (h : applyRules bounds exclude inclusion table = some r) :
    (r.map Station.id).Nodup ∧
    ∀ s, s ∈ r ↔ s ∈ table ∧
      (((∀ b, bounds = some b → b.xmin ≤ s.x ∧ s.x < b.xmax ∧ b.ymin ≤ s.y ∧ s.y < b.ymax) ∧
        ∀ ex, exclude = some ex → s.id ∉ ex) ∨
       ∃ inc, inclusion = some inc ∧ s.id ∈ inc) := by
  have huniq : ∀ s ∈ table, ∀ t ∈ table, t.id = s.id → t = s :=
    fun s hs t ht e => List.inj_on_of_nodup_map hu ht hs e
  simp only [applyRules] at h
  obtain ⟨m2, hm2⟩ : ∃ m2, kept bounds exclude table = m2 := ⟨_, rfl⟩
  have hmem : ∀ s, s ∈ m2 ↔ s ∈ table ∧
      (∀ b, bounds = some b → b.xmin ≤ s.x ∧ s.x < b.xmax ∧ b.ymin ≤ s.y ∧ s.y < b.ymax) ∧
        ∀ ex, exclude = some ex → s.id ∉ ex := by
    intro s
    rw [← hm2]
    cases exclude <;> cases bounds <;>
      simp [kept, inBounds] <;> tauto
  cases inclusion with
  | none =>
    simp only [Option.map_some, Option.some.injEq] at h
    rw [hm2] at h
    subst h
    refine ⟨dedup_nodup _ _, fun s => ⟨fun hs => ?_, fun hs => ?_⟩⟩
    · have := (hmem s).mp (dedup_mem _ _ _ hs).1
      exact ⟨this.1, Or.inl this.2⟩
    · have hs2 : s ∈ m2 := by
        rw [hmem]
        exact ⟨hs.1, hs.2.resolve_right (by simp)⟩
      exact dedup_complete _ _ _ hs2 (by simp) fun t ht e =>
        huniq s hs.1 t ((hmem t).mp ht).1 e
  | some inc =>
    simp only at h
    rw [hm2] at h
    cases hadd : addIncluded table inc m2 with
    | none => rw [hadd] at h; simp at h
    | some m3 =>
      rw [hadd] at h
      simp only [Option.map_some, Option.some.injEq] at h
      subst h
      have h3 := (addIncluded_spec table inc m2).2 m3 hadd
      have hin : ∀ t ∈ m3, t ∈ table := by
        intro t ht
        rcases (h3 t).mp ht with h | h
        · exact ((hmem t).mp h).1
        · exact h.1
      refine ⟨dedup_nodup _ _, fun s => ⟨fun hs => ?_, fun hs => ?_⟩⟩
      · have hm := (dedup_mem _ _ _ hs).1
        refine ⟨hin s hm, ?_⟩
        rcases (h3 s).mp hm with h | h
        · exact Or.inl ((hmem s).mp h).2
        · exact Or.inr ⟨inc, rfl, h.2⟩
      · have hm : s ∈ m3 := by
          rw [h3]
          rcases hs.2 with h | ⟨inc', e, h⟩
          · exact Or.inl ((hmem s).mpr ⟨hs.1, h⟩)
          · cases e
            exact Or.inr ⟨hs.1, h⟩
        exact dedup_complete _ _ _ hm (by simp) fun t ht e => huniq s hs.1 t (hin t ht) e

/-- Three stations: one outside the bounds but included, one excluded, one kept. -/
example : applyRules (K := ℚ) (some ⟨0, 0, 10, 10⟩) (some [2]) (some [3])
    [{ id := 1, x := 5, y := 5 }, { id := 2, x := 6, y := 6 }, { id := 3, x := 20, y := 5 }] =
      some [{ id := 1, x := 5, y := 5 }, { id := 3, x := 20, y := 5 }] := by
  norm_num [applyRules, kept, inBounds, addIncluded, dedup, List.filter]

/-! ## C49 -/

/-- Specification: value in the range of a filter. -/
def InRange (f : Range K) (x : K) : Prop :=
  (∀ lo, f.min = some lo → lo ≤ x) ∧ ∀ hi, f.max = some hi → x ≤ hi

theorem filterVal_spec (f : Range K) (v : Option K) :
    (∀ x, filterVal f v = some x ↔ v = some x ∧ InRange f x) := by
  obtain ⟨var, lo, hi⟩ := f
  intro x
  cases v with
  | none => cases lo <;> cases hi <;> simp [filterVal]
  | some y =>
    cases lo with
    | none =>
      cases hi with
      | none => simp [filterVal, InRange]
      | some h =>
        by_cases h2 : y > h
        · simp only [filterVal, h2, if_true, InRange, reduceCtorEq, false_iff]
          rintro ⟨e, -, h3⟩
          cases e
          exact absurd (h3 h rfl) (not_le.mpr h2)
        · simp only [filterVal, h2, if_false, InRange, Option.some.injEq]
          constructor
          · rintro rfl
            exact ⟨rfl, by simp, fun _ e => e ▸ not_lt.mp h2⟩
          · exact fun h => h.1
    | some l =>
      by_cases h1 : y < l
      · have : filterVal ⟨var, some l, hi⟩ (some y) = none := by
          cases hi <;> simp [filterVal, h1]
        rw [this]
        simp only [reduceCtorEq, false_iff, InRange]
        rintro ⟨e, h3, -⟩
        cases e
        exact absurd (h3 l rfl) (not_le.mpr h1)
      · cases hi with
        | none =>
          simp only [filterVal, h1, if_false, InRange, Option.some.injEq]
          constructor
          · rintro rfl
            exact ⟨rfl, fun _ e => e ▸ not_lt.mp h1, by simp⟩
          · exact fun h => h.1
        | some h =>
          by_cases h2 : y > h
          · simp only [filterVal, h1, h2, if_true, if_false, InRange, reduceCtorEq, false_iff]
            rintro ⟨e, -, h3⟩
            cases e
            exact absurd (h3 h rfl) (not_le.mpr h2)
          · simp only [filterVal, h1, h2, if_false, InRange, Option.some.injEq]
            constructor
            · rintro rfl
              exact ⟨rfl, fun _ e => e ▸ not_lt.mp h1, fun _ e => e ▸ not_lt.mp h2⟩
            · exact fun h => h.1

/-- **C49.** Full description of the filtered data: a variable is present iff it was, its series has
the same length, and a value remains — unchanged — iff it was present and lies in the ranges of all
filters for the variable; otherwise it is missing. -/
theorem C49_filters (fs : List (Range K)) (ds : Data K) (v : ℕ) :
    match ds v with
    | none => applyFilters fs ds v = none
    | some xs => ∃ ys, applyFilters fs ds v = some ys ∧ ys.length = xs.length ∧
        ∀ (i : ℕ) (x : K), ys[i]? = some (some x) ↔
          xs[i]? = some (some x) ∧ ∀ f ∈ fs, f.var = v → InRange f x := by
  induction fs generalizing ds with
  | nil =>
    cases h : ds v with
    | none => simpa [applyFilters] using h
    | some xs => exact ⟨xs, by simpa [applyFilters] using h, rfl, by simp⟩
  | cons f fs ih =>
    obtain ⟨ds', hds'⟩ : ∃ ds' : Data K, (fun w => if w = f.var then
      (ds w).map (List.map (filterVal f)) else ds w) = ds' := ⟨_, rfl⟩
    have hstep : applyFilters (f :: fs) ds = applyFilters fs ds' := by
      rw [← hds']; rfl
    have := ih ds'
    have hv : ds' v = if v = f.var then (ds v).map (List.map (filterVal f)) else ds v := by rw [← hds']
    rw [hstep]
    cases h : ds v with
    | none =>
      have hv' : ds' v = none := by rw [hv, h]; simp
      rw [hv'] at this
      exact this
    | some xs =>
      by_cases hvar : v = f.var
      · have hv' : ds' v = some (xs.map (filterVal f)) := by rw [hv, h]; simp [hvar]
        rw [hv'] at this
        obtain ⟨ys, h1, h2, h3⟩ := this
        refine ⟨ys, h1, by simpa using h2, ?_⟩
        intro i x
        rw [h3, List.getElem?_map]
        cases hx : xs[i]? with
        | none => simp
        | some o =>
          simp only [Option.map_some, Option.some.injEq, filterVal_spec, List.mem_cons, forall_eq_or_imp]
          constructor
          · rintro ⟨⟨e1, e2⟩, e3⟩
            exact ⟨e1, fun _ => e2, e3⟩
          · rintro ⟨e1, e2, e3⟩
            exact ⟨⟨e1, e2 hvar.symm⟩, e3⟩
      · have hv' : ds' v = some xs := by rw [hv, h]; simp [hvar]
        rw [hv'] at this
        obtain ⟨ys, h1, h2, h3⟩ := this
        refine ⟨ys, h1, h2, ?_⟩
        intro i x
        rw [h3]
        simp only [List.mem_cons, forall_eq_or_imp]
        constructor
        · rintro ⟨e1, e2⟩
          exact ⟨e1, fun e => absurd e.symm hvar, e2⟩
        · rintro ⟨e1, -, e2⟩
          exact ⟨e1, e2⟩

theorem applyFilters_ext (fs gs : List (Range K)) (ds : Data K)
    (h : ∀ v x, (∀ f ∈ fs, f.var = v → InRange f x) ↔ (∀ f ∈ gs, f.var = v → InRange f x)) :
    applyFilters fs ds = applyFilters gs ds := by
  funext v
  have h1 := C49_filters fs ds v
  have h2 := C49_filters gs ds v
  cases hd : ds v with
  | none => rw [hd] at h1 h2; exact h1.trans h2.symm
  | some xs =>
    rw [hd] at h1 h2
    obtain ⟨ys, a1, a2, a3⟩ := h1
    obtain ⟨zs, b1, b2, b3⟩ := h2
    rw [a1, b1]
    congr 1
    apply List.ext_getElem?
    intro i
    by_cases hi : i < xs.length
    · have ey : ∃ o, ys[i]? = some o := ⟨ys[i]'(by omega), List.getElem?_eq_getElem (by omega)⟩
      have ez : ∃ o, zs[i]? = some o := ⟨zs[i]'(by omega), List.getElem?_eq_getElem (by omega)⟩
      obtain ⟨oy, ey⟩ := ey
      obtain ⟨oz, ez⟩ := ez
      have key : ∀ x, oy = some x ↔ oz = some x := by
        intro x
        have e1 := a3 i x
        have e2 := b3 i x
        rw [ey, Option.some.injEq] at e1
        rw [ez, Option.some.injEq] at e2
        rw [e1, e2, h v x]
      rw [ey, ez]
      congr 1
      cases oy with
      | none =>
        cases oz with
        | none => rfl
        | some z => exact absurd ((key z).mpr rfl) (by simp)
      | some y => exact ((key y).mp rfl).symm
    · rw [List.getElem?_eq_none (by omega), List.getElem?_eq_none (by omega)]

/-- **C49.** The result does not depend on the order of the filters. -/
theorem C49_order (fs gs : List (Range K)) (h : fs.Perm gs) (ds : Data K) :
    applyFilters fs ds = applyFilters gs ds := by
  apply applyFilters_ext
  intro v x
  constructor
  · intro h1 f hf
    exact h1 f (h.mem_iff.mpr hf)
  · intro h1 f hf
    exact h1 f (h.mem_iff.mp hf)

/-- **C49.** Filtering twice is filtering once. -/
theorem C49_idempotent (fs : List (Range K)) (ds : Data K) :
    applyFilters fs (applyFilters fs ds) = applyFilters fs ds := by
  have : applyFilters fs (applyFilters fs ds) = applyFilters (fs ++ fs) ds := by
    simp [applyFilters, List.foldl_append]
  rw [this]
  apply applyFilters_ext
  intro v x
  simp [List.mem_append, or_imp, forall_and]

/-- Two filters on one variable, values with a gap. -/
example : applyFilters [⟨0, some 0, none⟩, ⟨0, none, some 10⟩]
    (fun v => if v = 0 then some [some (-1), some 5, none, some 11, some (10 : ℚ)] else none) 0 =
    some [none, some 5, none, none, some 10] := by
  norm_num [applyFilters, filterVal]

/-! ## C51 -/

section pos

variable [FloorRing K]

/-- **C51.** A station is within the grid extent exactly if `x_min ≤ x < x_max` and
`y_min < y ≤ y_max`. -/
theorem C51_extent (g : Geom K) (hres : 0 < g.res) (x y : K) :
    withinExtent g x y = true ↔
      g.xoff ≤ x ∧ x < g.xoff + g.cols * g.res ∧ g.yoff - g.rows * g.res < y ∧ y ≤ g.yoff := by
  simp only [withinExtent, Bool.and_eq_true, decide_eq_true_eq]
  simp only [rowcol]
  rw [Int.floor_nonneg, Int.floor_nonneg, Int.floor_lt, Int.floor_lt, le_div_iff₀ hres,
    le_div_iff₀ hres, div_lt_iff₀ hres, div_lt_iff₀ hres, zero_mul]
  push_cast
  constructor
  · rintro ⟨⟨⟨h1, h2⟩, h3⟩, h4⟩
    refine ⟨?_, ?_, ?_, ?_⟩ <;> linarith
  · rintro ⟨h1, h2, h3, h4⟩
    refine ⟨⟨⟨?_, ?_⟩, ?_⟩, ?_⟩ <;> linarith

/-- Specification: the point lies in the cell (upper and left edge included). -/
def InCell (g : Geom K) (row col : ℕ) (x y : K) : Prop :=
  g.xoff + col * g.res ≤ x ∧ x < g.xoff + (col + 1) * g.res ∧
  g.yoff - (row + 1) * g.res < y ∧ y ≤ g.yoff - row * g.res

theorem inCell_iff (g : Geom K) (hres : 0 < g.res) (x y : K) (row col : ℕ)
    (hw : withinExtent g x y = true) :
    InCell g row col x y ↔ (rowcol g x y).1.toNat = row ∧ (rowcol g x y).2.toNat = col := by
  simp only [withinExtent, Bool.and_eq_true, decide_eq_true_eq] at hw
  obtain ⟨⟨⟨h1, -⟩, h3⟩, -⟩ := hw
  have e1 : (rowcol g x y).1.toNat = row ↔ (rowcol g x y).1 = row := by omega
  have e2 : (rowcol g x y).2.toNat = col ↔ (rowcol g x y).2 = col := by omega
  rw [e1, e2]
  simp only [rowcol, InCell]
  rw [Int.floor_eq_iff, Int.floor_eq_iff, le_div_iff₀ hres, div_lt_iff₀ hres, le_div_iff₀ hres,
    div_lt_iff₀ hres]
  push_cast
  constructor
  · rintro ⟨a, b, c, d⟩
    refine ⟨⟨?_, ?_⟩, ?_, ?_⟩ <;> linarith
  · rintro ⟨⟨a, b⟩, c, d⟩
    refine ⟨?_, ?_, ?_, ?_⟩ <;> linarith

/-- **C51.** A station is within the ROI exactly if it lies in a ROI cell of the grid. -/
theorem C51_roi (g : Geom K) (hres : 0 < g.res) (roi : ℕ → ℕ → Bool) (x y : K) :
    withinRoi g roi x y = true ↔
      ∃ row col, row < g.rows ∧ col < g.cols ∧ InCell g row col x y ∧ roi row col = true := by
  unfold withinRoi
  constructor
  · intro h
    split_ifs at h with hw
    have hw' := hw
    simp only [withinExtent, Bool.and_eq_true, decide_eq_true_eq] at hw'
    obtain ⟨⟨⟨h1, h2⟩, h3⟩, h4⟩ := hw'
    exact ⟨_, _, by omega, by omega, (inCell_iff g hres x y _ _ hw).mpr ⟨rfl, rfl⟩, h⟩
  · rintro ⟨row, col, hr, hc, hin, hroi⟩
    have hr' : (row : K) + 1 ≤ g.rows := by exact_mod_cast hr
    have hc' : (col : K) + 1 ≤ g.cols := by exact_mod_cast hc
    have hr0 : (0 : K) ≤ row := Nat.cast_nonneg _
    have hc0 : (0 : K) ≤ col := Nat.cast_nonneg _
    have hw : withinExtent g x y = true := by
      rw [C51_extent g hres]
      obtain ⟨a, b, c, d⟩ := hin
      refine ⟨?_, ?_, ?_, ?_⟩ <;> nlinarith
    rw [if_pos hw]
    obtain ⟨e1, e2⟩ := (inCell_iff g hres x y _ _ hw).mp hin
    rw [e1, e2, hroi]

/-- **C51.** After extending the ROI, exactly the former ROI cells and the cells containing a station
within the extent are in the ROI; in particular all those stations are within the ROI. -/
theorem C51_extend (g : Geom K) (hres : 0 < g.res) (roi : ℕ → ℕ → Bool) (st : List (K × K)) :
    (∀ row col, row < g.rows → col < g.cols →
      (extendRoi g roi st row col = true ↔
        roi row col = true ∨ ∃ s ∈ st, InCell g row col s.1 s.2)) ∧
    ∀ s ∈ st, withinExtent g s.1 s.2 = true → withinRoi g (extendRoi g roi st) s.1 s.2 = true := by
  have hfold : ∀ (l : List (K × K)) (r : ℕ → ℕ → Bool) (row col : ℕ),
      (l.foldl (fun r s i j => if i = (rowcol g s.1 s.2).1.toNat ∧ j = (rowcol g s.1 s.2).2.toNat
        then true else r i j) r) row col = true ↔
      r row col = true ∨ ∃ s ∈ l, row = (rowcol g s.1 s.2).1.toNat ∧ col = (rowcol g s.1 s.2).2.toNat := by
    intro l
    induction l with
    | nil => simp
    | cons a l ih =>
      intro r row col
      rw [List.foldl_cons, ih]
      simp only [List.mem_cons, exists_eq_or_imp]
      split_ifs with h
      · simp [h]
      · simp [h]
  have main : ∀ row col, row < g.rows → col < g.cols →
      (extendRoi g roi st row col = true ↔
        roi row col = true ∨ ∃ s ∈ st, InCell g row col s.1 s.2) := by
    intro row col hr hc
    unfold extendRoi
    rw [hfold]
    constructor
    · rintro (h | ⟨s, hs, h1, h2⟩)
      · exact Or.inl h
      · rw [List.mem_filter, Bool.and_eq_true] at hs
        exact Or.inr ⟨s, hs.1, (inCell_iff g hres _ _ _ _ hs.2.1).mpr ⟨h1.symm, h2.symm⟩⟩
    · rintro (h | ⟨s, hs, hin⟩)
      · exact Or.inl h
      · by_cases hroi : roi row col = true
        · exact Or.inl hroi
        · right
          have hr' : (row : K) + 1 ≤ g.rows := by exact_mod_cast hr
          have hc' : (col : K) + 1 ≤ g.cols := by exact_mod_cast hc
          have hr0 : (0 : K) ≤ row := Nat.cast_nonneg _
          have hc0 : (0 : K) ≤ col := Nat.cast_nonneg _
          have hw : withinExtent g s.1 s.2 = true := by
            rw [C51_extent g hres]
            obtain ⟨a, b, c, d⟩ := hin
            refine ⟨?_, ?_, ?_, ?_⟩ <;> nlinarith
          obtain ⟨e1, e2⟩ := (inCell_iff g hres _ _ _ _ hw).mp hin
          refine ⟨s, ?_, e1.symm, e2.symm⟩
          rw [List.mem_filter, Bool.and_eq_true]
          refine ⟨hs, hw, ?_⟩
          rw [Bool.not_eq_true']
          unfold withinRoi
          rw [if_pos hw, e1, e2]
          simpa using hroi
  refine ⟨main, ?_⟩
  intro s hs hw
  have hw' := hw
  simp only [withinExtent, Bool.and_eq_true, decide_eq_true_eq] at hw'
  obtain ⟨⟨⟨h1, h2⟩, h3⟩, h4⟩ := hw'
  unfold withinRoi
  rw [if_pos hw, main _ _ (by omega) (by omega)]
  exact Or.inr ⟨s, hs, (inCell_iff g hres _ _ _ _ hw).mpr ⟨rfl, rfl⟩⟩

/-- **C51.** The bounds filter with the extent of the grid and `within_grid_extent` agree except on
the upper and lower edge. -/
theorem C51_bounds_disagree (g : Geom K) (hres : 0 < g.res) (s : Station K)
    (b : Bounds K) (hb : b = ⟨g.xoff, g.yoff - g.rows * g.res, g.xoff + g.cols * g.res, g.yoff⟩)
    (hne : inBounds b s ≠ withinExtent g s.x s.y) : s.y = b.ymin ∨ s.y = b.ymax := by
  subst hb
  have h := C51_extent g hres s.x s.y
  simp only
  by_contra hcon
  push Not at hcon
  apply hne
  rw [Bool.eq_iff_iff, h]
  simp only [inBounds, Bool.and_eq_true, decide_eq_true_eq]
  constructor
  · rintro ⟨⟨⟨h1, h2⟩, h3⟩, h4⟩
    exact ⟨h1, h3, lt_of_le_of_ne h2 (Ne.symm hcon.1), h4.le⟩
  · rintro ⟨h1, h2, h3, h4⟩
    exact ⟨⟨⟨h1, h3.le⟩, h2⟩, lt_of_le_of_ne h4 hcon.2⟩

/-- **C05, C51.** Without the extension every ROI cell has an elevation. -/
theorem C51_roi_elevation (dem : ℕ → ℕ → Option K) (roi : ℕ → ℕ → Bool) (i j : ℕ) :
    excludeNan dem roi i j = true ↔ roi i j = true ∧ dem i j ≠ none := by
  unfold excludeNan
  cases dem i j <;> cases roi i j <;> simp

end pos

/-- **C51.** The two disagree: a station on the lower edge is inside the bounds but not within the grid
extent, one on the upper edge vice versa. -/
theorem C51_edges_witness :
    inBounds ⟨0, 0, 100, 100⟩ ({ id := 1, x := 50, y := 0 } : Station ℚ) = true ∧
    withinExtent (⟨0, 100, 50, 2, 2⟩ : Geom ℚ) 50 0 = false ∧
    inBounds ⟨0, 0, 100, 100⟩ ({ id := 1, x := 50, y := 100 } : Station ℚ) = false ∧
    withinExtent (⟨0, 100, 50, 2, 2⟩ : Geom ℚ) 50 100 = true := by
  norm_num [inBounds, withinExtent, rowcol]

/-- **C51.** The extension brings cells without elevation back into the ROI: the exclusion of those
cells (`model.py:609-612`) comes before it. -/
theorem C51_extended_nan_witness :
    ∃ (g : Geom ℚ) (dem : ℕ → ℕ → Option ℚ) (st : List (ℚ × ℚ)),
      dem 0 0 = none ∧ extendRoi g (excludeNan dem fun _ _ => true) st 0 0 = true := by
  refine ⟨⟨0, 100, 50, 2, 2⟩, fun i j => if i = 0 ∧ j = 0 then none else some 1000, [(10, 90)],
    by simp, ?_⟩
  rw [(C51_extend _ (by norm_num) _ _).1 0 0 (by norm_num) (by norm_num)]
  right
  exact ⟨_, List.mem_singleton.mpr rfl, by norm_num [InCell]⟩

end Verif.Stations
