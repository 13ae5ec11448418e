import Verif.Model.Forcing
import Verif.Props.Time
import Mathlib.Tactic

/-!
# C85, C86: forcing datasets
-/

set_option linter.unusedSectionVars false

namespace Verif.Forcing

variable {K : Type*} [Field K] [LinearOrder K] [IsStrictOrderedRing K]

/-! ## C85: units -/

/-- Specification: factor converting values of a variable given in units `u` to the units expected by the
model, `dt` being the length of a time step in seconds; `none` if there is no such conversion. -/
def unitFactor (dt : K) (name u : String) : Option K :=
  if (name, u) ∈ meteoUnits then some 1
  else if name = "precip" ∧ u = "kg m-2 s-1" then some dt
  else if name = "cloud_fraction" ∧ u = "1" then some 100
  else none

/-- The supported variables of the input. -/
def supported (data : Data K) : Data K := data.filter fun p => allowed p.1

theorem importAll_none (s : Step) (n : ℕ) (data : Data K) :
    importAll s n data = none ↔
      ∃ p ∈ data, allowed p.1 = true ∧ importVar s n p.1 p.2 = none := by
  induction data with
  | nil => simp [importAll]
  | cons p rest ih =>
    obtain ⟨name, v⟩ := p
    simp only [importAll, List.mem_cons, exists_eq_or_imp]
    by_cases ha : allowed name
    · rw [if_pos ha]
      cases h1 : importVar s n name v with
      | none => simp [ha]
      | some vals =>
        cases h2 : importAll s n rest with
        | none => simpa [h2] using ih.mp h2
        | some out =>
          have : ¬ ∃ p ∈ rest, allowed p.1 = true ∧ importVar s n p.1 p.2 = none := by
            rw [← ih, h2]; simp
          simpa using this
    · rw [if_neg ha, ih]; simp [ha]

theorem importAll_some (s : Step) (n : ℕ) (data : Data K) (out : List (String × List (Option K)))
    (h : importAll s n data = some out) :
    List.Forall₂ (fun p q => q.1 = p.1 ∧ importVar s n p.1 p.2 = some q.2) (supported data) out := by
  unfold supported
  induction data generalizing out with
  | nil => simp only [importAll, Option.some.injEq] at h; subst h; simp
  | cons p rest ih =>
    obtain ⟨name, v⟩ := p
    simp only [importAll] at h
    by_cases ha : allowed name
    · rw [if_pos ha] at h
      rw [List.filter_cons_of_pos (by simpa using ha)]
      cases h1 : importVar s n name v with
      | none => simp [h1] at h
      | some vals =>
        cases h2 : importAll s n rest with
        | none => simp [h1, h2] at h
        | some out' =>
          simp only [h1, h2, Option.some.injEq] at h
          subst h
          exact .cons ⟨rfl, h1⟩ (ih out' h2)
    · rw [if_neg ha] at h
      rw [List.filter_cons_of_neg (by simpa using ha)]
      exact ih out h

theorem importAll_iff (s : Step) (n : ℕ) (data : Data K) (out : List (String × List (Option K))) :
    importAll s n data = some out ↔
    List.Forall₂ (fun p q => q.1 = p.1 ∧ importVar s n p.1 p.2 = some q.2) (supported data) out := by
  refine ⟨importAll_some s n data out, fun h => ?_⟩
  cases h' : importAll s n data with
  | none =>
    exfalso
    obtain ⟨p, hp, ha, hn⟩ := (importAll_none s n data).mp h'
    have hm : p ∈ supported data := by
      unfold supported; exact List.mem_filter.mpr ⟨hp, by simpa using ha⟩
    clear h' hp
    generalize supported data = l at h hm
    induction h with
    | nil => simp at hm
    | cons h1 h2 ih =>
      rcases List.mem_cons.mp hm with rfl | hm
      · rw [hn] at h1; simp at h1
      · exact ih hm
  | some out' =>
    have h2 := importAll_some s n data out' h'
    congr 1
    clear h'
    generalize supported data = l at h h2
    induction h generalizing out' with
    | nil => cases h2; rfl
    | cons h1 _ ih =>
      cases h2 with
      | cons g1 g2 =>
        rw [ih _ g2]
        congr 1
        ext1
        · rw [h1.1, g1.1]
        · have := h1.2.symm.trans g1.2
          simpa using this.symm

/-- **C85.** A point dataset has exactly the supported variables of the input, each with as many values
as the input. -/
theorem C85_variables (other : List ℤ → Step) (dates : List ℤ) (data : Data K)
    (out : List (String × List (Option K))) (h : makePoint other dates data = some out) :
    out.map Prod.fst = (data.map Prod.fst).filter (fun n => decide (n ∈ meteoUnits.map Prod.fst)) ∧
    out.map (fun q => q.2.length) = (supported data).map fun p => p.2.vals.length := by
  have h1 := importAll_some _ _ _ _ h
  have e : (data.map Prod.fst).filter (fun n => decide (n ∈ meteoUnits.map Prod.fst)) =
      (supported data).map Prod.fst := by
    unfold supported
    rw [List.filter_map]; rfl
  rw [e]
  clear h e
  generalize supported data = l at h1
  induction h1 with
  | nil => simp
  | @cons p q l₁ l₂ h2 _ ih =>
    simp only [List.map_cons, List.cons.injEq]
    refine ⟨⟨h2.1, ih.1⟩, ?_, ih.2⟩
    have := h2.2
    simp only [importVar] at this
    split at this
    · simp at this
    · rename_i w hw
      have hwl : w.vals.length = p.2.vals.length := by
        have := hw
        simp only [convert] at this
        split_ifs at this
        · split at this
          · simp only [Option.some.injEq] at this; rw [← this]; simp [scaleVals]
          · simp only [Option.some.injEq] at this; rw [← this]; simp [scaleVals]
          · simp at this
        · simp only [Option.some.injEq] at this; rw [← this]
        · simp only [Option.some.injEq] at this; rw [← this]; simp [scaleVals]
        · simp only [Option.some.injEq] at this; rw [← this]
        · simp only [Option.some.injEq] at this; rw [← this]
      simp only [checkUnits] at this
      split at this
      · simp only [Option.some.injEq] at this; rw [← this, hwl]
      · split_ifs at this
        simp only [Option.some.injEq] at this; rw [← this, hwl]

theorem scaleVals_some (a : K) (vals : List (Option K)) :
    scaleVals (some a) vals = vals.map (Option.map (· * a)) := by
  unfold scaleVals
  congr 1
  ext1 v
  cases v <;> rfl

theorem maxLeOne_false (vals : List (Option K)) (x : K) (hx : some x ∈ vals) (h1 : 1 < x) :
    maxLeOne vals = false := by
  unfold maxLeOne
  have hm : x ∈ vals.filterMap id := List.mem_filterMap.mpr ⟨some x, hx, rfl⟩
  split
  · rfl
  · rename_i m hm'
    have := (List.max?_eq_some_iff.mp hm').2 x hm
    rw [decide_eq_false_iff_not]
    exact not_le.mpr (lt_of_lt_of_le h1 this)

/-- The guess `forcing.py:146` that cloud cover is given as a fraction does not apply. -/
def NoGuess (n : ℕ) (p : String × Var K) : Prop :=
  p.1 = "cloud_fraction" → p.2.units = some "1" ∨ n ≤ 10 ∨ ∃ x, some x ∈ p.2.vals ∧ 1 < x

theorem importVar_units (d : ℤ) (n : ℕ) (name u : String) (vals : List (Option K))
    (ha : allowed name = true) (hg : NoGuess n (name, ⟨some u, vals⟩)) :
    importVar (.secs d) n name ⟨some u, vals⟩ =
      (unitFactor (d : K) name u).map fun a => vals.map (Option.map (· * a)) := by
  have hid : vals.map (Option.map (· * (1 : K))) = vals := by
    simp
  unfold NoGuess at hg
  simp only [allowed, meteoUnits, List.map_cons, List.map_nil, List.mem_cons, List.not_mem_nil,
    or_false, decide_eq_true_eq] at ha
  rcases ha with rfl | rfl | rfl | rfl | rfl | rfl | rfl | rfl
  · by_cases h : u = "K" <;>
      simp [importVar, convert, checkUnits, unitFactor, meteoUnits, List.lookup, h, hid]
  · by_cases h : u = "kg m-2"
    · subst h
      simp [importVar, convert, checkUnits, unitFactor, meteoUnits, List.lookup]
    · by_cases h2 : u = "kg m-2 s-1"
      · subst h2
        simp [importVar, convert, checkUnits, unitFactor, meteoUnits, List.lookup, scaleVals_some]
      · simp [importVar, convert, checkUnits, unitFactor, meteoUnits, List.lookup, h, h2]
  · by_cases h : u = "%" <;>
      simp [importVar, convert, checkUnits, unitFactor, meteoUnits, List.lookup, h, hid]
  · by_cases h : u = "W m-2" <;>
      simp [importVar, convert, checkUnits, unitFactor, meteoUnits, List.lookup, h, hid]
  · by_cases h : u = "m s-1" <;>
      simp [importVar, convert, checkUnits, unitFactor, meteoUnits, List.lookup, h, hid]
  · by_cases h : u = "m s-1" <;>
      simp [importVar, convert, checkUnits, unitFactor, meteoUnits, List.lookup, h, hid]
  · by_cases h : u = "degree" <;>
      simp [importVar, convert, checkUnits, unitFactor, meteoUnits, List.lookup, h, hid]
  · by_cases h2 : u = "1"
    · subst h2
      simp [importVar, convert, checkUnits, unitFactor, meteoUnits, List.lookup, scaleVals_some]
    · have hno : ¬ (10 < n ∧ maxLeOne vals = true) := by
        rcases hg rfl with h | h | ⟨x, hx, h1⟩
        · simp at h; exact absurd h h2
        · omega
        · rw [maxLeOne_false vals x hx h1]; simp
      by_cases h : u = "%"
      · subst h
        simp [importVar, convert, checkUnits, unitFactor, meteoUnits, List.lookup, hno]
      · simp [importVar, convert, checkUnits, unitFactor, meteoUnits, List.lookup, h, h2, hno]

/-- **C85.** If all supported variables have units, the data are rejected exactly if one of them has
units that cannot be converted to the expected ones, and otherwise all values are converted. Not
covered: cloud cover to which the guess of `forcing.py:146` applies (`C85_cloud_false`). -/
theorem C85_units_partial (other : List ℤ → Step) (dates : List ℤ) (d : ℤ)
    (hstep : inferStep other dates = .secs d) (data : Data K)
    (hu : ∀ p ∈ data, allowed p.1 = true → p.2.units ≠ none)
    (hg : ∀ p ∈ data, NoGuess data.length p) :
    (makePoint other dates data = none ↔ ∃ p ∈ data, p.1 ∈ meteoUnits.map Prod.fst ∧
      ∃ u, p.2.units = some u ∧ unitFactor (d : K) p.1 u = none) ∧
    (∀ out, makePoint other dates data = some out →
      List.Forall₂ (fun p q => q.1 = p.1 ∧ ∃ u a, p.2.units = some u ∧
        unitFactor (d : K) p.1 u = some a ∧ q.2 = p.2.vals.map (Option.map (· * a)))
        (supported data) out) := by
  have key : ∀ p ∈ data, allowed p.1 = true → ∃ u, p.2.units = some u ∧
      importVar (.secs d) data.length p.1 p.2 =
        (unitFactor (d : K) p.1 u).map fun a => p.2.vals.map (Option.map (· * a)) := by
    rintro ⟨name, ⟨units, vals⟩⟩ hp ha
    cases units with
    | none => exact absurd rfl (hu _ hp ha)
    | some u => exact ⟨u, rfl, importVar_units d _ name u vals ha (hg _ hp)⟩
  unfold makePoint
  rw [hstep]
  constructor
  · rw [importAll_none]
    constructor
    · rintro ⟨p, hp, ha, hn⟩
      obtain ⟨u, h1, h2⟩ := key p hp ha
      refine ⟨p, hp, by simpa [allowed] using ha, u, h1, ?_⟩
      rw [h2] at hn; simpa using hn
    · rintro ⟨p, hp, ha, u, h1, h2⟩
      have ha' : allowed p.1 = true := by unfold allowed; simpa using ha
      refine ⟨p, hp, ha', ?_⟩
      obtain ⟨u', h1', h2'⟩ := key p hp ha'
      rw [h1] at h1'
      rw [h2', ← Option.some.inj h1', h2]; rfl
  · intro out h
    have h1 := importAll_some _ _ _ _ h
    have hsub : ∀ p ∈ supported data, p ∈ data ∧ allowed p.1 = true := by
      intro p hp
      unfold supported at hp
      have := List.mem_filter.mp hp
      exact ⟨this.1, by simpa using this.2⟩
    clear h
    generalize supported data = l at h1 hsub
    induction h1 with
    | nil => exact .nil
    | cons h2 _ ih =>
      refine .cons ⟨h2.1, ?_⟩ (ih fun p hp => hsub p (List.mem_cons_of_mem _ hp))
      obtain ⟨hp, ha⟩ := hsub _ List.mem_cons_self
      obtain ⟨u, g1, g2⟩ := key _ hp ha
      rw [g2] at h2
      obtain ⟨a, ha', hq⟩ := Option.map_eq_some_iff.mp h2.2
      exact ⟨u, a, g1, ha', hq.symm⟩

/-- **C85.** Values without units are passed on unchanged, except for cloud cover to which the guess of
`forcing.py:146` applies. -/
theorem C85_no_units (other : List ℤ → Step) (dates : List ℤ) (data : Data K)
    (hu : ∀ p ∈ data, allowed p.1 = true → p.2.units = none)
    (hg : ∀ p ∈ data, NoGuess data.length p) :
    makePoint other dates data = some ((supported data).map fun p => (p.1, p.2.vals)) := by
  unfold makePoint
  rw [importAll_iff]
  rw [List.forall₂_map_right_iff]
  refine List.forall₂_same.mpr ?_
  intro p hp
  unfold supported at hp
  obtain ⟨hp, ha⟩ := List.mem_filter.mp hp
  have hn := hu p hp ha
  refine ⟨rfl, ?_⟩
  have hno : p.1 = "cloud_fraction" →
      ¬ (p.2.units = some "1" ∨ (10 < data.length ∧ maxLeOne p.2.vals = true)) := by
    intro hc
    rcases hg p hp hc with h | h | ⟨x, hx, h1⟩
    · rw [hn] at h; simp at h
    · rw [hn]; simp; omega
    · rw [hn, maxLeOne_false _ x hx h1]; simp
  unfold importVar convert checkUnits
  by_cases h1 : p.1 = "precip"
  · simp [h1, hn]
  · by_cases h2 : p.1 = "cloud_fraction"
    · rw [if_neg h1, if_pos h2, if_neg (hno h2)]; simp [hn]
    · simp [h1, h2, hn]

/-- **C85.** The order in which the variables are processed does not matter. -/
theorem C85_order (other : List ℤ → Step) (dates : List ℤ) (data data' : Data K)
    (hp : data.Perm data') :
    (makePoint other dates data = none ↔ makePoint other dates data' = none) ∧
    ∀ out out', makePoint other dates data = some out → makePoint other dates data' = some out' →
      out.Perm out' := by
  unfold makePoint
  rw [← hp.length_eq]
  constructor
  · rw [importAll_none, importAll_none]
    constructor
    · rintro ⟨p, h, r⟩; exact ⟨p, hp.mem_iff.mp h, r⟩
    · rintro ⟨p, h, r⟩; exact ⟨p, hp.mem_iff.mpr h, r⟩
  · intro out out' h h'
    rw [importAll_iff] at h h'
    have hs : (supported data).Perm (supported data') := hp.filter _
    generalize inferStep other dates = s at *
    generalize data.length = n at *
    generalize supported data = l at *
    generalize supported data' = l' at *
    have hf : ∀ (l : Data K) out, List.Forall₂ (fun p q => q.1 = p.1 ∧
        importVar s n p.1 p.2 = some q.2) l out →
        out = l.map fun p => (p.1, (importVar s n p.1 p.2).getD []) := by
      intro l out hl
      induction hl with
      | nil => rfl
      | cons h1 _ ih =>
        rw [List.map_cons, ← ih]
        congr 1
        ext1
        · exact h1.1
        · rw [h1.2]; rfl
    rw [hf l out h, hf l' out' h']
    exact hs.map _

theorem uniform_range (t0 d : ℤ) (k : ℕ) (j : ℕ) :
    uniform d ((List.range' j k).map fun i : ℕ => t0 + (i : ℤ) * d) = true := by
  induction k generalizing j with
  | zero => rfl
  | succ k ih =>
    cases k with
    | zero => rfl
    | succ k =>
      have := ih (j + 1)
      simp only [List.range'_succ, List.map_cons, uniform, Bool.and_eq_true,
        decide_eq_true_eq] at this ⊢
      refine ⟨by push_cast; ring, ?_⟩
      simpa using this

theorem inferStep_range (other : List ℤ → Step) (t0 d : ℤ) (k : ℕ) (hk : 3 ≤ k) (hd : 0 < d)
    (hw : d < WEEK) :
    inferStep other ((List.range k).map fun i : ℕ => t0 + (i : ℤ) * d) = .secs d := by
  obtain ⟨m, rfl⟩ := Nat.exists_eq_add_of_le hk
  have hu := uniform_range t0 d (3 + m) 0
  rw [List.range_eq_range'] at *
  rw [show 3 + m = m + 1 + 1 + 1 by ring] at *
  simp only [List.range'_succ, List.map_cons] at *
  unfold inferStep
  have e : (t0 + ((0 + 1 : ℕ) : ℤ) * d) - (t0 + ((0 : ℕ) : ℤ) * d) = d := by push_cast; ring
  simp only [e]
  rw [if_pos ⟨hd, hw, hu⟩]

/-- **C85.** Precipitation rates at dates with a uniform step of less than a week become sums over the
step, so that the total is the integral of the rate. -/
theorem C85_rates (other : List ℤ → Step) (t0 d : ℤ) (k : ℕ) (hk : 3 ≤ k) (hd : 0 < d)
    (hw : d < WEEK) (rates : List K) :
    makePoint other ((List.range k).map fun i : ℕ => t0 + (i : ℤ) * d)
      [("precip", ⟨some "kg m-2 s-1", rates.map some⟩)] =
      some [("precip", (rates.map (· * (d : K))).map some)] ∧
    (rates.map (· * (d : K))).sum = rates.sum * d := by
  constructor
  · unfold makePoint
    rw [inferStep_range other t0 d k hk hd hw]
    simp [importAll, importVar, convert, checkUnits, allowed, meteoUnits, List.lookup,
      scaleVals_some, Function.comp_def]
  · exact (List.sum_map_mul_right rates id (d : K)).trans (by simp)

/-- **C85.** Rates at one or two dates are lost: no frequency can be inferred. -/
theorem C85_few_dates (other : List ℤ → Step) (dates : List ℤ) (h : dates.length < 3)
    (vals : List (Option K)) :
    makePoint other dates [("precip", ⟨some "kg m-2 s-1", vals⟩)] =
      some [("precip", vals.map fun _ => none)] := by
  have hs : inferStep other dates = .nan := by
    match dates, h with
    | [], _ => rfl
    | [_], _ => rfl
    | [_, _], _ => rfl
  unfold makePoint
  rw [hs]
  simp [importAll, importVar, convert, checkUnits, allowed, meteoUnits, List.lookup, scaleVals]

/-- **C85.** Rates at dates for which pandas infers no frequency (non-uniform steps) raise an exception
other than the documented `MeteoDataError`. -/
theorem C85_irregular (other : List ℤ → Step) (dates : List ℤ)
    (h : inferStep other dates = .error) (vals : List (Option K)) :
    makePoint other dates [("precip", ⟨some "kg m-2 s-1", vals⟩)] = none := by
  unfold makePoint
  rw [h]
  simp [importAll, importVar, convert, allowed, meteoUnits]

/-- Ten further variables with station metadata, as in a NetCDF file. -/
def tenVars : Data K :=
  (["temp", "precip", "rel_hum", "sw_in", "wind_speed", "lon", "lat", "alt", "crs",
    "station_name"]).map fun n => (n, ⟨none, []⟩)

/-- **C85.** Cloud cover given in per cent does not stay as it is: with more than ten variables in the
file (`len(data)` is the number of variables, not of records) a period with at most one per cent cloud
cover is multiplied by 100. -/
theorem C85_cloud_false :
    ¬ ∀ (other : List ℤ → Step) (dates : List ℤ) (data : Data ℚ)
        (out : List (String × List (Option ℚ))) (vals : List (Option ℚ)),
        ("cloud_fraction", ⟨some "%", vals⟩) ∈ data →
        (data.map Prod.fst).Nodup →
        makePoint other dates data = some out → ("cloud_fraction", vals) ∈ out := by
  intro h
  have := h (fun _ => .nan) [0] (tenVars ++ [("cloud_fraction", ⟨some "%", [some 1]⟩)])
    [("temp", []), ("precip", []), ("rel_hum", []), ("sw_in", []), ("wind_speed", []),
      ("cloud_fraction", [some 100])] [some 1] (by simp [tenVars]) (by decide) (by
      simp [makePoint, tenVars, importAll, importVar, convert, checkUnits, allowed, meteoUnits,
        List.lookup, scaleVals, maxLeOne])
  simp at this

/-- **C85.** Cloud cover in other units is not always rejected: values in oktas that happen not to exceed 1
are taken for fractions. -/
theorem C85_cloud_units_false :
    ¬ ∀ (other : List ℤ → Step) (dates : List ℤ) (data : Data ℚ) (u : String)
        (vals : List (Option ℚ)), ("cloud_fraction", ⟨some u, vals⟩) ∈ data →
        u ≠ "%" → u ≠ "1" → makePoint other dates data = none := by
  intro h
  have := h (fun _ => .nan) [0] (tenVars ++ [("cloud_fraction", ⟨some "okta", [some 1]⟩)]) "okta"
    [some 1] (by simp [tenVars]) (by decide) (by decide)
  simp [makePoint, tenVars, importAll, importVar, convert, checkUnits, allowed, meteoUnits,
    List.lookup, scaleVals, maxLeOne] at this

/-- **C85.** With at most ten variables cloud cover without units is never recognised as a fraction,
however many records there are. -/
theorem C85_fraction_kept (other : List ℤ → Step) (dates : List ℤ) (data : Data K)
    (vals : List (Option K)) (out : List (String × List (Option K))) (hn : data.length ≤ 10)
    (hm : ("cloud_fraction", ⟨none, vals⟩) ∈ data) (h : makePoint other dates data = some out) :
    ("cloud_fraction", vals) ∈ out := by
  have h1 := importAll_some _ _ _ _ h
  have hs : ("cloud_fraction", (⟨none, vals⟩ : Var K)) ∈ supported data := by
    unfold supported
    exact List.mem_filter.mpr ⟨hm, by simp [allowed, meteoUnits]⟩
  clear h
  generalize supported data = l at h1 hs
  induction h1 with
  | nil => simp at hs
  | cons h2 _ ih =>
    rcases List.mem_cons.mp hs with rfl | hs
    · have hno : ¬ 10 < data.length := by omega
      have := h2.2
      simp only [importVar, convert, checkUnits, hno] at this
      simp at this
      refine List.mem_cons.mpr (.inl ?_)
      ext1
      · exact h2.1.symm
      · exact this
    · exact List.mem_cons_of_mem _ (ih hs)

-- C85_units_partial, C85_no_units, C85_rates: the hypotheses are satisfiable.
example : makePoint (K := ℚ) (fun _ => .error) [0, 3600, 7200]
    [("precip", ⟨some "kg m-2 s-1", [some (1 / 3600), none, some 0]⟩),
     ("foo", ⟨some "m", []⟩),
     ("cloud_fraction", ⟨some "1", [some (1 / 2), some 1, none]⟩)] =
    some [("precip", [some 1, none, some 0]), ("cloud_fraction", [some 50, some 100, none])] := by
  have hs : inferStep (fun _ => .error) [0, 3600, 7200] = .secs 3600 := by
    simp [inferStep, uniform, WEEK]
  unfold makePoint
  rw [hs]
  simp [importAll, importVar, convert, checkUnits, allowed, meteoUnits, List.lookup,
    scaleVals]
  norm_num

example : NoGuess (K := ℚ) 12 ("cloud_fraction", ⟨some "%", [some 80]⟩) :=
  fun _ => .inr (.inr ⟨80, by simp, by norm_num⟩)

/-! ## C86: combination of stations -/

theorem lookup_zip (ts : List ℤ) (hn : ts.Nodup) (vals : List (Option K)) (k : ℕ) (t : ℤ)
    (x : Option K) (ht : ts[k]? = some t) (hx : vals[k]? = some x) :
    (ts.zip vals).lookup t = some x := by
  induction ts generalizing vals k with
  | nil => simp at ht
  | cons a ts ih =>
    cases vals with
    | nil => simp at hx
    | cons v vals =>
      rw [List.zip_cons_cons, List.lookup_cons]
      cases k with
      | zero =>
        simp only [List.getElem?_cons_zero, Option.some.injEq] at ht hx
        simp [ht, hx]
      | succ k =>
        simp only [List.getElem?_cons_succ] at ht hx
        have hne : t ≠ a := by
          rintro rfl
          exact (List.nodup_cons.mp hn).1 (List.mem_of_getElem? ht)
        have : (t == a) = false := by simpa using hne
        rw [this]
        exact ih (List.nodup_cons.mp hn).2 vals k ht hx

theorem lookup_zip_none (ts : List ℤ) (vals : List (Option K)) (t : ℤ) (ht : t ∉ ts) :
    (ts.zip vals).lookup t = none := by
  rw [List.lookup_eq_none_iff]
  intro p hp
  have := (List.of_mem_zip hp).1
  have hne : t ≠ p.1 := fun e => ht (e ▸ this)
  simpa using hne

/-- Specification: the value measured at a station at a date, a relation instead of a lookup. -/
def Measured (ds : Ds K) (v : String) (t : ℤ) (x : Option K) : Prop :=
  ∃ (l : List (Option K)) (k : ℕ), ds.vars.lookup v = some l ∧ ds.times[k]? = some t ∧ l[k]? = some x

/-- A dataset as built by `make_point_dataset`: every variable has a value for each date. -/
def WellFormed (ds : Ds K) : Prop := ∀ p ∈ ds.vars, p.2.length = ds.times.length

theorem lookup_mem {α : Type*} (v : String) (l : List (String × α)) (x : α)
    (h : l.lookup v = some x) : (v, x) ∈ l := by
  induction l with
  | nil => simp at h
  | cons p l ih =>
    rw [List.lookup_cons] at h
    split at h
    · rename_i hv
      simp only [Option.some.injEq] at h
      rw [List.mem_cons]; left
      ext1
      · simpa using hv
      · exact h.symm
    · exact List.mem_cons_of_mem _ (ih h)

theorem vals_length (ds : Ds K) (hw : WellFormed ds) (v : String) :
    (ds.vals v).length = ds.times.length := by
  unfold Ds.vals
  split
  · rename_i l h
    exact hw _ (lookup_mem v _ l h)
  · simp

theorem combine_times (addMin : Bool) (dss : List (Ds K)) (c : Combined K)
    (h : combine addMin dss = some c) (hn : ∀ ds ∈ dss, ds.times.Nodup) :
    c.times.Nodup ∧ (∀ t, t ∈ c.times ↔ ∃ ds ∈ dss, t ∈ ds.times) ∧
    c.vars = combinedVars addMin dss ∧
    c.rows.map Prod.fst = dss.map Ds.id ∧
    ∀ (i : ℕ) ds, dss[i]? = some ds → WellFormed ds →
      ∃ row, c.rows[i]? = some (ds.id, row) ∧
      ∀ (j : ℕ) v, c.vars[j]? = some v → row[j]? = some (c.times.map (ds.at v)) := by
  simp only [combine] at h
  cases dss with
  | nil => simp at h
  | cons d0 rest =>
    simp only at h
    split_ifs at h with h1 h2
    · simp only [Option.some.injEq] at h
      subst h
      have heq : ∀ ds ∈ d0 :: rest, ds.times = d0.times := by
        intro ds hds
        simpa using List.all_eq_true.mp h1 ds hds
      refine ⟨hn d0 (by simp), ?_, rfl, by simp, ?_⟩
      · intro t
        constructor
        · intro ht; exact ⟨d0, by simp, ht⟩
        · rintro ⟨ds, hds, ht⟩; rwa [heq ds hds] at ht
      · intro i ds hi hw
        have hmem : ds ∈ d0 :: rest := List.mem_of_getElem? hi
        refine ⟨_, by rw [List.getElem?_map, hi]; rfl, ?_⟩
        intro j v hj
        rw [List.getElem?_map, hj]
        simp only [Option.map_some, Option.some.injEq]
        have ht := heq ds hmem
        apply List.ext_getElem?
        intro k
        rw [List.getElem?_map, ← ht]
        have hl := vals_length ds hw v
        by_cases hk : k < ds.times.length
        · have h1 : ds.times[k]? = some ds.times[k] := List.getElem?_eq_getElem hk
          have h2 : (ds.vals v)[k]? = some (ds.vals v)[k] := List.getElem?_eq_getElem (by omega)
          rw [h1, h2]
          simp only [Option.map_some, Option.some.injEq, Ds.at]
          rw [lookup_zip ds.times (hn ds hmem) (ds.vals v) k _ _ h1 h2]
        · rw [List.getElem?_eq_none (by omega), List.getElem?_eq_none (by omega)]; rfl
    · simp only [Option.some.injEq] at h
      subst h
      refine ⟨?_, ?_, rfl, by simp, ?_⟩
      · exact (List.mergeSort_perm _ _).nodup_iff.mpr (List.nodup_dedup _)
      · intro t
        rw [(List.mergeSort_perm _ _).mem_iff, List.mem_dedup, List.mem_flatMap]
      · intro i ds hi _
        refine ⟨_, by rw [List.getElem?_map, hi]; rfl, ?_⟩
        intro j v hj
        rw [List.getElem?_map, hj]; rfl

/-- **C86.** The dates of the combined dataset are the union of the dates of the stations, and its
stations are those given, in the same order. -/
theorem C86_times (addMin : Bool) (dss : List (Ds K)) (c : Combined K)
    (h : combine addMin dss = some c) (hn : ∀ ds ∈ dss, ds.times.Nodup) :
    c.times.Nodup ∧ (∀ t, t ∈ c.times ↔ ∃ ds ∈ dss, t ∈ ds.times) ∧
    c.rows.map Prod.fst = dss.map Ds.id :=
  let r := combine_times addMin dss c h hn
  ⟨r.1, r.2.1, r.2.2.2.1⟩

/-- **C86.** If the dates of every station ascend, so do the combined ones. -/
theorem C86_sorted (addMin : Bool) (dss : List (Ds K)) (c : Combined K)
    (h : combine addMin dss = some c) (hs : ∀ ds ∈ dss, ds.times.Pairwise (· < ·)) :
    c.times.Pairwise (· < ·) := by
  have hn : ∀ ds ∈ dss, ds.times.Nodup := fun ds hds => (hs ds hds).imp fun hlt => hlt.ne
  have hnd := (C86_times addMin dss c h hn).1
  simp only [combine] at h
  cases dss with
  | nil => simp at h
  | cons d0 rest =>
    simp only at h
    split_ifs at h with h1 h2
    · simp only [Option.some.injEq] at h
      subst h
      exact hs d0 (by simp)
    · simp only [Option.some.injEq] at h
      subst h
      have hsort := List.pairwise_mergeSort (le := fun a b : ℤ => decide (a ≤ b))
        (fun a b c => by simp only [decide_eq_true_eq]; exact le_trans)
        (fun a b => by simp only [Bool.or_eq_true, decide_eq_true_eq]; exact le_total a b)
        ((d0 :: rest).flatMap Ds.times).dedup
      exact (hsort.and hnd).imp fun ⟨hle, hne⟩ => lt_of_le_of_ne (by simpa using hle) hne

/-- **C86.** Every measurement of a supported variable of every station is in the combined dataset at its
date, and everything else there is missing. -/
theorem C86_values (addMin : Bool) (dss : List (Ds K)) (c : Combined K)
    (h : combine addMin dss = some c) (hn : ∀ ds ∈ dss, ds.times.Nodup)
    (hw : ∀ ds ∈ dss, WellFormed ds) (i : ℕ) (ds : Ds K) (hi : dss[i]? = some ds) :
    ∃ row, c.rows[i]? = some (ds.id, row) ∧
    (∀ v t x, allowed v = true → Measured ds v t x →
      ∃ (j p : ℕ) (vals : List (Option K)), c.vars[j]? = some v ∧ c.times[p]? = some t ∧ row[j]? = some vals ∧
        vals[p]? = some x) ∧
    ∀ (j p : ℕ) v t vals x, c.vars[j]? = some v → c.times[p]? = some t → row[j]? = some vals →
      vals[p]? = some (some x) → Measured ds v t (some x) := by
  obtain ⟨-, h2, h3, -, h5⟩ := combine_times addMin dss c h hn
  have hmem : ds ∈ dss := List.mem_of_getElem? hi
  obtain ⟨row, hr, hval⟩ := h5 i ds hi (hw ds hmem)
  refine ⟨row, hr, ?_, ?_⟩
  · rintro v t x ha ⟨l, k, hl, ht, hx⟩
    have hv : v ∈ c.vars := by
      rw [h3]
      unfold combinedVars
      rw [List.mem_dedup, List.mem_filter, List.mem_append]
      refine ⟨.inr ?_, ha⟩
      exact List.mem_flatMap.mpr ⟨ds, hmem, List.mem_map.mpr ⟨(v, l), lookup_mem v _ l hl, rfl⟩⟩
    obtain ⟨j, hj⟩ := List.mem_iff_getElem?.mp hv
    obtain ⟨p, hp⟩ := List.mem_iff_getElem?.mp ((h2 t).mpr ⟨ds, hmem, List.mem_of_getElem? ht⟩)
    refine ⟨j, p, _, hj, hp, hval j v hj, ?_⟩
    rw [List.getElem?_map, hp]
    simp only [Option.map_some, Option.some.injEq, Ds.at]
    have hlv : ds.vals v = l := by unfold Ds.vals; rw [hl]
    rw [hlv, lookup_zip ds.times (hn ds hmem) l k t x ht hx]
  · intro j p v t vals x hj hp hrow hx
    rw [hval j v hj, Option.some.injEq] at hrow
    rw [← hrow, List.getElem?_map, hp] at hx
    simp only [Option.map_some, Option.some.injEq, Ds.at] at hx
    by_cases ht : t ∈ ds.times
    · obtain ⟨k, hk⟩ := List.mem_iff_getElem?.mp ht
      have hlen := vals_length ds (hw ds hmem) v
      have hk' : k < ds.times.length := by
        by_contra hge
        rw [List.getElem?_eq_none (by omega)] at hk; simp at hk
      have hvk : (ds.vals v)[k]? = some (ds.vals v)[k] := List.getElem?_eq_getElem (by omega)
      rw [lookup_zip ds.times (hn ds hmem) (ds.vals v) k t _ hk hvk] at hx
      cases hl : ds.vars.lookup v with
      | none =>
        exfalso
        have hall : ∀ y ∈ ds.vals v, y = none := by
          unfold Ds.vals; rw [hl]
          intro y hy
          obtain ⟨_, _, rfl⟩ := List.mem_map.mp hy
          rfl
        have := hall _ (List.mem_of_getElem? hvk)
        rw [this] at hx; simp at hx
      | some l =>
        have hlv : ds.vals v = l := by unfold Ds.vals; rw [hl]
        refine ⟨l, k, hl, hk, ?_⟩
        rw [← hlv, hvk]
        exact congrArg some hx
    · rw [lookup_zip_none ds.times _ t ht] at hx
      simp at hx

/-- **C86.** With the minimum variables added the result passes the check of forcing datasets exactly if
its dates are the model dates. -/
theorem C86_valid (dss : List (Ds K)) (c : Combined K) (h : combine true dss = some c)
    (dates : List ℤ) : isValid c dates = true ↔ c.times = dates := by
  have hv : c.vars = combinedVars true dss := by
    simp only [combine] at h
    cases dss with
    | nil => simp at h
    | cons d0 rest =>
      simp only at h
      split_ifs at h <;> (simp only [Option.some.injEq] at h; subst h; rfl)
  unfold isValid
  rw [Bool.and_eq_true, decide_eq_true_eq]
  constructor
  · exact fun r => r.2.symm
  · refine fun r => ⟨List.all_eq_true.mpr fun v hm => ?_, r.symm⟩
    rw [decide_eq_true_eq, hv]
    unfold combinedVars
    rw [List.mem_dedup, List.mem_filter, List.mem_append, if_pos rfl]
    refine ⟨.inl hm, ?_⟩
    simp only [minimumVars, List.mem_cons, List.not_mem_nil, or_false] at hm
    rcases hm with rfl | rfl | rfl | rfl | rfl <;> simp [allowed, meteoUnits]

theorem at_measured (ds : Ds K) (hn : ds.times.Nodup) (v : String) (t : ℤ) (x : Option K)
    (h : Measured ds v t x) : ds.at v t = x := by
  obtain ⟨l, k, hl, ht, hx⟩ := h
  have hlv : ds.vals v = l := by unfold Ds.vals; rw [hl]
  unfold Ds.at
  rw [hlv, lookup_zip ds.times hn l k t x ht hx]

theorem measured_at (ds : Ds K) (hn : ds.times.Nodup) (hw : WellFormed ds) (v : String) (t : ℤ) (x : K)
    (hx : ds.at v t = some x) : Measured ds v t (some x) := by
  unfold Ds.at at hx
  by_cases ht : t ∈ ds.times
  · obtain ⟨k, hk⟩ := List.mem_iff_getElem?.mp ht
    have hlen := vals_length ds hw v
    have hk' : k < ds.times.length := by
      by_contra hge
      rw [List.getElem?_eq_none (by omega)] at hk; simp at hk
    have hvk : (ds.vals v)[k]? = some (ds.vals v)[k] := List.getElem?_eq_getElem (by omega)
    rw [lookup_zip ds.times hn (ds.vals v) k t _ hk hvk] at hx
    cases hl : ds.vars.lookup v with
    | none =>
      exfalso
      have hall : ∀ y ∈ ds.vals v, y = none := by
        unfold Ds.vals; rw [hl]
        intro y hy
        obtain ⟨_, _, rfl⟩ := List.mem_map.mp hy
        rfl
      have := hall _ (List.mem_of_getElem? hvk)
      rw [this] at hx; simp at hx
    | some l =>
      have hlv : ds.vals v = l := by unfold Ds.vals; rw [hl]
      refine ⟨l, k, hl, hk, ?_⟩
      rw [← hlv, hvk]
      exact congrArg some hx
  · rw [lookup_zip_none ds.times _ t ht] at hx
    simp at hx

theorem reindex_at (ds : Ds K) (v : String) (old new : List ℤ) (hn : old.Nodup) (hsub : ∀ t ∈ ds.times, t ∈ old) :
    reindex old new (old.map (ds.at v)) = new.map (ds.at v) := by
  unfold reindex
  apply List.map_congr_left
  intro t _
  by_cases ht : t ∈ old
  · obtain ⟨k, hk⟩ := List.mem_iff_getElem?.mp ht
    rw [lookup_zip old hn _ k t (ds.at v t) hk (by rw [List.getElem?_map, hk]; rfl)]
  · rw [lookup_zip_none old _ t ht]
    unfold Ds.at
    rw [lookup_zip_none ds.times _ t fun h => ht (hsub t h)]

/-- The rows of the final dataset, station by station. -/
lemma final_rows (strict : Bool) (start stop f : ℤ) (dss : List (Ds K)) (c : Combined K)
    (h : assemble strict start stop f dss = some c) (hn : ∀ ds ∈ dss, ds.times.Nodup)
    (hw : ∀ ds ∈ dss, WellFormed ds) (i : ℕ) (ds : Ds K)
    (hi : (dss.filter fun ds => decide (ds.times ≠ []))[i]? = some ds) :
    ∃ row, c.rows[i]? = some (ds.id, row) ∧
      (∀ v l, allowed v = true → ds.vars.lookup v = some l → v ∈ c.vars) ∧
      ∀ (j : ℕ) v, c.vars[j]? = some v → row[j]? = some (c.times.map (ds.at v)) := by
  simp only [assemble] at h
  obtain ⟨present, hpr⟩ : ∃ q, (dss.filter fun ds => decide (ds.times ≠ [])) = q := ⟨_, rfl⟩
  rw [hpr] at h hi
  have hmem : ds ∈ present := List.mem_of_getElem? hi
  have hsub : ∀ d ∈ present, d ∈ dss := fun d hd => by rw [← hpr] at hd; exact (List.mem_filter.mp hd).1
  rw [if_neg (by rw [List.isEmpty_iff]; exact List.ne_nil_of_mem hmem)] at h
  split at h
  · simp at h
  rename_i c' hc
  obtain ⟨t1, t2, t3, -, t5⟩ := combine_times true present c' hc fun d hd => hn d (hsub d hd)
  obtain ⟨row, hr, hval⟩ := t5 i ds hi (hw ds (hsub ds hmem))
  have hvars : ∀ v l, allowed v = true → ds.vars.lookup v = some l → v ∈ c'.vars := by
    intro v l ha hl
    rw [t3]
    unfold combinedVars
    rw [List.mem_dedup, List.mem_filter, List.mem_append]
    exact ⟨.inr (List.mem_flatMap.mpr ⟨ds, hmem, List.mem_map.mpr ⟨(v, l), lookup_mem v _ l hl, rfl⟩⟩), ha⟩
  split at h
  · split_ifs at h with h1
    · rw [Option.some.injEq] at h
      subst h
      refine ⟨row.map (reindex c'.times (Time.dateRange start stop f)), ?_, hvars, ?_⟩
      · change (c'.rows.map _)[i]? = _
        rw [List.getElem?_map, hr]
        rfl
      · intro j v hj
        rw [List.getElem?_map, hval j v hj, Option.map_some,
          reindex_at ds v _ _ t1 fun t ht => (t2 t).mpr ⟨ds, hmem, ht⟩]
    · rw [Option.some.injEq] at h
      subst h
      exact ⟨row, hr, hvars, hval⟩
  · simp at h

/-- **C86.** In the final dataset every station with data has its measurements at all dates of the dataset at which it
has measured, and everything else is missing, also at the dates that have been added to fill the period. -/
theorem C86_final_values (strict : Bool) (start stop f : ℤ) (dss : List (Ds K)) (c : Combined K)
    (h : assemble strict start stop f dss = some c) (hn : ∀ ds ∈ dss, ds.times.Nodup)
    (hw : ∀ ds ∈ dss, WellFormed ds) (ds : Ds K) (hds : ds ∈ dss) (hne : ds.times ≠ []) :
    ∃ row, (ds.id, row) ∈ c.rows ∧
    (∀ v (p : ℕ) t x, allowed v = true → Measured ds v t x → c.times[p]? = some t →
      ∃ (j : ℕ) (vals : List (Option K)), c.vars[j]? = some v ∧ row[j]? = some vals ∧ vals[p]? = some x) ∧
    ∀ (j p : ℕ) v t vals x, c.vars[j]? = some v → c.times[p]? = some t → row[j]? = some vals →
      vals[p]? = some (some x) → Measured ds v t (some x) := by
  obtain ⟨i, hi⟩ := List.mem_iff_getElem?.mp
    (show ds ∈ dss.filter fun ds => decide (ds.times ≠ []) from List.mem_filter.mpr ⟨hds, by simpa using hne⟩)
  obtain ⟨row, hr, hv, hval⟩ := final_rows strict start stop f dss c h hn hw i ds hi
  refine ⟨row, List.mem_of_getElem? hr, ?_, ?_⟩
  · intro v p t x ha hm hp
    obtain ⟨j, hj⟩ := List.mem_iff_getElem?.mp (hv v _ ha hm.choose_spec.choose_spec.1)
    refine ⟨j, _, hj, hval j v hj, ?_⟩
    rw [List.getElem?_map, hp, Option.map_some, at_measured ds (hn ds hds) v t x hm]
  · intro j p v t vals x hj hp hrow hx
    rw [hval j v hj, Option.some.injEq] at hrow
    rw [← hrow, List.getElem?_map, hp, Option.map_some, Option.some.injEq] at hx
    exact measured_at ds (hn ds hds) (hw ds hds) v t x hx

/-- **C86.** If missing data are allowed and the combined data do not span the period, the result has
exactly the model dates. -/
theorem C86_reindexed (start stop f : ℤ) (dss : List (Ds K)) (c : Combined K)
    (h : assemble false start stop f dss = some c)
    (hgap : ∀ ds ∈ dss, ds.times.Nodup ∧ ∀ t ∈ ds.times, start < t) :
    c.times = Time.dateRange start stop f := by
  simp only [assemble, Bool.false_eq_true, if_false] at h
  by_cases h1 : (dss.filter fun ds => decide (ds.times ≠ [])).isEmpty = true
  · rw [if_pos h1, Option.some.injEq] at h; rw [← h]
  · rw [if_neg h1] at h
    split at h
    · simp at h
    · rename_i c' hc
      have hsub : ∀ ds ∈ dss.filter (fun ds => decide (ds.times ≠ [])), ds ∈ dss :=
        fun ds hds => (List.mem_filter.mp hds).1
      have ht := (C86_times true _ c' hc fun ds hds => (hgap ds (hsub ds hds)).1).2.1
      split at h
      · rename_i a b ha hb
        have hlt : start < a := by
          obtain ⟨ds, hds, hta⟩ := (ht a).mp (List.mem_of_mem_head? ha)
          exact (hgap ds (hsub ds hds)).2 a hta
        rw [if_pos (.inl hlt), Option.some.injEq] at h
        rw [← h]
      · simp at h

/-- **C86 (partial).** If the data of at least one station span the period without gaps, every model date
can be looked up, whether or not missing data are allowed. Missing: periods that are spanned only by
several stations together (`C86_gap_false`). -/
theorem C86_lookup_partial (strict : Bool) (start stop f : ℤ) (dss : List (Ds K)) (c : Combined K)
    (h : assemble strict start stop f dss = some c) (hn : ∀ ds ∈ dss, ds.times.Nodup)
    (ds : Ds K) (hds : ds ∈ dss) (hspan : ∀ t ∈ Time.dateRange start stop f, t ∈ ds.times) :
    ∀ t ∈ Time.dateRange start stop f, t ∈ c.times := by
  intro t ht
  have htd := hspan t ht
  simp only [assemble] at h
  have hmem : ds ∈ dss.filter (fun ds => decide (ds.times ≠ [])) :=
    List.mem_filter.mpr ⟨hds, by simpa using List.ne_nil_of_mem htd⟩
  by_cases h1 : (dss.filter fun ds => decide (ds.times ≠ [])).isEmpty = true
  · rw [List.isEmpty_iff] at h1; rw [h1] at hmem; simp at hmem
  · rw [if_neg h1] at h
    split at h
    · simp at h
    · rename_i c' hc
      have htt := (C86_times true _ c' hc
        fun ds hds => hn ds (List.mem_filter.mp hds).1).2.1
      split at h
      · split_ifs at h with h3 h4
        · simp only [Option.some.injEq] at h; rw [← h]; exact ht
        · simp only [Option.some.injEq] at h; rw [← h]
          exact (htt t).mpr ⟨ds, hmem, htd⟩
      · simp at h

/-- Two hourly stations, one with data until 02:00, the other from 04:00 on. -/
def early : Ds ℚ := ⟨"a", [0, 3600, 7200], [("temp", [some 270, some 271, some 272])]⟩

/-- See `early`. -/
def late : Ds ℚ := ⟨"b", [14400, 18000, 21600], [("temp", [some 270, some 271, some 272])]⟩

theorem combine_early_late : ∃ c, combine true [early, late] = some c ∧
    c.times = [0, 3600, 7200, 14400, 18000, 21600] := by
  refine ⟨_, rfl, ?_⟩
  simp [early, late, List.mergeSort, List.MergeSort.Internal.splitInTwo, List.merge]

/-- **C86.** A gap between the data of two stations is noticed neither by the check for missing data nor
filled if missing data are allowed: the model date 03:00 cannot be looked up and the run stops there with
a `KeyError`. -/
theorem C86_gap_false (strict : Bool) :
    ¬ ∀ (start stop f : ℤ) (dss : List (Ds ℚ)) (c : Combined ℚ),
        (∀ ds ∈ dss, ds.times.Nodup ∧ WellFormed ds ∧ uniform f ds.times = true) →
        assemble strict start stop f dss = some c →
        ∀ t ∈ Time.dateRange start stop f, t ∈ c.times := by
  intro h
  obtain ⟨c, hc, ht⟩ := combine_early_late
  have ha : assemble strict 0 21600 3600 [early, late] = some c := by
    unfold assemble
    have hp : [early, late].filter (fun ds => decide (ds.times ≠ [])) = [early, late] := by
      simp [early, late]
    simp only [hp, hc]
    rw [ht]
    simp
  have := h 0 21600 3600 [early, late] c (by
    intro ds hds
    simp only [List.mem_cons, List.not_mem_nil, or_false] at hds
    rcases hds with rfl | rfl <;> simp [early, late, WellFormed, uniform]) ha 10800 (by
      rw [Time.dateRange_eq 0 21600 3600 (by norm_num) 6 (by norm_num) (by norm_num)]
      refine List.mem_map.mpr ⟨3, by simp, by norm_num⟩)
  rw [ht] at this
  simp at this

-- C86_values, C86_times, C86_sorted, C86_valid: a station without precipitation and one with it.
example : ∃ c, combine (K := ℚ) true [⟨"a", [0, 1], [("temp", [some 1, none])]⟩,
    ⟨"b", [0, 1], [("precip", [some 2, some 3])]⟩] = some c ∧
    c.vars = ["temp", "rel_hum", "sw_in", "wind_speed", "temp", "precip"].dedup := by
  refine ⟨_, rfl, ?_⟩
  decide

example : early.times.Nodup ∧ WellFormed early ∧ early.times.Pairwise (· < ·) ∧
    Measured early "temp" 3600 (some 271) := by
  refine ⟨by decide, by simp [WellFormed, early], by decide, ?_⟩
  exact ⟨[some 270, some 271, some 272], 1, by simp [early, List.lookup], rfl, rfl⟩

end Verif.Forcing
