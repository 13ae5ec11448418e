import Verif.Model.StationFiles
import Verif.Props.Stations

/-!
# C113: station files
-/

set_option linter.unusedSectionVars false

namespace Verif.StationFiles

open Verif.Stations (Station Bounds applyRules)

variable {K D : Type*} [Field K] [LinearOrder K] [IsStrictOrderedRing K]

/-- Specification: a station with this identifier and this position in the model grid passes the rules. -/
def Passes (bounds : Option (Bounds K)) (exclude inclusion : Option (List ℕ)) (id : ℕ) (p : K × K) : Prop :=
  ((∀ b, bounds = some b → b.xmin ≤ p.1 ∧ p.1 < b.xmax ∧ b.ymin ≤ p.2 ∧ p.2 < b.ymax) ∧
    ∀ ex, exclude = some ex → id ∉ ex) ∨ ∃ inc, inclusion = some inc ∧ id ∈ inc

/-! ## Lemmas -/

theorem loadAll_mem (readOne : Station K → Option (Loaded K D)) (prep : D → Option D) (isEmpty : D → Bool)
    (sel : List (Station K)) (out : List (Loaded K D))
    (h : loadAll readOne prep isEmpty sel = some out) (l : Loaded K D) :
    l ∈ out ↔ ∃ s ∈ sel, ∃ l0 d, readOne s = some l0 ∧ prep l0.data = some d ∧ isEmpty d = false ∧
      l = { l0 with data := d } := by
  induction sel generalizing out with
  | nil => simp only [loadAll, Option.some.injEq] at h; subst h; simp
  | cons s ss ih =>
    simp only [loadAll] at h
    cases h1 : readOne s with
    | none => rw [h1] at h; simp at h
    | some l0 =>
      rw [h1] at h
      simp only at h
      cases h2 : prep l0.data with
      | none => rw [h2] at h; simp at h
      | some d =>
        rw [h2] at h
        simp only at h
        cases h3 : loadAll readOne prep isEmpty ss with
        | none => rw [h3] at h; simp at h
        | some rest =>
          rw [h3] at h
          simp only at h
          have := ih rest h3
          cases h4 : isEmpty d with
          | true =>
            rw [h4] at h
            simp only [if_true, Option.some.injEq] at h
            subst h
            rw [this]
            constructor
            · rintro ⟨t, ht, r⟩
              exact ⟨t, List.mem_cons_of_mem _ ht, r⟩
            · rintro ⟨t, ht, l1, d1, e1, e2, e3, r⟩
              rcases List.mem_cons.1 ht with rfl | ht
              · rw [h1] at e1
                cases e1
                rw [h2] at e2
                cases e2
                rw [h4] at e3
                cases e3
              · exact ⟨t, ht, l1, d1, e1, e2, e3, r⟩
          | false =>
            rw [h4] at h
            simp only [Bool.false_eq_true, if_false, Option.some.injEq] at h
            subst h
            rw [List.mem_cons, this]
            constructor
            · rintro (e | ⟨t, ht, r⟩)
              · exact ⟨s, List.mem_cons_self, l0, d, h1, h2, h4, e⟩
              · exact ⟨t, List.mem_cons_of_mem _ ht, r⟩
            · rintro ⟨t, ht, l1, d1, e1, e2, e3, r⟩
              rcases List.mem_cons.1 ht with rfl | ht
              · rw [h1] at e1
                cases e1
                rw [h2] at e2
                cases e2
                exact Or.inl r
              · exact Or.inr ⟨t, ht, l1, d1, e1, e2, e3, r⟩

theorem loadAll_ids (readOne : Station K → Option (Loaded K D)) (prep : D → Option D) (isEmpty : D → Bool)
    (hid : ∀ s l, readOne s = some l → l.id = s.id)
    (sel : List (Station K)) (out : List (Loaded K D))
    (h : loadAll readOne prep isEmpty sel = some out) :
    (out.map Loaded.id).Sublist (sel.map Station.id) := by
  induction sel generalizing out with
  | nil => simp only [loadAll, Option.some.injEq] at h; subst h; simp
  | cons s ss ih =>
    simp only [loadAll] at h
    cases h1 : readOne s with
    | none => rw [h1] at h; simp at h
    | some l0 =>
      rw [h1] at h
      simp only at h
      cases h2 : prep l0.data with
      | none => rw [h2] at h; simp at h
      | some d =>
        rw [h2] at h
        simp only at h
        cases h3 : loadAll readOne prep isEmpty ss with
        | none => rw [h3] at h; simp at h
        | some rest =>
          rw [h3] at h
          simp only at h
          have := ih rest h3
          cases h4 : isEmpty d with
          | true =>
            rw [h4] at h
            simp only [if_true, Option.some.injEq] at h
            subst h
            exact this.cons _
          | false =>
            rw [h4] at h
            simp only [Bool.false_eq_true, if_false, Option.some.injEq] at h
            subst h
            rw [List.map_cons, List.map_cons]
            have e := hid s l0 h1
            simp only [e]
            exact this.cons₂ _

theorem loadAll_none (readOne : Station K → Option (Loaded K D)) (prep : D → Option D) (isEmpty : D → Bool)
    (sel : List (Station K)) :
    loadAll readOne prep isEmpty sel = none ↔
      ∃ s ∈ sel, ∀ l, readOne s = some l → prep l.data = none := by
  induction sel with
  | nil => simp [loadAll]
  | cons s ss ih =>
    simp only [loadAll, List.exists_mem_cons_iff]
    cases h1 : readOne s with
    | none => simp
    | some l0 =>
      simp only [Option.some.injEq, forall_eq']
      cases h2 : prep l0.data with
      | none => simp
      | some d =>
        simp only [reduceCtorEq, false_or]
        rw [← ih]
        cases h3 : loadAll readOne prep isEmpty ss with
        | none => simp
        | some rest => simp only [reduceCtorEq, iff_false]; split_ifs <;> simp

theorem loadAll_congr (r1 r2 : Station K → Option (Loaded K D)) (prep : D → Option D) (isEmpty : D → Bool)
    (sel : List (Station K)) (h : ∀ s ∈ sel, r1 s = r2 s) :
    loadAll r1 prep isEmpty sel = loadAll r2 prep isEmpty sel := by
  induction sel with
  | nil => rfl
  | cons s ss ih =>
    simp only [loadAll]
    rw [h s List.mem_cons_self, ih fun t ht => h t (List.mem_cons_of_mem _ ht)]

/-- Everything about a successful call. -/
theorem read_some (bounds : Option (Bounds K)) (exclude inclusion : Option (List ℕ)) (strict : Bool)
    (readOne : Station K → Option (Loaded K D)) (prep : D → Option D) (isEmpty : D → Bool)
    (table : Option (List (Station K))) (out : List (Loaded K D))
    (h : read bounds exclude inclusion strict readOne prep isEmpty table = some out) :
    ∃ tbl sel, table = some tbl ∧ tbl ≠ [] ∧ applyRules bounds exclude inclusion tbl = some sel ∧
      sel ≠ [] ∧ loadAll readOne prep isEmpty sel = some out ∧ (strict = true → out ≠ []) := by
  unfold read at h
  split at h
  · cases h
  · cases h
  · rename_i tbl ht
    split at h
    · cases h
    · cases h
    · rename_i sel hsel hr
      split at h
      · cases h
      · rename_i hl
        split_ifs at h with hs
        cases h
        exact ⟨tbl, sel, rfl, ht, hr, hsel, hl, fun e => absurd e hs⟩
      · rename_i ls hne hl
        cases h
        exact ⟨tbl, sel, rfl, ht, hr, hsel, hl, fun _ => hne⟩

theorem read_none (bounds : Option (Bounds K)) (exclude inclusion : Option (List ℕ)) (strict : Bool)
    (readOne : Station K → Option (Loaded K D)) (prep : D → Option D) (isEmpty : D → Bool)
    (tbl : List (Station K)) (hne : tbl ≠ []) :
    read bounds exclude inclusion strict readOne prep isEmpty (some tbl) = none ↔
      applyRules bounds exclude inclusion tbl = none ∨
      ∃ sel, applyRules bounds exclude inclusion tbl = some sel ∧
        (sel = [] ∨ (∃ s ∈ sel, ∀ l, readOne s = some l → prep l.data = none) ∨
          (strict = true ∧ loadAll readOne prep isEmpty sel = some [])) := by
  unfold read
  cases tbl with
  | nil => exact absurd rfl hne
  | cons a as =>
    simp only
    cases hr : applyRules bounds exclude inclusion (a :: as) with
    | none => simp
    | some sel =>
      cases sel with
      | nil => simp
      | cons s ss =>
        simp only [reduceCtorEq, Option.some.injEq, exists_eq_left', false_or]
        rw [← loadAll_none readOne prep isEmpty]
        cases hl : loadAll readOne prep isEmpty (s :: ss) with
        | none => simp
        | some out => cases out <;> cases strict <;> simp

theorem ncMeta_some (toGrid : K × K → K × K) (files : List (NcFile K D)) (tbl : List (Station K))
    (h : ncMeta toGrid files = some tbl) :
    tbl.map Station.id = files.map NcFile.id ∧
    (∀ f ∈ files, f.pos ≠ none) ∧
    ∀ s, s ∈ tbl ↔ ∃ f ∈ files, ∃ lon lat alt, f.pos = some (lon, lat, alt) ∧
      s = ⟨f.id, (toGrid (lon, lat)).1, (toGrid (lon, lat)).2, some alt, none⟩ := by
  induction files generalizing tbl with
  | nil => simp only [ncMeta, Option.some.injEq] at h; subst h; simp
  | cons f fs ih =>
    simp only [ncMeta] at h
    split at h
    · rename_i lon lat alt rest hp hr
      cases h
      obtain ⟨h1, h2, h3⟩ := ih rest hr
      refine ⟨by simp [h1], ?_, ?_⟩
      · intro g hg
        rcases List.mem_cons.1 hg with rfl | hg
        · simp [hp]
        · exact h2 g hg
      · intro s
        rw [List.mem_cons, h3]
        simp only [List.exists_mem_cons_iff, hp, Option.some.injEq, Prod.mk.injEq]
        constructor
        · rintro (rfl | r)
          · exact Or.inl ⟨lon, lat, alt, ⟨rfl, rfl, rfl⟩, rfl⟩
          · exact Or.inr r
        · rintro (⟨_, _, _, ⟨rfl, rfl, rfl⟩, r⟩ | r)
          · exact Or.inl r
          · exact Or.inr r
    · cases h

theorem ncMeta_none (toGrid : K × K → K × K) (files : List (NcFile K D)) :
    ncMeta toGrid files = none ↔ ∃ f ∈ files, f.pos = none := by
  induction files with
  | nil => simp [ncMeta]
  | cons f fs ih =>
    simp only [ncMeta, List.exists_mem_cons_iff, ← ih]
    cases hp : f.pos with
    | none => simp
    | some p =>
      cases hr : ncMeta toGrid fs with
      | none => simp
      | some rest => simp

theorem applyRules_sublist (bounds : Option (Bounds K)) (exclude : Option (List ℕ)) (tbl sel : List (Station K))
    (h : applyRules bounds exclude none tbl = some sel) : sel.Sublist tbl := by
  simp only [applyRules, Option.map_some, Option.some.injEq] at h
  subst h
  have hd : ∀ (l : List (Station K)) (seen : List ℕ), (Stations.dedup seen l).Sublist l := by
    intro l
    induction l with
    | nil => intro seen; simp [Stations.dedup]
    | cons a l ih =>
      intro seen
      simp only [Stations.dedup]
      split_ifs
      · exact (ih _).cons _
      · exact (ih _).cons₂ _
  refine (hd _ _).trans ?_
  cases bounds <;> cases exclude <;> simp only [Stations.kept]
  · exact List.Sublist.refl _
  · exact List.filter_sublist
  · exact List.filter_sublist
  · exact List.filter_sublist.trans List.filter_sublist

/-! ## csv files -/

/-- **C113.** The stations that are read from csv files are, each once, exactly those listed that pass the
rules (with their position in the model grid) and whose file has data for the period; each with its own
name, position, altitude and the data of its own file. -/
theorem C113_csv (bounds : Option (Bounds K)) (exclude inclusion : Option (List ℕ)) (strict : Bool)
    (toGrid toLonLat : K × K → K × K) (prep : D → Option D) (isEmpty : D → Bool)
    (rows : List (CsvRow K)) (files : ℕ → Option D) (hu : (rows.map CsvRow.id).Nodup)
    (out : List (Loaded K D))
    (h : readCsvFiles bounds exclude inclusion strict toGrid toLonLat prep isEmpty (some rows) files =
      some out) :
    (out.map Loaded.id).Nodup ∧
    (∀ l, l ∈ out ↔ ∃ r ∈ rows, Passes bounds exclude inclusion r.id (toGrid (r.x, r.y)) ∧
      ∃ d d', files r.id = some d ∧ prep d = some d' ∧ isEmpty d' = false ∧
        l = ⟨r.id, some r.name, (toLonLat (toGrid (r.x, r.y))).1, (toLonLat (toGrid (r.x, r.y))).2,
          some r.alt, d'⟩) ∧
    (inclusion = none → (out.map Loaded.id).Sublist (rows.map CsvRow.id)) := by
  obtain ⟨tbl, sel, ht, -, hr, -, hl, -⟩ := read_some _ _ _ _ _ _ _ _ _ h
  simp only [csvMeta, Option.some.injEq] at ht
  have hid : tbl.map Station.id = rows.map CsvRow.id := by
    rw [← ht, List.map_map]; rfl
  have hid1 : ∀ (s : Station K) l, readCsv toLonLat files s = some l → l.id = s.id := by
    intro s l hl
    simp only [readCsv] at hl
    cases hf : files s.id with
    | none => rw [hf] at hl; cases hl
    | some d => rw [hf] at hl; cases hl; rfl
  obtain ⟨hn, hsel⟩ := Stations.C48_selected bounds exclude inclusion tbl sel (by rw [hid]; exact hu) hr
  have hsub := loadAll_ids (readCsv toLonLat files) prep isEmpty hid1 sel out hl
  refine ⟨hn.sublist hsub, ?_, ?_⟩
  · intro l
    rw [loadAll_mem _ prep isEmpty sel out hl l]
    constructor
    · rintro ⟨s, hs, l0, d', e1, e2, e3, e4⟩
      obtain ⟨hs1, hs2⟩ := (hsel s).1 hs
      rw [← ht] at hs1
      obtain ⟨r, hr1, rfl⟩ := List.mem_map.1 hs1
      refine ⟨r, hr1, hs2, ?_⟩
      simp only [readCsv] at e1
      cases hf : files r.id with
      | none => rw [hf] at e1; cases e1
      | some d =>
        rw [hf] at e1
        cases e1
        exact ⟨d, d', rfl, e2, e3, e4⟩
    · rintro ⟨r, hr1, hp, d, d', e1, e2, e3, e4⟩
      refine ⟨⟨r.id, (toGrid (r.x, r.y)).1, (toGrid (r.x, r.y)).2, some r.alt, some r.name⟩,
        (hsel _).2 ⟨?_, hp⟩, ⟨r.id, some r.name, (toLonLat (toGrid (r.x, r.y))).1,
          (toLonLat (toGrid (r.x, r.y))).2, some r.alt, d⟩, d', ?_, e2, e3, e4⟩
      · rw [← ht]
        exact List.mem_map.2 ⟨r, hr1, rfl⟩
      · simp only [readCsv, e1]
  · intro hi
    subst hi
    rw [← hid]
    exact hsub.trans ((applyRules_sublist bounds exclude tbl sel hr).map _)

/-- **C113.** Reading csv files fails exactly if the list of stations is missing or empty, an unknown
station is to be included, no station passes the rules, the file of a station that does is missing or
cannot be processed, or (unless missing data are allowed) no file has data for the period. -/
theorem C113_csv_error (bounds : Option (Bounds K)) (exclude inclusion : Option (List ℕ)) (strict : Bool)
    (toGrid toLonLat : K × K → K × K) (prep : D → Option D) (isEmpty : D → Bool)
    (table : Option (List (CsvRow K))) (files : ℕ → Option D)
    (hu : ∀ rows, table = some rows → (rows.map CsvRow.id).Nodup) :
    readCsvFiles bounds exclude inclusion strict toGrid toLonLat prep isEmpty table files = none ↔
      table = none ∨ ∃ rows, table = some rows ∧
        (rows = [] ∨ (∃ inc, inclusion = some inc ∧ ∃ i ∈ inc, ∀ r ∈ rows, r.id ≠ i) ∨
         (∀ r ∈ rows, ¬ Passes bounds exclude inclusion r.id (toGrid (r.x, r.y))) ∨
         (∃ r ∈ rows, Passes bounds exclude inclusion r.id (toGrid (r.x, r.y)) ∧
            ∀ d, files r.id = some d → prep d = none) ∨
         (strict = true ∧ ∀ r ∈ rows, Passes bounds exclude inclusion r.id (toGrid (r.x, r.y)) →
            ∃ d d', files r.id = some d ∧ prep d = some d' ∧ isEmpty d' = true)) := by
  cases table with
  | none => simp [readCsvFiles, read, csvMeta]
  | some rows =>
    simp only [reduceCtorEq, Option.some.injEq, exists_eq_left', false_or]
    cases rows with
    | nil => simp [readCsvFiles, read, csvMeta]
    | cons r0 rs =>
      obtain ⟨rows, hrows⟩ : ∃ rows, r0 :: rs = rows := ⟨_, rfl⟩
      have hne : rows ≠ [] := by rw [← hrows]; simp
      rw [hrows]
      have hu' := hu rows (by rw [hrows])
      obtain ⟨tbl, htbl⟩ : ∃ tbl : List (Station K), rows.map (fun r =>
        (⟨r.id, (toGrid (r.x, r.y)).1, (toGrid (r.x, r.y)).2, some r.alt, some r.name⟩ : Station K)) = tbl :=
        ⟨_, rfl⟩
      have hid : tbl.map Station.id = rows.map CsvRow.id := by
        rw [← htbl, List.map_map]; rfl
      have htne : tbl ≠ [] := by rw [← htbl]; simpa using hne
      have hread : ∀ s l, readCsv toLonLat files s = some l →
          files (Station.id (K := K) s) = some l.data := by
        intro s l hl
        simp only [readCsv] at hl
        cases hf : files s.id with
        | none => rw [hf] at hl; cases hl
        | some d => rw [hf] at hl; cases hl; rfl
      have hread2 : ∀ (s : Station K) d, files s.id = some d →
          ∃ l, readCsv toLonLat files s = some l ∧ l.data = d := by
        intro s d hd
        simp only [readCsv, hd]
        exact ⟨_, rfl, rfl⟩
      have : readCsvFiles bounds exclude inclusion strict toGrid toLonLat prep isEmpty (some rows) files =
          read bounds exclude inclusion strict (readCsv toLonLat files) prep isEmpty (some tbl) := by
        rw [← htbl]; rfl
      rw [this, read_none _ _ _ _ _ _ _ tbl htne, Stations.C48_error]
      have herr : (∃ inc, inclusion = some inc ∧ ∃ i ∈ inc, ∀ s ∈ tbl, s.id ≠ i) ↔
          ∃ inc, inclusion = some inc ∧ ∃ i ∈ inc, ∀ r ∈ rows, r.id ≠ i := by
        rw [← htbl]
        simp only [List.forall_mem_map]
      rw [herr]
      simp only [hne, false_or]
      refine or_congr_right' fun hok => ?_
      have hsome : ∃ sel, applyRules bounds exclude inclusion tbl = some sel := by
        cases hr : applyRules bounds exclude inclusion tbl with
        | some sel => exact ⟨sel, rfl⟩
        | none => exact absurd (herr.1 ((Stations.C48_error _ _ _ _).1 hr)) hok
      obtain ⟨sel, hsel0⟩ := hsome
      obtain ⟨-, hsel⟩ := Stations.C48_selected bounds exclude inclusion tbl sel (by rw [hid]; exact hu')
        hsel0
      have hmem : ∀ (P : ℕ → Prop), (∃ s ∈ sel, P s.id) ↔
          ∃ r ∈ rows, Passes bounds exclude inclusion r.id (toGrid (r.x, r.y)) ∧ P r.id := by
        intro P
        constructor
        · rintro ⟨s, hs, hP⟩
          obtain ⟨h1, h2⟩ := (hsel s).1 hs
          rw [← htbl] at h1
          obtain ⟨r, hr1, rfl⟩ := List.mem_map.1 h1
          exact ⟨r, hr1, h2, hP⟩
        · rintro ⟨r, hr1, hp, hP⟩
          exact ⟨⟨r.id, (toGrid (r.x, r.y)).1, (toGrid (r.x, r.y)).2, some r.alt, some r.name⟩,
            (hsel _).2 ⟨by rw [← htbl]; exact List.mem_map.2 ⟨r, hr1, rfl⟩, hp⟩, hP⟩
      have hnil : sel = [] ↔ ∀ r ∈ rows, ¬ Passes bounds exclude inclusion r.id (toGrid (r.x, r.y)) := by
        have := hmem fun _ => True
        rw [← not_iff_not]
        push Not
        simp only [and_true] at this
        rw [← this]
        exact ⟨List.exists_mem_of_ne_nil _, fun ⟨_, h⟩ => List.ne_nil_of_mem h⟩
      have hbad : (∃ s ∈ sel, ∀ l, readCsv toLonLat files s = some l → prep l.data = none) ↔
          ∃ r ∈ rows, Passes bounds exclude inclusion r.id (toGrid (r.x, r.y)) ∧
            ∀ d, files r.id = some d → prep d = none := by
        rw [← hmem fun i => ∀ d, files i = some d → prep d = none]
        refine exists_congr fun s => and_congr_right fun _ => ?_
        constructor
        · intro h d hd
          obtain ⟨l, hl, e⟩ := hread2 s d hd
          rw [← e]
          exact h l hl
        · intro h l hl
          exact h _ (hread s l hl)
      rw [hsel0]
      simp only [Option.some.injEq, exists_eq_left']
      rw [hnil, hbad]
      refine or_congr_right (or_congr_right' fun hgood => and_congr_right fun _ => ?_)
      rw [← hbad, ← loadAll_none _ prep isEmpty] at hgood
      obtain ⟨out, hout⟩ := Option.ne_none_iff_exists'.1 hgood
      have hl := loadAll_mem _ prep isEmpty sel out hout
      rw [hout, Option.some.injEq]
      rw [loadAll_none, not_exists] at hgood
      constructor
      · intro he r hr1 hp
        have hs : (⟨r.id, (toGrid (r.x, r.y)).1, (toGrid (r.x, r.y)).2, some r.alt, some r.name⟩ :
            Station K) ∈ sel :=
          (hsel _).2 ⟨by rw [← htbl]; exact List.mem_map.2 ⟨r, hr1, rfl⟩, hp⟩
        have hg := hgood ⟨r.id, (toGrid (r.x, r.y)).1, (toGrid (r.x, r.y)).2, some r.alt, some r.name⟩
        simp only [not_and, hs, true_implies] at hg
        push Not at hg
        obtain ⟨l, hl1, hl2⟩ := hg
        obtain ⟨d', hd'⟩ := Option.ne_none_iff_exists'.1 hl2
        refine ⟨l.data, d', hread _ l hl1, hd', ?_⟩
        cases hi : isEmpty d' with
        | true => rfl
        | false =>
          have := (hl _).2 ⟨_, hs, l, d', hl1, hd', hi, rfl⟩
          rw [he] at this
          simp at this
      · intro hall
        rw [List.eq_nil_iff_forall_not_mem]
        intro l hlo
        obtain ⟨s, hs, l0, d', e1, e2, e3, -⟩ := (hl l).1 hlo
        have := (hmem fun i => ∃ d d', files i = some d ∧ prep d = some d' ∧ isEmpty d' = false).1
          ⟨s, hs, l0.data, d', hread s l0 e1, e2, e3⟩
        obtain ⟨r, hr1, hp, d1, d1', f1, f2, f3⟩ := this
        obtain ⟨d2, d2', g1, g2, g3⟩ := hall r hr1 hp
        rw [f1] at g1
        cases g1
        rw [f2] at g2
        cases g2
        rw [f3] at g3
        cases g3

/-- **C113.** Files of stations that do not pass the rules are irrelevant for csv files. -/
theorem C113_csv_excluded (bounds : Option (Bounds K)) (exclude inclusion : Option (List ℕ)) (strict : Bool)
    (toGrid toLonLat : K × K → K × K) (prep : D → Option D) (isEmpty : D → Bool)
    (rows : List (CsvRow K)) (f1 f2 : ℕ → Option D) (hu : (rows.map CsvRow.id).Nodup)
    (hf : ∀ r ∈ rows, Passes bounds exclude inclusion r.id (toGrid (r.x, r.y)) → f1 r.id = f2 r.id) :
    readCsvFiles bounds exclude inclusion strict toGrid toLonLat prep isEmpty (some rows) f1 =
      readCsvFiles bounds exclude inclusion strict toGrid toLonLat prep isEmpty (some rows) f2 := by
  simp only [readCsvFiles, csvMeta, read]
  obtain ⟨tbl, htbl⟩ : ∃ tbl : List (Station K), rows.map (fun r =>
    (⟨r.id, (toGrid (r.x, r.y)).1, (toGrid (r.x, r.y)).2, some r.alt, some r.name⟩ : Station K)) = tbl :=
    ⟨_, rfl⟩
  have hid : tbl.map Station.id = rows.map CsvRow.id := by
    rw [← htbl, List.map_map]; rfl
  rw [htbl]
  cases tbl with
  | nil => rfl
  | cons a as =>
    simp only
    cases hr : applyRules bounds exclude inclusion (a :: as) with
    | none => rfl
    | some sel =>
      cases sel with
      | nil => rfl
      | cons s ss =>
        obtain ⟨-, hsel⟩ := Stations.C48_selected bounds exclude inclusion (a :: as) (s :: ss)
          (by rw [hid]; exact hu) hr
        have : loadAll (readCsv toLonLat f1) prep isEmpty (s :: ss) =
            loadAll (readCsv toLonLat f2) prep isEmpty (s :: ss) := by
          apply loadAll_congr
          intro t ht
          obtain ⟨h1, h2⟩ := (hsel t).1 ht
          rw [← htbl] at h1
          obtain ⟨r, hr1, rfl⟩ := List.mem_map.1 h1
          have := hf r hr1 h2
          simp only [readCsv, this]
        simp only [this]

/-- **C113.** If the transformation between the model grid and longitude and latitude is invertible, the
position in the model grid that `prepare_point_coordinates` (`forcing.py:304-312`) derives from the
dataset of a station is the one for which the rules were applied. -/
theorem C113_csv_position (bounds : Option (Bounds K)) (exclude inclusion : Option (List ℕ)) (strict : Bool)
    (toGrid toLonLat back : K × K → K × K) (hback : ∀ p, back (toLonLat p) = p) (prep : D → Option D)
    (isEmpty : D → Bool) (rows : List (CsvRow K)) (files : ℕ → Option D) (hu : (rows.map CsvRow.id).Nodup)
    (out : List (Loaded K D))
    (h : readCsvFiles bounds exclude inclusion strict toGrid toLonLat prep isEmpty (some rows) files =
      some out) (l : Loaded K D) (hl : l ∈ out) :
    Passes bounds exclude inclusion l.id (back (l.lon, l.lat)) := by
  obtain ⟨-, h2, -⟩ := C113_csv bounds exclude inclusion strict toGrid toLonLat prep isEmpty rows files hu
    out h
  obtain ⟨r, -, hp, d, d', -, -, -, rfl⟩ := (h2 l).1 hl
  rw [hback]
  exact hp

/-! ## netCDF files -/

/-- **C113.** The stations that are read from netCDF files are, each once, exactly those whose file passes
the rules (with the position in the file) and has data for the period; each with the name, position,
altitude and data of its own file. -/
theorem C113_netcdf (bounds : Option (Bounds K)) (exclude inclusion : Option (List ℕ)) (strict : Bool)
    (toGrid : K × K → K × K) (prep : D → Option D) (isEmpty : D → Bool)
    (files : List (NcFile K D)) (hu : (files.map NcFile.id).Nodup) (out : List (Loaded K D))
    (h : readNetcdf bounds exclude inclusion strict toGrid prep isEmpty files = some out) :
    (out.map Loaded.id).Nodup ∧
    (∀ l, l ∈ out ↔ ∃ f ∈ files, ∃ lon lat alt, f.pos = some (lon, lat, alt) ∧
      Passes bounds exclude inclusion f.id (toGrid (lon, lat)) ∧
      ∃ d', prep f.data = some d' ∧ isEmpty d' = false ∧
        l = ⟨f.id, f.name, lon, lat, some alt, d'⟩) ∧
    (inclusion = none → (out.map Loaded.id).Sublist (files.map NcFile.id)) := by
  obtain ⟨tbl, sel, ht, -, hr, -, hl, -⟩ := read_some _ _ _ _ _ _ _ _ _ h
  obtain ⟨hid, hpos, hm⟩ := ncMeta_some toGrid files tbl ht
  have hid1 : ∀ (s : Station K) l, readNc files s = some l → l.id = s.id := by
    intro s l hl
    simp only [readNc] at hl
    split at hl
    · cases hl
    · split at hl
      · cases hl
      · cases hl; rfl
  obtain ⟨hn, hsel⟩ := Stations.C48_selected bounds exclude inclusion tbl sel (by rw [hid]; exact hu) hr
  have hsub := loadAll_ids (readNc files) prep isEmpty hid1 sel out hl
  have hfind : ∀ f ∈ files, files.find? (fun g => decide (g.id = f.id)) = some f := by
    intro f hf
    cases hq : files.find? (fun g => decide (g.id = f.id)) with
    | none =>
      rw [List.find?_eq_none] at hq
      simpa using hq f hf
    | some g =>
      have h1 := List.mem_of_find?_eq_some hq
      have h2 := List.find?_some hq
      rw [List.inj_on_of_nodup_map hu h1 hf (by simpa using h2)]
  refine ⟨hn.sublist hsub, ?_, ?_⟩
  · intro l
    rw [loadAll_mem _ prep isEmpty sel out hl l]
    constructor
    · rintro ⟨s, hs, l0, d', e1, e2, e3, e4⟩
      obtain ⟨hs1, hs2⟩ := (hsel s).1 hs
      obtain ⟨f, hf, lon, lat, alt, hp, rfl⟩ := (hm s).1 hs1
      refine ⟨f, hf, lon, lat, alt, hp, hs2, d', ?_⟩
      simp only [readNc, hfind f hf, hp, Option.some.injEq] at e1
      subst e1
      exact ⟨e2, e3, e4⟩
    · rintro ⟨f, hf, lon, lat, alt, hp, hs2, d', e2, e3, e4⟩
      refine ⟨⟨f.id, (toGrid (lon, lat)).1, (toGrid (lon, lat)).2, some alt, none⟩,
        (hsel _).2 ⟨(hm _).2 ⟨f, hf, lon, lat, alt, hp, rfl⟩, hs2⟩,
        ⟨f.id, f.name, lon, lat, some alt, f.data⟩, d', ?_, e2, e3, e4⟩
      simp only [readNc, hfind f hf, hp]
  · intro hi
    subst hi
    rw [← hid]
    exact hsub.trans ((applyRules_sublist bounds exclude tbl sel hr).map _)

/-- **C113.** Reading netCDF files fails exactly if there is no file, a file has no position (also if its station
is excluded), an unknown station is to be included, no station passes the rules, the file of a station that does
cannot be processed, or (unless missing data are allowed) no file has data for the period. -/
theorem C113_netcdf_error (bounds : Option (Bounds K)) (exclude inclusion : Option (List ℕ)) (strict : Bool)
    (toGrid : K × K → K × K) (prep : D → Option D) (isEmpty : D → Bool)
    (files : List (NcFile K D)) (hu : (files.map NcFile.id).Nodup) :
    readNetcdf bounds exclude inclusion strict toGrid prep isEmpty files = none ↔
      files = [] ∨ (∃ f ∈ files, f.pos = none) ∨
      (∃ inc, inclusion = some inc ∧ ∃ i ∈ inc, ∀ f ∈ files, f.id ≠ i) ∨
      (∀ f ∈ files, ∀ lon lat alt, f.pos = some (lon, lat, alt) →
        ¬ Passes bounds exclude inclusion f.id (toGrid (lon, lat))) ∨
      (∃ f ∈ files, prep f.data = none ∧ ∃ lon lat alt, f.pos = some (lon, lat, alt) ∧
        Passes bounds exclude inclusion f.id (toGrid (lon, lat))) ∨
      (strict = true ∧ ∀ f ∈ files, ∀ lon lat alt, f.pos = some (lon, lat, alt) →
        Passes bounds exclude inclusion f.id (toGrid (lon, lat)) →
        ∃ d', prep f.data = some d' ∧ isEmpty d' = true) := by
  by_cases hnil : files = []
  · subst hnil; simp [readNetcdf, read, ncMeta]
  by_cases hnp : ∃ f ∈ files, f.pos = none
  · simp only [hnp, true_or, or_true, iff_true]
    rw [readNetcdf, (ncMeta_none toGrid files).2 hnp]
    rfl
  cases htbl : ncMeta toGrid files with
  | none => exact absurd ((ncMeta_none toGrid files).1 htbl) hnp
  | some tbl =>
    obtain ⟨hid, -, hm⟩ := ncMeta_some toGrid files tbl htbl
    have htne : tbl ≠ [] := by
      rintro rfl
      exact hnil (List.map_eq_nil_iff.mp hid.symm)
    have hfind : ∀ f ∈ files, files.find? (fun g => decide (g.id = f.id)) = some f := by
      intro f hf
      cases hq : files.find? (fun g => decide (g.id = f.id)) with
      | none =>
        rw [List.find?_eq_none] at hq
        simpa using hq f hf
      | some g =>
        have h1 := List.mem_of_find?_eq_some hq
        have h2 := List.find?_some hq
        rw [List.inj_on_of_nodup_map hu h1 hf (by simpa using h2)]
    have hread : ∀ f ∈ files, ∀ lon lat alt, f.pos = some (lon, lat, alt) →
        readNc files ⟨f.id, (toGrid (lon, lat)).1, (toGrid (lon, lat)).2, some alt, none⟩ =
          some ⟨f.id, f.name, lon, lat, some alt, f.data⟩ := by
      intro f hf lon lat alt hp
      simp only [readNc, hfind f hf, hp]
    rw [readNetcdf, htbl, read_none _ _ _ _ _ _ _ tbl htne, Stations.C48_error]
    have herr : (∃ inc, inclusion = some inc ∧ ∃ i ∈ inc, ∀ s ∈ tbl, s.id ≠ i) ↔
        ∃ inc, inclusion = some inc ∧ ∃ i ∈ inc, ∀ f ∈ files, f.id ≠ i := by
      refine exists_congr fun inc => and_congr_right fun _ => exists_congr fun i => and_congr_right fun _ => ?_
      have e1 : (∀ s ∈ tbl, s.id ≠ i) ↔ i ∉ tbl.map Station.id := by simp [eq_comm]
      have e2 : (∀ f ∈ files, f.id ≠ i) ↔ i ∉ files.map NcFile.id := by simp [eq_comm]
      rw [e1, e2, hid]
    rw [herr]
    simp only [hnil, hnp, false_or]
    refine or_congr_right' fun hok => ?_
    have hsome : ∃ sel, applyRules bounds exclude inclusion tbl = some sel := by
      cases hr : applyRules bounds exclude inclusion tbl with
      | some sel => exact ⟨sel, rfl⟩
      | none => exact absurd (herr.1 ((Stations.C48_error _ _ _ _).1 hr)) hok
    obtain ⟨sel, hsel0⟩ := hsome
    obtain ⟨-, hsel⟩ := Stations.C48_selected bounds exclude inclusion tbl sel (by rw [hid]; exact hu) hsel0
    have hin : ∀ s, s ∈ sel ↔ ∃ f ∈ files, ∃ lon lat alt, f.pos = some (lon, lat, alt) ∧
        Passes bounds exclude inclusion f.id (toGrid (lon, lat)) ∧
        s = ⟨f.id, (toGrid (lon, lat)).1, (toGrid (lon, lat)).2, some alt, none⟩ := by
      intro s
      rw [hsel, hm]
      constructor
      · rintro ⟨⟨f, hf, lon, lat, alt, hp, rfl⟩, hps⟩
        exact ⟨f, hf, lon, lat, alt, hp, hps, rfl⟩
      · rintro ⟨f, hf, lon, lat, alt, hp, hps, rfl⟩
        exact ⟨⟨f, hf, lon, lat, alt, hp, rfl⟩, hps⟩
    rw [hsel0]
    simp only [Option.some.injEq, exists_eq_left']
    have hnil' : sel = [] ↔ ∀ f ∈ files, ∀ lon lat alt, f.pos = some (lon, lat, alt) →
        ¬ Passes bounds exclude inclusion f.id (toGrid (lon, lat)) := by
      rw [List.eq_nil_iff_forall_not_mem]
      constructor
      · intro h f hf lon lat alt hp hps
        exact h _ ((hin _).2 ⟨f, hf, lon, lat, alt, hp, hps, rfl⟩)
      · intro h s hs
        obtain ⟨f, hf, lon, lat, alt, hp, hps, -⟩ := (hin s).1 hs
        exact h f hf lon lat alt hp hps
    have hbad : (∃ s ∈ sel, ∀ l, readNc files s = some l → prep l.data = none) ↔
        ∃ f ∈ files, prep f.data = none ∧ ∃ lon lat alt, f.pos = some (lon, lat, alt) ∧
          Passes bounds exclude inclusion f.id (toGrid (lon, lat)) := by
      constructor
      · rintro ⟨s, hs, h⟩
        obtain ⟨f, hf, lon, lat, alt, hp, hps, rfl⟩ := (hin s).1 hs
        exact ⟨f, hf, h _ (hread f hf lon lat alt hp), lon, lat, alt, hp, hps⟩
      · rintro ⟨f, hf, hpr, lon, lat, alt, hp, hps⟩
        refine ⟨_, (hin _).2 ⟨f, hf, lon, lat, alt, hp, hps, rfl⟩, fun l hl => ?_⟩
        rw [hread f hf lon lat alt hp, Option.some.injEq] at hl
        subst hl
        exact hpr
    rw [hnil', hbad]
    refine or_congr_right (or_congr_right' fun hgood => and_congr_right fun _ => ?_)
    have hgood' := hgood
    rw [← hbad, ← loadAll_none _ prep isEmpty] at hgood
    obtain ⟨out, hout⟩ := Option.ne_none_iff_exists'.1 hgood
    have hl := loadAll_mem _ prep isEmpty sel out hout
    rw [hout, Option.some.injEq]
    constructor
    · rintro rfl f hf lon lat alt hp hps
      cases hd : prep f.data with
      | none => exact absurd ⟨f, hf, hd, lon, lat, alt, hp, hps⟩ hgood'
      | some d' =>
        refine ⟨d', rfl, ?_⟩
        cases hi : isEmpty d' with
        | true => rfl
        | false =>
          have := (hl _).2 ⟨_, (hin _).2 ⟨f, hf, lon, lat, alt, hp, hps, rfl⟩, _, d',
            hread f hf lon lat alt hp, hd, hi, rfl⟩
          simp at this
    · intro hall
      rw [List.eq_nil_iff_forall_not_mem]
      intro l hlo
      obtain ⟨s, hs, l0, d', e1, e2, e3, -⟩ := (hl l).1 hlo
      obtain ⟨f, hf, lon, lat, alt, hp, hps, rfl⟩ := (hin s).1 hs
      rw [hread f hf lon lat alt hp, Option.some.injEq] at e1
      subst e1
      obtain ⟨d2, g1, g2⟩ := hall f hf lon lat alt hp hps
      rw [e2, Option.some.injEq] at g1
      subst g1
      rw [e3] at g2
      cases g2

/-- Unlike for csv files (`C113_csv_excluded`), the file of an excluded station is not irrelevant. -/
theorem C113_netcdf_excluded_witness :
    readNetcdf (K := ℚ) (D := ℕ) none (some [2]) none true id some (fun _ => false)
      [⟨1, some (1, 2, 3), none, 7⟩, ⟨2, some (1, 2, 3), none, 7⟩] = some [⟨1, none, 1, 2, some 3, 7⟩] ∧
    readNetcdf (K := ℚ) (D := ℕ) none (some [2]) none true id some (fun _ => false)
      [⟨1, some (1, 2, 3), none, 7⟩, ⟨2, none, none, 7⟩] = none := by
  constructor <;>
    simp [readNetcdf, read, ncMeta, applyRules, Stations.kept, Stations.dedup, loadAll, readNc]

/-- Three stations, of which one is excluded and one has no data. -/
example : readCsvFiles (K := ℚ) (D := List ℕ) (some ⟨0, 0, 10, 10⟩) (some [2]) none true
    (fun p => (p.1 + 1, p.2)) (fun p => (p.1 - 1, p.2)) some List.isEmpty
    (some [⟨1, "a", 2, 3, 100⟩, ⟨2, "b", 2, 3, 100⟩, ⟨3, "c", 4, 4, 100⟩])
    (fun i => if i = 1 then some [5] else if i = 3 then some [] else none) =
    some [⟨1, some "a", 2, 3, some 100, [5]⟩] := by
  norm_num [readCsvFiles, read, csvMeta, applyRules, Stations.kept, Stations.inBounds, Stations.dedup,
    loadAll, readCsv]

end Verif.StationFiles
