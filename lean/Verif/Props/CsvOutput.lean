import Verif.Model.CsvOutput
import Verif.Props.PointOutput
import Verif.Props.GridDef

/-!
# C147: CSV point output loses nothing
-/

namespace Verif.CsvOutput

open Verif.OutputDef Verif.PointOutput Verif.Freq

variable {D R : Type*} [LinearOrder D]

/-! ## Specification -/

/-- Specification: the columns of the file with the variable and the layer they show, first the two-dimensional
variables, then the layers of the others. -/
def columns (vs : List Var) : List (Name × Var × ℕ) :=
  ((vs.filter fun v => decide (v.dim3 = 0)).map fun v => (v.outName, v, 0)) ++
    (vs.filter fun v => decide (v.dim3 ≠ 0)).flatMap fun v =>
      (List.range v.dim3).map fun i => (v.outName ++ showNat i, v, i)

/-- Specification: no layer column has the name of another variable or of another layer column. -/
def Clear (vs : List Var) : Prop :=
  ∀ v ∈ vs, ∀ i < v.dim3, (∀ w ∈ vs, w.outName ≠ v.outName ++ showNat i) ∧
    ∀ w ∈ vs, ∀ j < w.dim3, w.outName ++ showNat j = v.outName ++ showNat i → w = v ∧ j = i

/-- Specification: the rows of the file for a series of records. -/
def rows (vs : List Var) (recs : List (D × Option (Vals R))) : List (Line D R) :=
  recs.map fun r => .row r.1 ((columns vs).map fun c => r.2.bind fun w => w c.2.1 c.2.2)

/-! ## Columns -/

theorem assign_new (k : Name) (c : Col R) (l : Cols R) (h : k ∉ l.map Prod.fst) : assign k c l = l ++ [(k, c)] := by
  induction l with
  | nil => rfl
  | cons a l ih =>
    simp only [List.map_cons, List.mem_cons, not_or] at h
    simp only [assign]
    rw [if_neg (fun e => h.1 e.symm), ih h.2]
    rfl

theorem addLayers_new (ds : Cols R) (k : Name) (f : ℕ → ℕ → Option R) (hk : ds.lookup k = some (.layers f)) (is : List ℕ)
    (hn : is.Nodup) (out : Cols R) (h : ∀ i ∈ is, k ++ showNat i ∉ out.map Prod.fst) :
    addLayers ds k is out = some (out ++ is.map fun i => (k ++ showNat i, .flat (f i))) := by
  induction is generalizing out with
  | nil => simp [addLayers]
  | cons i is ih =>
    obtain ⟨h1, h2⟩ := List.nodup_cons.mp hn
    simp only [addLayers, layer, hk, Option.bind_some]
    rw [assign_new _ _ _ (h i (by simp)), ih h2]
    · simp
    · intro j hj hm
      simp only [List.map_append, List.map_cons, List.map_nil, List.mem_append, List.mem_singleton] at hm
      rcases hm with hm | hm
      · exact h j (by simp [hj]) hm
      · exact h1 (by rw [← showNat_inj (List.append_cancel_left hm)]; exact hj)

theorem lookup_chunk (vs : List Var) (hn : (vs.map Var.outName).Nodup) (g : Var → Col R) (v : Var) (hv : v ∈ vs) :
    (vs.map fun v => (v.outName, g v)).lookup v.outName = some (g v) := by
  induction vs with
  | nil => simp at hv
  | cons a vs ih =>
    rw [List.map_cons, List.nodup_cons] at hn
    rw [List.map_cons, List.lookup_cons]
    by_cases e : v.outName = a.outName
    · rcases List.mem_cons.mp hv with rfl | h
      · simp
      · exact absurd (List.mem_map.mpr ⟨v, h, e⟩) hn.1
    · rcases List.mem_cons.mp hv with rfl | h
      · exact absurd rfl e
      · have : (v.outName == a.outName) = false := by simpa using e
        rw [this]
        exact ih hn.2 h

/-- The layer columns of a list of variables. -/
def layerCols (recs : List (D × Option (Vals R))) (vs : List Var) : Cols R :=
  (vs.filter fun v => decide (v.dim3 ≠ 0)).flatMap fun v =>
    (List.range v.dim3).map fun i => (v.outName ++ showNat i, .flat (value recs v i))

theorem mem_layerCols {recs : List (D × Option (Vals R))} {vs : List Var} {k : Name}
    (h : k ∈ (layerCols recs vs).map Prod.fst) : ∃ v ∈ vs, ∃ i < v.dim3, k = v.outName ++ showNat i := by
  obtain ⟨c, hc, rfl⟩ := List.mem_map.mp h
  obtain ⟨v, hv, hc⟩ := List.mem_flatMap.mp hc
  obtain ⟨i, hi, rfl⟩ := List.mem_map.mp hc
  exact ⟨v, (List.mem_filter.mp hv).1, i, List.mem_range.mp hi, rfl⟩

theorem expand_clear (vs : List Var) (hn : (vs.map Var.outName).Nodup) (hc : Clear vs)
    (recs : List (D × Option (Vals R))) :
    expand (chunkCols vs recs) vs (chunkCols vs recs)
      = some ((columns vs).map fun c => (c.1, .flat (value recs c.2.1 c.2.2))) := by
  have key : ∀ (b a : List Var), vs = a ++ b →
      expand (chunkCols vs recs) b (chunkCols ((a.filter fun v => decide (v.dim3 = 0)) ++ b) recs ++ layerCols recs a)
        = some ((columns vs).map fun c => (c.1, .flat (value recs c.2.1 c.2.2))) := by
    intro b
    induction b with
    | nil =>
      intro a ha
      rw [List.append_nil] at ha
      subst ha
      simp only [expand, List.append_nil, Option.some.injEq, columns, layerCols, chunkCols, List.map_append, List.map_map,
        List.map_flatMap]
      congr 1
      · refine List.map_congr_left fun v hv => ?_
        have := (List.mem_filter.mp hv).2
        simp only [decide_eq_true_eq] at this
        simp [this]
    | cons v b ih =>
      intro a ha
      have hv : v ∈ vs := by rw [ha]; simp
      have ha' : vs = (a ++ [v]) ++ b := by rw [ha]; simp
      by_cases h0 : v.dim3 = 0
      · simp only [expand, h0, lt_irrefl, if_false]
        have := ih (a ++ [v]) ha'
        have e1 : (a ++ [v]).filter (fun v => decide (v.dim3 = 0)) = a.filter (fun v => decide (v.dim3 = 0)) ++ [v] := by
          simp [List.filter_append, h0]
        have e2 : layerCols recs (a ++ [v]) = layerCols recs a := by
          simp [layerCols, List.filter_append, h0]
        rw [e1, e2] at this
        simpa using this
      · simp only [expand, Nat.pos_of_ne_zero h0, if_true]
        have hsub : ∀ w ∈ (a.filter fun v => decide (v.dim3 = 0)) ++ v :: b, w ∈ vs := by
          intro w hw
          rw [ha]
          rcases List.mem_append.mp hw with hw | hw
          · exact List.mem_append_left _ (List.mem_filter.mp hw).1
          · exact List.mem_append_right _ hw
        have hna : v ∉ a := by
          rw [ha, List.map_append, List.nodup_append] at hn
          intro hm
          exact hn.2.2 _ (List.mem_map_of_mem hm) _ (List.mem_map_of_mem (List.mem_cons_self)) rfl
        rw [addLayers_new (chunkCols vs recs) v.outName (value recs v)
          (by rw [chunkCols, lookup_chunk vs hn _ v hv]; simp [h0]) _ List.nodup_range]
        · simp only [Option.bind_some]
          have := ih (a ++ [v]) ha'
          convert this using 2
          have e1 : (a ++ [v]).filter (fun v => decide (v.dim3 = 0)) = a.filter (fun v => decide (v.dim3 = 0)) := by
            simp [List.filter_append, h0]
          have e2 : layerCols recs (a ++ [v]) = layerCols recs a ++
              (List.range v.dim3).map fun i => (v.outName ++ showNat i, .flat (value recs v i)) := by
            simp [layerCols, List.filter_append, h0]
          rw [e1, e2, List.filter_append, List.filter_append, ← List.append_assoc]
          have hne : ∀ w ∈ vs, ∀ i < w.dim3, v.outName ≠ w.outName ++ showNat i :=
            fun w hw i hi => (hc w hw i hi).1 v hv
          congr 1
          · congr 1
            · simp only [chunkCols, List.map_append, List.map_cons, List.filter_append]
              rw [List.filter_cons_of_neg (by simp)]
              have hd : ∀ l : List Var, (∀ w ∈ l, w.outName ≠ v.outName) → ∀ g : Var → Col R,
                  (l.map fun w => (w.outName, g w)).filter (fun c => decide (c.1 ≠ v.outName))
                    = l.map fun w => (w.outName, g w) := by
                intro l hl g
                refine List.filter_eq_self.mpr fun c hcm => ?_
                obtain ⟨w, hw, rfl⟩ := List.mem_map.mp hcm
                simpa using hl w hw
              rw [hd, hd]
              · intro w hw e
                rw [ha, List.map_append, List.map_cons, List.nodup_append] at hn
                exact (List.nodup_cons.mp hn.2.1).1 (List.mem_map.mpr ⟨w, hw, e⟩)
              · intro w hw e
                rw [ha, List.map_append, List.map_cons, List.nodup_append] at hn
                exact hn.2.2 _ (List.mem_map_of_mem (List.mem_filter.mp hw).1) _ (List.mem_cons_self) e
            · refine List.filter_eq_self.mpr fun c hcm => ?_
              obtain ⟨w, hw, i, hi, e⟩ := mem_layerCols (List.mem_map_of_mem (f := Prod.fst) hcm)
              rw [e]
              exact decide_eq_true (hne w (by rw [ha]; exact List.mem_append_left _ hw) i hi).symm
          · refine List.filter_eq_self.mpr fun c hcm => ?_
            obtain ⟨i, hi, rfl⟩ := List.mem_map.mp hcm
            exact decide_eq_true (hne v hv i (List.mem_range.mp hi)).symm
        · intro i hi hm
          rw [List.map_append, List.mem_append] at hm
          rcases hm with hm | hm
          · simp only [chunkCols, List.map_map] at hm
            obtain ⟨w, hw, e⟩ := List.mem_map.mp hm
            exact (hc v hv i (List.mem_range.mp hi)).1 w (hsub w hw) e
          · obtain ⟨w, hw, j, hj, e⟩ := mem_layerCols hm
            have := (hc v hv i (List.mem_range.mp hi)).2 w (by rw [ha]; exact List.mem_append_left _ hw) j hj e.symm
            exact hna (this.1 ▸ hw)
  have := key vs [] rfl
  simpa [layerCols] using this

theorem lines_columns (vs : List Var) (first : Bool) (recs : List (D × Option (Vals R))) :
    lines first ((columns vs).map fun c => (c.1, .flat (value recs c.2.1 c.2.2))) recs
      = (if first then [.header ((columns vs).map Prod.fst)] else []) ++ rows vs recs := by
  unfold lines rows
  congr 1
  · simp [List.map_map, Function.comp_def]
  · refine List.ext_getElem (by simp) fun k h1 h2 => ?_
    have hk : k < recs.length := by simpa using h2
    simp [List.getElem_zipIdx, Col.get, value, List.getElem?_eq_getElem hk, Function.comp_def]

/-! ## The run -/

theorem rows_append (vs : List Var) (a b : List (D × Option (Vals R))) : rows vs (a ++ b) = rows vs a ++ rows vs b := by
  simp [rows]

/-- Relation of the runs with records and with lines. -/
def Rel (vs : List Var) (old : List (D × Option (Vals R))) (oldL : List (Line D R)) (s : PointOutput.St D (Vals R))
    (f : St D R) : Prop :=
  s.data = f.data ∧
    ((∃ recs, s.file = some (old ++ recs) ∧ f.file.getD [] = oldL ++ rows vs recs) ∨
     ∃ recs, s.file = some recs ∧ f.file = some (.header ((columns vs).map Prod.fst) :: rows vs recs))

theorem update_rel (vs : List Var) (hn : (vs.map Var.outName).Nodup) (hc : Clear vs) (write dates : List D) (d : D)
    (v : Vals R) (old : List (D × Option (Vals R))) (oldL : List (Line D R)) (s s' : PointOutput.St D (Vals R))
    (f : St D R) (h : Rel vs old oldL s f) (hs : PointOutput.update .csv write dates d v s = some s') :
    ∃ f', update vs write dates d v f = some f' ∧ Rel vs old oldL s' f' := by
  obtain ⟨h1, h2⟩ := h
  have hcur : current write dates d s = current write dates d (⟨f.data, none⟩ : PointOutput.St D (Vals R)) := by
    simp only [current, h1]
  unfold PointOutput.update at hs
  unfold update
  rw [hcur] at hs
  cases e1 : current write dates d (⟨f.data, none⟩ : PointOutput.St D (Vals R)) with
  | none => rw [e1] at hs; cases hs
  | some ds0 =>
    rw [e1] at hs
    simp only at hs ⊢
    cases e2 : setAt d v ds0 with
    | none => rw [e2] at hs; cases hs
    | some ds =>
      rw [e2] at hs
      simp only at hs ⊢
      by_cases hl : ds.getLast?.map Prod.fst = some d
      · rw [if_pos hl] at hs ⊢
        rw [expand_clear vs hn hc ds]
        simp only [Option.map_some, lines_columns, Option.some.injEq, exists_eq_left']
        by_cases hf : write.head? = some d
        · simp only [writeFile, hf, decide_true, if_true, Option.some.injEq] at hs ⊢
          subst hs
          exact ⟨rfl, Or.inr ⟨ds, rfl, rfl⟩⟩
        · rw [if_neg hf]
          rcases h2 with ⟨recs, a, b⟩ | ⟨recs, a, b⟩
          · simp only [writeFile, hf, decide_false, a, Bool.false_eq_true, if_false, Option.some.injEq] at hs
            subst hs
            exact ⟨rfl, Or.inl ⟨recs ++ ds, by simp, by simp [b, rows_append]⟩⟩
          · simp only [writeFile, hf, decide_false, a, Bool.false_eq_true, if_false, Option.some.injEq] at hs
            subst hs
            exact ⟨rfl, Or.inr ⟨recs ++ ds, rfl, by simp [b, rows_append]⟩⟩
      · rw [if_neg hl] at hs ⊢
        simp only [Option.some.injEq] at hs
        subst hs
        exact ⟨_, rfl, rfl, h2⟩

theorem run_rel (vs : List Var) (hn : (vs.map Var.outName).Nodup) (hc : Clear vs) (write dates : List D)
    (v : D → Vals R) (old : List (D × Option (Vals R))) (oldL : List (Line D R)) (todo : List D)
    (s s' : PointOutput.St D (Vals R)) (f : St D R) (h : Rel vs old oldL s f)
    (hs : PointOutput.run .csv write dates v todo s = some s') :
    ∃ f', run vs write dates v todo f = some f' ∧ Rel vs old oldL s' f' := by
  induction todo generalizing s f with
  | nil => simp only [PointOutput.run, Option.some.injEq] at hs; subst hs; exact ⟨f, rfl, h⟩
  | cons d todo ih =>
    simp only [PointOutput.run] at hs
    cases e : PointOutput.update .csv write dates d (v d) s with
    | none => rw [e] at hs; cases hs
    | some s1 =>
      rw [e] at hs
      obtain ⟨f1, a, b⟩ := update_rel vs hn hc write dates d (v d) old oldL s s1 f h e
      obtain ⟨f', a', b'⟩ := ih s1 f1 b hs
      exact ⟨f', by simp only [run, a, a'], b'⟩

/-! ## The property -/

/-- **C147.** The file of a point after a run, if no layer column has the name of another column: a header, and a row
with the value of every column for every model date, whatever the chunks and whatever existed before. -/
theorem C147_file_partial (vs : List Var) (ha : acceptVars vs = true) (hc : Clear vs) (write dates : List D)
    (v : D → Vals R) (w0 : D) (hw : write.Pairwise (· < ·)) (hs : dates.Pairwise (· < ·))
    (hend : ∀ d ∈ dates, ∃ w ∈ write, d ≤ w) (hfirst : write.head? = some w0) (hmem : w0 ∈ dates)
    (old : Option (List (Line D R))) :
    run vs write dates v dates ⟨none, old⟩
      = some ⟨none, some (.header ((columns vs).map Prod.fst) ::
          dates.map fun d => .row d ((columns vs).map fun c => v d c.2.1 c.2.2))⟩ := by
  have hn : (vs.map Var.outName).Nodup := by simpa [acceptVars] using ha
  have hC := C44_complete .csv write dates v w0 hw hs hend hfirst hmem (some [(w0, none)])
  obtain ⟨⟨data, file⟩, h1, h2, h3⟩ := run_rel vs hn hc write dates v [(w0, none)] (old.getD []) dates
    ⟨none, some [(w0, none)]⟩ _ ⟨none, old⟩ ⟨rfl, Or.inl ⟨[], rfl, by simp [rows]⟩⟩ hC
  rw [h1]
  simp only at h2 h3
  subst h2
  rcases h3 with ⟨recs, a, -⟩ | ⟨recs, a, b⟩
  · cases dates with
    | nil => simp at hmem
    | cons d ds => simp at a
  · simp only [Option.some.injEq] at a
    subst a
    subst b
    simp [rows, Function.comp_def]

/-- **C147.** The names of the columns are then different, and every layer of every variable has a column. -/
theorem C147_columns_partial (vs : List Var) (ha : acceptVars vs = true) (hc : Clear vs) :
    ((columns vs).map Prod.fst).Nodup ∧
    (∀ v ∈ vs, v.dim3 = 0 → (v.outName, v, 0) ∈ columns vs) ∧
    (∀ v ∈ vs, ∀ i < v.dim3, (v.outName ++ showNat i, v, i) ∈ columns vs) ∧
    (columns vs).length = (vs.map fun v => max 1 v.dim3).sum := by
  have hn : (vs.map Var.outName).Nodup := by simpa [acceptVars] using ha
  refine ⟨?_, ?_, ?_, ?_⟩
  · unfold columns
    rw [List.map_append, List.nodup_append]
    refine ⟨?_, ?_, ?_⟩
    · rw [List.map_map]
      exact hn.sublist (List.Sublist.map _ List.filter_sublist)
    · rw [List.map_flatMap, List.nodup_flatMap]
      refine ⟨?_, ?_⟩
      · intro v _
        rw [List.map_map]
        exact (List.nodup_map_iff (fun a b h => showNat_inj (List.append_cancel_left h))).mpr List.nodup_range
      · have hv : (vs.filter fun v => decide (v.dim3 ≠ 0)).Nodup := hn.of_map.filter _
        refine List.Pairwise.imp_of_mem ?_ hv
        intro v w hv hw hne k hk hk'
        simp only [List.mem_map, List.mem_range] at hk hk'
        obtain ⟨_, ⟨i, hi, rfl⟩, rfl⟩ := hk
        obtain ⟨_, ⟨j, hj, rfl⟩, e⟩ := hk'
        exact hne ((hc v (List.mem_filter.mp hv).1 i hi).2 w (List.mem_filter.mp hw).1 j hj e).1.symm
    · intro a ha b hb e
      simp only [List.mem_map, List.mem_flatMap, List.mem_filter, List.mem_range] at ha hb
      obtain ⟨_, ⟨v, ⟨hv, -⟩, rfl⟩, rfl⟩ := ha
      obtain ⟨_, ⟨w, ⟨hw, -⟩, i, hi, rfl⟩, rfl⟩ := hb
      exact (hc w hw i hi).1 v hv e
  · intro v hv h0
    exact List.mem_append_left _ (List.mem_map.mpr ⟨v, List.mem_filter.mpr ⟨hv, by simp [h0]⟩, rfl⟩)
  · intro v hv i hi
    refine List.mem_append_right _ (List.mem_flatMap.mpr ⟨v, List.mem_filter.mpr ⟨hv, ?_⟩, ?_⟩)
    · have : v.dim3 ≠ 0 := by omega
      simp [this]
    · exact List.mem_map.mpr ⟨i, List.mem_range.mpr hi, rfl⟩
  · clear ha hc hn
    simp only [columns, List.length_append, List.length_map, List.length_flatMap, List.length_range]
    induction vs with
    | nil => rfl
    | cons v vs ih =>
      by_cases h0 : v.dim3 = 0
      · simp [h0] at ih ⊢; omega
      · simp [h0] at ih ⊢
        have : max 1 v.dim3 = v.dim3 := by omega
        omega

theorem split_digits {a b x y : List Char} (ha : ∀ c, a.getLast? = some c → c ∉ digitChars)
    (hb : ∀ c, b.getLast? = some c → c ∉ digitChars) (hx : ∀ c ∈ x, c ∈ digitChars) (hy : ∀ c ∈ y, c ∈ digitChars)
    (h : a ++ x = b ++ y) : a = b ∧ x = y := by
  rcases List.append_eq_append_iff.mp h with ⟨t, rfl, rfl⟩ | ⟨t, rfl, rfl⟩
  · rcases List.eq_nil_or_concat t with rfl | ⟨t', c, rfl⟩
    · simp
    · exact absurd (hx c (by simp)) (hb c (by simp))
  · rcases List.eq_nil_or_concat t with rfl | ⟨t', c, rfl⟩
    · simp
    · exact absurd (hy c (by simp)) (ha c (by simp))

/-- **C147.** If no output name ends in a digit, the names are clear, whatever the numbers of layers. -/
theorem C147_names (vs : List Var) (ha : acceptVars vs = true)
    (hd : ∀ v ∈ vs, ∀ c, v.outName.getLast? = some c → c ∉ digitChars) : Clear vs := by
  have hn : (vs.map Var.outName).Nodup := by simpa [acceptVars] using ha
  intro v hv i _
  constructor
  · intro w hw e
    have h1 : w.outName ++ [] = v.outName ++ showNat i := by rw [List.append_nil]; exact e
    exact showNat_ne i (split_digits (hd w hw) (hd v hv) (by simp) (showNat_mem i) h1).2.symm
  · intro w hw j _ e
    obtain ⟨e1, e2⟩ := split_digits (hd w hw) (hd v hv) (showNat_mem j) (showNat_mem i) e
    exact ⟨List.inj_on_of_nodup_map hn hw hv e1, showNat_inj e2⟩

/-- **C147.** The default variables are accepted and clear, whatever the numbers of layers. -/
theorem C147_default (dim : String → String → ℕ) : acceptVars (defaultVars dim) = true ∧ Clear (defaultVars dim) := by
  have h1 : (defaultVars dim).map Var.outName
      = defaultNames.map fun n => (n.2.2.map String.toList).getD n.2.1.toList := by
    simp [defaultVars, Var.outName, Function.comp_def]
  have h2 : acceptVars (defaultVars dim) = true := by
    rw [acceptVars, decide_eq_true_iff, h1]
    decide +kernel
  refine ⟨h2, C147_names _ h2 ?_⟩
  have h3 : ∀ n ∈ defaultNames.map fun n => (n.2.2.map String.toList).getD n.2.1.toList,
      ∀ c, n.getLast? = some c → c ∉ digitChars := by
    have : ∀ n ∈ defaultNames.map fun n => (n.2.2.map String.toList).getD n.2.1.toList,
        ∃ c, n.getLast? = some c ∧ c ∉ digitChars := by
      have h : (defaultNames.map fun n => (n.2.2.map String.toList).getD n.2.1.toList).all
          (fun n => match n.getLast? with | some c => decide (c ∉ digitChars) | none => false) = true := by
        decide +kernel
      intro n hn
      have := List.all_eq_true.mp h n hn
      cases e : n.getLast? with
      | none => rw [e] at this; cases this
      | some c => rw [e] at this; exact ⟨c, rfl, by simpa using this⟩
    intro n hn c hc
    obtain ⟨c', e, h⟩ := this n hn
    rw [hc, Option.some.injEq] at e
    rw [e]; exact h
  intro v hv c hcl
  exact h3 v.outName (by rw [← h1]; exact List.mem_map_of_mem hv) c hcl

/-- **C147.** With in-memory output the dataset contains the values of all model dates. -/
theorem C147_memory {V : Type*} (dates : List D) (v : D → V) (hs : dates.Nodup) (hne : dates ≠ []) :
    runMemory dates v dates none = some (some (dates.map fun d => (d, some (v d)))) := by
  have key : ∀ (b a : List D), dates = a ++ b → a ≠ [] →
      runMemory dates v b (some (series v a ++ b.map fun d => (d, none))) = some (some (series v dates)) := by
    intro b
    induction b with
    | nil =>
      intro a ha _
      rw [List.append_nil] at ha
      subst ha
      simp [runMemory]
    | cons d b ih =>
      intro a ha _
      have hd : d ∉ a := by
        rw [ha, List.nodup_append] at hs
        exact fun h => hs.2.2 d h d (by simp) rfl
      simp only [runMemory, updateMemory, Option.getD_some, setAt_mid v a d b hd]
      exact ih (a ++ [d]) (by rw [ha]; simp) (by simp)
  obtain ⟨d, b, hb⟩ := List.exists_cons_of_ne_nil hne
  have h0 := setAt_mid v [] d b (by simp)
  have h1 := key b [d] (by rw [hb]; rfl) (by simp)
  rw [hb] at h1 ⊢
  simp only [runMemory, updateMemory, Option.getD_none]
  simp only [series, List.map_nil, List.nil_append] at h0
  rw [h0]
  simpa [series] using h1

/-- A two-dimensional variable and one with two layers, two chunks, an old file. -/
example : run (D := ℕ) (R := ℕ) [⟨['s'], ['t'], none, 2⟩, ⟨['m'], ['p'], none, 0⟩] [2, 4] [1, 2, 3, 4]
    (fun d _ i => some (10 * d + i)) [1, 2, 3, 4] ⟨none, some [.row 9 []]⟩
    = some ⟨none, some (.header [['p'], ['t', '0'], ['t', '1']] ::
        [1, 2, 3, 4].map fun d => .row d [some (10 * d + 0), some (10 * d + 0), some (10 * d + 1)])⟩ := by
  have h := C147_file_partial (D := ℕ) (R := ℕ) [⟨['s'], ['t'], none, 2⟩, ⟨['m'], ['p'], none, 0⟩] (by decide)
    (C147_names _ (by decide) (by
      intro v hv c hc
      simp only [List.mem_cons, List.not_mem_nil, or_false] at hv
      rcases hv with rfl | rfl <;> simp [Var.outName] at hc <;> subst hc <;> decide))
    [2, 4] [1, 2, 3, 4] (fun d _ i => some (10 * d + i)) 2 (by decide) (by decide) (by decide) rfl (by decide)
    (some [.row 9 []])
  rw [h]
  simp [columns, Var.outName, List.range_succ, showNat, digitChars]

/-- **C147 is false of the code for other names**: an accepted configuration in which the column with the name of a
variable shows a layer of another variable. -/
theorem C147_overwritten_false : ¬ ∀ (vs : List Var), acceptVars vs = true →
    ∀ (v : ℕ → Vals ℕ) (f : List (Line ℕ ℕ)), (run vs [0] [0] v [0] ⟨none, none⟩).bind St.file = some f →
      ∀ w ∈ vs, w.dim3 = 0 → ∃ names vals, ∃ k : ℕ, f = [.header names, .row 0 vals] ∧ names[k]? = some w.outName ∧
        vals[k]? = some (v 0 w 0) := by
  intro h
  have hr : (run (D := ℕ) (R := ℕ) [⟨['s'], ['t'], none, 2⟩, ⟨['m'], ['t', '0'], none, 0⟩] [0] [0]
      (fun _ w i => some (w.dim3 + i)) [0] ⟨none, none⟩).bind St.file
      = some [.header [['t', '0'], ['t', '1']], .row 0 [some 2, some 3]] := by
    decide +kernel
  obtain ⟨names, vals, k, e, h1, h2⟩ := h _ (by decide) _ _ hr ⟨['m'], ['t', '0'], none, 0⟩ (by simp) rfl
  simp only [List.cons.injEq, Line.header.injEq, Line.row.injEq, true_and, and_true] at e
  obtain ⟨rfl, rfl⟩ := e
  match k with
  | 0 => simp at h2
  | 1 => simp at h2
  | k + 2 => simp at h2

/-- **C147 is false of the code for other names**: an accepted configuration in which a layer has no column. -/
theorem C147_dropped_false : ¬ ∀ (vs : List Var), acceptVars vs = true →
    ∀ (v : ℕ → Vals ℕ) (f : List (Line ℕ ℕ)), (run vs [0] [0] v [0] ⟨none, none⟩).bind St.file = some f →
      ∀ w ∈ vs, ∀ i < w.dim3, ∃ names vals, f = [.header names, .row 0 vals] ∧ w.outName ++ showNat i ∈ names := by
  intro h
  have hr : (run (D := ℕ) (R := ℕ) [⟨['s'], ['t'], none, 2⟩, ⟨['m'], ['t', '1'], none, 1⟩] [0] [0]
      (fun _ w i => some (w.dim3 + i)) [0] ⟨none, none⟩).bind St.file
      = some [.header [['t', '0'], ['t', '1', '0']], .row 0 [some 2, some 1]] := by
    decide +kernel
  obtain ⟨names, vals, e, h1⟩ := h _ (by decide) _ _ hr ⟨['s'], ['t'], none, 2⟩ (by simp) 1 (by decide)
  simp only [List.cons.injEq, Line.header.injEq, Line.row.injEq, true_and, and_true] at e
  obtain ⟨rfl, rfl⟩ := e
  revert h1
  decide +kernel

end Verif.CsvOutput
