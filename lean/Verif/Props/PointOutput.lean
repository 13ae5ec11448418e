import Verif.Model.PointOutput
import Mathlib.Data.List.Basic
import Mathlib.Data.List.Sort
import Mathlib.Tactic.Linarith
import Mathlib.Tactic.NormNum

/-!
# C44: point output
-/

set_option linter.unusedSectionVars false

namespace Verif.PointOutput

variable {D V : Type*} [LinearOrder D]

/-- Specification: the records of a complete time series. -/
def series (v : D → V) (dates : List D) : List (D × Option V) := dates.map fun d => (d, some (v d))

theorem run_append (fmt : Format) (write dates : List D) (v : D → V) (a b : List D) (s : St D V) :
    run fmt write dates v (a ++ b) s =
      match run fmt write dates v a s with
      | none => none
      | some s' => run fmt write dates v b s' := by
  induction a generalizing s with
  | nil => rfl
  | cons d a ih =>
    simp only [List.cons_append, run]
    cases h : update fmt write dates d (v d) s with
    | none => rfl
    | some s' => exact ih s'

theorem setAt_mid (v : D → V) (a : List D) (d : D) (b : List D) (h : d ∉ a) :
    setAt d (v d) (series v a ++ (d :: b).map fun x => (x, none)) =
      some (series v (a ++ [d]) ++ b.map fun x => (x, none)) := by
  have hidx : (series v a ++ (d :: b).map fun x => ((x, none) : D × Option V)).findIdx?
      (fun r => decide (r.1 = d)) = some a.length := by
    induction a with
    | nil => simp only [series, List.map_nil, List.nil_append, List.map_cons, List.findIdx?_cons]; simp
    | cons x a ih =>
      have hx : x ≠ d := fun e => h (by simp [e])
      have ha : d ∉ a := fun e => h (by simp [e])
      have := ih ha
      simp only [series, List.map_cons, List.cons_append] at this ⊢
      rw [List.findIdx?_cons]
      simp [hx, this]
  unfold setAt
  rw [hidx]
  simp only [Option.some.injEq]
  clear hidx h
  induction a with
  | nil => simp [series, List.modify]
  | cons x a ih =>
    simp only [series, List.map_cons, List.cons_append, List.length_cons] at ih ⊢
    rw [List.modify_succ_cons, ih]

/-- One chunk, started with no dataset in memory. -/
theorem run_chunk (fmt : Format) (write dates : List D) (v : D → V) (c : List D) (hne : c ≠ [])
    (hnd : c.Nodup) (hc : ∀ d ∈ c, chunkDates write dates d = some c)
    (f : Option (List (D × Option V))) :
    run fmt write dates v c ⟨none, f⟩ =
      (writeFile fmt (decide (write.head? = c.getLast?)) f (series v c)).map fun g => ⟨none, some g⟩ := by
  have key : ∀ (a b : List D), c = a ++ b → b ≠ [] →
      run fmt write dates v b ⟨if a = [] then none else some (series v a ++ b.map fun x => (x, none)), f⟩ =
      (writeFile fmt (decide (write.head? = c.getLast?)) f (series v c)).map fun g => ⟨none, some g⟩ := by
    intro a b
    induction b generalizing a with
    | nil => intro _ h; exact absurd rfl h
    | cons d b ih =>
      intro hab _
      have hd : d ∉ a := by
        rw [hab] at hnd
        intro hda
        exact (List.nodup_append.mp hnd).2.2 d hda d (by simp) rfl
      have hset := setAt_mid v a d b hd
      have hcreate : current write dates d ⟨if a = [] then none else
            some (series v a ++ (d :: b).map fun x => ((x, none) : D × Option V)), f⟩ =
          some (series v a ++ (d :: b).map fun x => ((x, none) : D × Option V)) := by
        unfold current
        by_cases ha : a = []
        · subst ha
          have := hc d (by rw [hab]; simp)
          simp only [if_true, this, Option.map_some, hab, series]
          simp
        · simp only [ha, if_false]
      simp only [run, update]
      rw [hcreate]
      simp only [hset]
      by_cases hb : b = []
      · subst hb
        have hlast : c.getLast? = some d := by rw [hab]; simp
        have hl2 : (series v (a ++ [d]) ++ [].map fun x => ((x, none) : D × Option V)).getLast?.map
            Prod.fst = some d := by
          simp [series]
        rw [if_pos hl2, hlast]
        have hs : series v (a ++ [d]) ++ [].map (fun x => ((x, none) : D × Option V)) = series v c := by
          rw [hab]; simp
        rw [hs]
        cases writeFile fmt (decide (write.head? = some d)) f (series v c) with
        | none => rfl
        | some g => rfl
      · obtain ⟨l, hl⟩ := List.getLast?_isSome.mpr hb |> Option.isSome_iff_exists.mp
        have hne2 : l ≠ d := by
          rw [hab] at hnd
          have h1 := (List.nodup_append.mp hnd).2.1
          have h2 := (List.nodup_cons.mp h1).1
          intro e
          exact h2 (e ▸ List.mem_of_getLast? hl)
        have hl2 : (series v (a ++ [d]) ++ b.map fun x => ((x, none) : D × Option V)).getLast?.map
            Prod.fst ≠ some d := by
          rw [List.getLast?_append, List.getLast?_map, hl]
          simpa using hne2
        rw [if_neg hl2]
        have := ih (a ++ [d]) (by rw [hab]; simp) hb
        rw [if_neg (by simp)] at this
        exact this
  have := key [] c rfl hne
  simpa using this

theorem le_getLast (l : List D) (h : l.Pairwise (· < ·)) (p : D) (hp : l.getLast? = some p) :
    ∀ x ∈ l, x ≤ p := by
  intro x hx
  obtain ⟨ys, hys⟩ := List.getLast?_eq_some_iff.mp hp
  rw [hys] at hx h
  rcases List.mem_append.mp hx with hx | hx
  · exact ((List.pairwise_append.mp h).2.2 x hx p (by simp)).le
  · simp only [List.mem_singleton] at hx
    exact hx.le

/-- The chunk of the dates up to the next write date. -/
theorem chunk_eq (write done rest : List D) (d d0 nw : D)
    (hw : write.Pairwise (· < ·))
    (hsep : done = [] ∨ ∃ w ∈ write, (∀ e ∈ done, e ≤ w) ∧ ∀ e ∈ rest, w < e)
    (hd : d ∈ rest) (hmin : ∀ e ∈ rest, d0 ≤ e)
    (hF : ∀ w ∈ write, w < nw → w < d0) (hnw : nw ∈ write) (hdn : d ≤ nw) :
    chunkDates write (done ++ rest) d = some (rest.filter fun e => decide (e ≤ nw)) := by
  have hfind : write.find? (fun w => decide (d ≤ w)) = some nw := by
    rw [List.find?_eq_some_iff_append]
    refine ⟨by simpa using hdn, ?_⟩
    obtain ⟨as, bs, hab⟩ := List.append_of_mem hnw
    refine ⟨as, bs, hab, ?_⟩
    intro w hwm
    have hlt : w < nw := by
      rw [hab] at hw
      exact (List.pairwise_append.mp hw).2.2 w hwm nw (by simp)
    have := (hF w (by rw [hab]; simp [hwm]) hlt).trans_le (hmin d hd)
    simpa using this
  unfold chunkDates
  rw [hfind]
  simp only
  cases hp : (write.filter fun w => decide (w < d)).getLast? with
  | none =>
    have hnil := List.getLast?_eq_none_iff.mp hp
    have hdone : done = [] := by
      rcases hsep with h | ⟨w, hwm, -, hw2⟩
      · exact h
      · exfalso
        have : w ∈ write.filter fun w => decide (w < d) := by
          rw [List.mem_filter]; exact ⟨hwm, by simpa using hw2 d hd⟩
        rw [hnil] at this
        simp at this
    simp [hdone]
  | some prev =>
    have hpm := List.mem_filter.mp (List.mem_of_getLast? hp)
    have hpd : prev < d := by simpa using hpm.2
    have hpr : ∀ e ∈ rest, prev < e := fun e he =>
      (hF prev hpm.1 (hpd.trans_le hdn)).trans_le (hmin e he)
    have hdone : ∀ e ∈ done, e ≤ prev := by
      rcases hsep with h | ⟨w, hwm, hw1, hw2⟩
      · simp [h]
      · intro e he
        refine (hw1 e he).trans (le_getLast _ (hw.filter _) prev hp w ?_)
        rw [List.mem_filter]; exact ⟨hwm, by simpa using hw2 d hd⟩
    simp only [Option.some.injEq, List.filter_append]
    have h1 : done.filter (fun e => decide (prev < e ∧ e ≤ nw)) = [] := by
      rw [List.filter_eq_nil_iff]
      intro e he
      simp [not_lt.mpr (hdone e he)]
    rw [h1, List.nil_append]
    apply List.filter_congr
    intro e he
    simp [hpr e he]

theorem filter_le_split (l : List D) (h : l.Pairwise (· < ·)) (x : D) :
    l = l.filter (fun e => decide (e ≤ x)) ++ l.filter (fun e => decide (x < e)) := by
  induction l with
  | nil => rfl
  | cons a l ih =>
    obtain ⟨h1, h2⟩ := List.pairwise_cons.mp h
    by_cases ha : a ≤ x
    · rw [List.filter_cons_of_pos (by simpa using ha), List.filter_cons_of_neg (by simpa using ha),
        List.cons_append, ← ih h2]
    · have hlt := not_le.mp ha
      have e1 : l.filter (fun e => decide (e ≤ x)) = [] := by
        rw [List.filter_eq_nil_iff]
        intro e he
        simpa using hlt.trans (h1 e he)
      have e2 : l.filter (fun e => decide (x < e)) = l := by
        rw [List.filter_eq_self]
        intro e he
        simpa using hlt.trans (h1 e he)
      rw [List.filter_cons_of_neg (by simpa using hlt), List.filter_cons_of_pos (by simpa using hlt),
        e1, e2, List.nil_append]

/-- The file after the remaining dates, if the file exists and the first write date is past. -/
theorem run_rest (fmt : Format) (write : List D) (v : D → V) (hw : write.Pairwise (· < ·))
    (n : ℕ) : ∀ (done rest : List D), rest.length ≤ n → (done ++ rest).Pairwise (· < ·) →
    (∀ e ∈ rest, ∃ w ∈ write, e ≤ w) →
    (done = [] ∨ ∃ w ∈ write, (∀ e ∈ done, e ≤ w) ∧ ∀ e ∈ rest, w < e) →
    (∀ w, write.head? = some w → w ∉ rest) → ∀ f,
    run fmt write (done ++ rest) v rest ⟨none, some f⟩ = some ⟨none, some (f ++ series v rest)⟩ := by
  induction n with
  | zero =>
    intro done rest hl _ _ _ _ f
    have : rest = [] := List.length_eq_zero_iff.mp (by omega)
    subst this
    simp [run, series]
  | succ n ih =>
    intro done rest hl hs hex hsep hhead f
    cases rest with
    | nil => simp [run, series]
    | cons d0 rest =>
      obtain ⟨nw, hnw, hd0, hF⟩ : ∃ nw ∈ write, d0 ≤ nw ∧ ∀ w ∈ write, w < nw → w < d0 := by
        obtain ⟨w, hwm, hle⟩ := hex d0 (by simp)
        cases hfd : write.find? (fun w => decide (d0 ≤ w)) with
        | none =>
          have := List.find?_eq_none.mp hfd w hwm
          simp [hle] at this
        | some nw =>
          obtain ⟨h1, as, bs, hab, h2⟩ := List.find?_eq_some_iff_append.mp hfd
          refine ⟨nw, by rw [hab]; simp, by simpa using h1, ?_⟩
          intro u hu hlt
          rw [hab] at hu hw
          rcases List.mem_append.mp hu with h | h
          · simpa using h2 u h
          · rcases List.mem_cons.mp h with rfl | h
            · exact absurd hlt (lt_irrefl _)
            · have := (List.pairwise_cons.mp (List.pairwise_append.mp hw).2.1).1 u h
              exact absurd (hlt.trans this) (lt_irrefl _)
      have hsr := (List.pairwise_append.mp hs).2.1
      have hmin : ∀ e ∈ d0 :: rest, d0 ≤ e := by
        intro e he
        rcases List.mem_cons.mp he with rfl | he
        · exact le_rfl
        · exact ((List.pairwise_cons.mp hsr).1 e he).le
      obtain ⟨R, hR⟩ : ∃ R, d0 :: rest = R := ⟨_, rfl⟩
      have hd0m : d0 ∈ R := by rw [← hR]; simp
      rw [hR] at hl hs hex hsep hhead hsr hmin ⊢
      obtain ⟨c, hc⟩ : ∃ c, R.filter (fun e => decide (e ≤ nw)) = c := ⟨_, rfl⟩
      obtain ⟨t, ht⟩ : ∃ t, R.filter (fun e => decide (nw < e)) = t := ⟨_, rfl⟩
      have hsplit := filter_le_split R hsr nw
      rw [hc, ht] at hsplit
      have hd0c : d0 ∈ c := by rw [← hc, List.mem_filter]; exact ⟨hd0m, by simpa using hd0⟩
      have hcne : c ≠ [] := List.ne_nil_of_mem hd0c
      have hcn : c.Nodup := by
        rw [← hc]
        exact ((hsr.filter _).imp fun h => h.ne)
      have hchunk : ∀ d ∈ c, chunkDates write (done ++ R) d = some c := by
        intro d hd
        rw [← hc, List.mem_filter] at hd
        rw [chunk_eq write done R d d0 nw hw hsep hd.1 hmin hF hnw (by simpa using hd.2), hc]
      have hlast : write.head? ≠ c.getLast? := by
        intro e
        obtain ⟨l, hl⟩ := List.getLast?_isSome.mpr hcne |> Option.isSome_iff_exists.mp
        rw [hl] at e
        refine hhead l e ?_
        have := List.mem_of_getLast? hl
        rw [← hc, List.mem_filter] at this
        exact this.1
      have hrun := run_chunk fmt write (done ++ R) v c hcne hcn hchunk (some f)
      rw [decide_eq_false hlast] at hrun
      have hlen : R.length = c.length + t.length := by rw [hsplit, List.length_append]
      have hcpos : 0 < c.length := List.length_pos_iff.mpr hcne
      have hdt : done ++ R = (done ++ c) ++ t := by
        rw [List.append_assoc, ← hsplit]
      have hrest := ih (done ++ c) t (by omega) (by rw [← hdt]; exact hs)
        (fun e he => hex e (by rw [hsplit]; simp [he]))
        (Or.inr ⟨nw, hnw, ?_, ?_⟩)
        (fun w hw' hm => hhead w hw' (by rw [hsplit]; simp [hm])) (f ++ series v c)
      · have e1 : run fmt write (done ++ R) v R ⟨none, some f⟩ =
            run fmt write (done ++ R) v (c ++ t) ⟨none, some f⟩ := by rw [← hsplit]
        rw [e1, run_append, hrun]
        simp only [writeFile, Bool.false_eq_true, if_false, Option.map_some]
        rw [hdt, hrest, hsplit]
        simp [series]
      · intro e he
        rcases List.mem_append.mp he with he | he
        · have h1 := (List.pairwise_append.mp hs).2.2 e he d0 hd0m
          exact h1.le.trans hd0
        · rw [← hc, List.mem_filter] at he
          simpa using he.2
      · intro e he
        rw [← ht, List.mem_filter] at he
        simpa using he.2

/-- **C44.** If the first write date is a model date, the output file contains every model date
exactly once, in order, with its value, whatever the file contained before; nothing is left in
memory. The write dates are increasing and reach the last model date (`pointoutput.py:144-160`). -/
theorem C44_complete (fmt : Format) (write dates : List D) (v : D → V) (w0 : D)
    (hw : write.Pairwise (· < ·)) (hs : dates.Pairwise (· < ·))
    (hend : ∀ d ∈ dates, ∃ w ∈ write, d ≤ w)
    (hfirst : write.head? = some w0) (hmem : w0 ∈ dates) (old : Option (List (D × Option V))) :
    run fmt write dates v dates ⟨none, old⟩ =
      some ⟨none, some (dates.map fun d => (d, some (v d)))⟩ := by
  obtain ⟨ws, rfl⟩ : ∃ ws, write = w0 :: ws := by
    cases write with
    | nil => simp at hfirst
    | cons a ws => simp only [List.head?_cons, Option.some.injEq] at hfirst; exact ⟨ws, by rw [hfirst]⟩
  have hw0 : ∀ w ∈ w0 :: ws, w0 ≤ w := by
    intro w hwm
    rcases List.mem_cons.mp hwm with rfl | h
    · exact le_rfl
    · exact ((List.pairwise_cons.mp hw).1 w h).le
  obtain ⟨c, hc⟩ : ∃ c, dates.filter (fun e => decide (e ≤ w0)) = c := ⟨_, rfl⟩
  obtain ⟨t, ht⟩ : ∃ t, dates.filter (fun e => decide (w0 < e)) = t := ⟨_, rfl⟩
  have hsplit := filter_le_split dates hs w0
  rw [hc, ht] at hsplit
  have hw0c : w0 ∈ c := by rw [← hc, List.mem_filter]; exact ⟨hmem, by simp⟩
  have hcne : c ≠ [] := List.ne_nil_of_mem hw0c
  have hcp : c.Pairwise (· < ·) := by rw [← hc]; exact hs.filter _
  obtain ⟨d0, hd0⟩ : ∃ d0, ∀ e ∈ dates, d0 ≤ e := by
    cases hd : dates with
    | nil => rw [hd] at hmem; simp at hmem
    | cons a l =>
      refine ⟨a, fun e he => ?_⟩
      rw [hd] at hs
      rcases List.mem_cons.mp he with rfl | h
      · exact le_rfl
      · exact ((List.pairwise_cons.mp hs).1 e h).le
  have hchunk : ∀ d ∈ c, chunkDates (w0 :: ws) dates d = some c := by
    intro d hd
    rw [← hc, List.mem_filter] at hd
    have := chunk_eq (w0 :: ws) [] dates d d0 w0 hw (Or.inl rfl) hd.1 hd0
      (fun w hwm hlt => absurd hlt (not_lt.mpr (hw0 w hwm))) (by simp) (by simpa using hd.2)
    rw [List.nil_append, hc] at this
    exact this
  have hlast : c.getLast? = some w0 := by
    obtain ⟨l, hl⟩ := List.getLast?_isSome.mpr hcne |> Option.isSome_iff_exists.mp
    have h1 := le_getLast c hcp l hl w0 hw0c
    have h2 := List.mem_of_getLast? hl
    rw [← hc, List.mem_filter] at h2
    rw [hl, le_antisymm (by simpa using h2.2) h1]
  have hrun := run_chunk fmt (w0 :: ws) dates v c hcne (hcp.imp fun h => h.ne) hchunk old
  rw [hlast, decide_eq_true (by simp)] at hrun
  have hrest := run_rest fmt (w0 :: ws) v hw t.length c t le_rfl (by rw [← hsplit]; exact hs)
    (fun e he => hend e (by rw [hsplit]; simp [he]))
    (Or.inr ⟨w0, by simp, ?_, ?_⟩) ?_ (series v c)
  · rw [← hsplit] at hrest
    have e1 : run fmt (w0 :: ws) dates v dates ⟨none, old⟩ =
        run fmt (w0 :: ws) dates v (c ++ t) ⟨none, old⟩ := by rw [← hsplit]
    rw [e1, run_append, hrun]
    simp only [writeFile, if_true, Option.map_some]
    rw [hrest]
    have : dates.map (fun d => (d, some (v d))) = series v c ++ series v t := by
      rw [hsplit]; simp [series]
    rw [this]
  · intro e he
    rw [← hc, List.mem_filter] at he
    simpa using he.2
  · intro e he
    rw [← ht, List.mem_filter] at he
    simpa using he.2
  · intro w hwh hm
    simp only [List.head?_cons, Option.some.injEq] at hwh
    subst hwh
    rw [← ht, List.mem_filter] at hm
    simp at hm

/-- **C44.** If the first write date is not a model date, the time series is appended to a file that
happens to exist. -/
theorem C44_append_false (fmt : Format) (write dates : List D) (v : D → V)
    (hw : write.Pairwise (· < ·)) (hs : dates.Pairwise (· < ·))
    (hend : ∀ d ∈ dates, ∃ w ∈ write, d ≤ w)
    (hfirst : ∀ w, write.head? = some w → w ∉ dates) (old : List (D × Option V)) :
    run fmt write dates v dates ⟨none, some old⟩ =
      some ⟨none, some (old ++ dates.map fun d => (d, some (v d)))⟩ := by
  have := run_rest fmt write v hw dates.length [] dates le_rfl hs hend (Or.inl rfl) hfirst old
  simpa [series] using this

/-- Four dates, written every second one; an older file is replaced. -/
example : run .csv [2, 4] [1, 2, 3, 4] (fun d : ℕ => 10 * d) [1, 2, 3, 4] ⟨none, some [(9, some 9)]⟩ =
    some ⟨none, some [(1, some 10), (2, some 20), (3, some 30), (4, some 40)]⟩ :=
  C44_complete .csv [2, 4] [1, 2, 3, 4] _ 2 (by decide) (by decide)
    (by intro d hd; exact ⟨4, by simp, by simp at hd; omega⟩) rfl (by decide) _

/-- Three dates with a time step of 2 and write dates that are no model dates: the older file is kept
and, with NetCDF and no older file, the run fails. -/
example : run .csv [3, 5] [0, 2, 4] (fun d : ℕ => d) [0, 2, 4] ⟨none, some [(9, some 9)]⟩ =
    some ⟨none, some [(9, some 9), (0, some 0), (2, some 2), (4, some 4)]⟩ ∧
    run .netcdf [3, 5] [0, 2, 4] (fun d : ℕ => d) [0, 2, 4] ⟨none, none⟩ = none := by
  decide

end Verif.PointOutput
