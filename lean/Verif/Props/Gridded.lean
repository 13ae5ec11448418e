import Verif.Model.Gridded
import Mathlib.Algebra.CharZero.Defs
import Mathlib.Data.Nat.Cast.Basic
import Mathlib.Data.List.Nodup
import Mathlib.Tactic.FieldSimp
import Mathlib.Tactic.Ring
import Mathlib.Tactic.Linarith
import Mathlib.Tactic.NormNum
import Mathlib.Algebra.BigOperators.Group.List.Basic

/-!
# C45, C46: gridded output
-/

set_option linter.unusedSectionVars false

namespace Verif.Gridded

/-! ## C45 -/

section agg

variable {C D K : Type*} [DecidableEq D] [Field K] [CharZero K]

/-- Specification: sum of the values, missing if one of them is. -/
def total : List (Option K) → Option K
  | [] => some 0
  | x :: xs =>
    match x, total xs with
    | some a, some b => some (a + b)
    | _, _ => none

/-- Specification: sum or arithmetic mean of the values. -/
def aggregated (a : Agg) (xs : List (Option K)) : Option K :=
  match a with
  | .sum => total xs
  | .mean => (total xs).map (· / xs.length)

/-- Specification: the blocks of a history that end with an element satisfying `p`, without the
incomplete last one. -/
def blocksAux {α : Type*} (p : α → Bool) : List α → List α → List (List α)
  | _, [] => []
  | acc, x :: xs => if p x then (acc ++ [x]) :: blocksAux p [] xs else blocksAux p (acc ++ [x]) xs

def blocks {α : Type*} (p : α → Bool) (xs : List α) : List (List α) := blocksAux p [] xs

theorem total_snoc (xs : List (Option K)) (x : Option K) :
    total (xs ++ [x]) = match total xs, x with
      | some a, some b => some (a + b)
      | _, _ => none := by
  induction xs with
  | nil => cases x <;> simp [total]
  | cons y ys ih =>
    simp only [List.cons_append, total, ih]
    cases y <;> cases total ys <;> cases x <;> simp [add_assoc]

theorem accum_spec (a : Agg) (xs : List (Option K)) (x : Option K) :
    accum a xs.length (if xs = [] then some 0 else aggregated a xs) x = aggregated a (xs ++ [x]) := by
  by_cases h : xs = []
  · subst h
    cases a <;> cases x <;> simp [accum, aggregated, total]
  · have hn : (xs.length : K) ≠ 0 := by
      have := List.length_pos_iff.mpr h
      exact_mod_cast this.ne'
    have hn1 : (xs.length : K) + 1 ≠ 0 := by exact_mod_cast Nat.succ_ne_zero xs.length
    rw [if_neg h]
    cases a with
    | sum =>
      simp only [aggregated, total_snoc]
      cases total xs <;> cases x <;> simp [accum]
    | mean =>
      simp only [aggregated, total_snoc]
      cases total xs with
      | none => cases x <;> simp [accum]
      | some t =>
        cases x with
        | none => simp [accum]
        | some y =>
          simp only [accum, Option.map_some, List.length_append, List.length_singleton]
          push_cast
          congr 1
          field_simp
          ring

/-- State in the middle of a block. -/
def midState (a : Agg) (roi : C → Bool) (fill : Option K) (b : List (D × (C → Option K))) : FSt C K :=
  if b = [] then ⟨none, 0⟩
  else ⟨some fun c => if roi c then aggregated a (b.map fun r => r.2 c) else fill, b.length⟩

theorem aggregate_mid (a : Agg) (roi : C → Bool) (fill : Option K) (b : List (D × (C → Option K)))
    (d : D) (cur : C → Option K) :
    aggregate a roi fill cur (midState a roi fill b) = midState a roi fill (b ++ [(d, cur)]) := by
  have hne : b ++ [(d, cur)] ≠ [] := by simp
  unfold midState
  rw [if_neg hne]
  have key : ∀ c, accum a b.length (if b = [] then some 0 else aggregated a (b.map fun r => r.2 c))
      (cur c) = aggregated a ((b ++ [(d, cur)]).map fun r => r.2 c) := by
    intro c
    have := accum_spec a (b.map fun r => r.2 c) (cur c)
    simpa using this
  by_cases h : b = []
  · subst h
    simp only [if_true, aggregate, Option.getD_none, List.length_append, List.length_nil,
      List.length_singleton]
    congr 2
    funext c
    have := key c
    by_cases hr : roi c = true
    · simp only [hr, if_true]
      simpa using this
    · simp [hr]
  · simp only [h, if_false, aggregate, Option.getD_some, List.length_append, List.length_singleton]
    congr 2
    funext c
    have := key c
    rw [if_neg h] at this
    by_cases hr : roi c = true
    · simp only [hr, if_true]
      exact this
    · simp [hr]

theorem run_mid (a : Agg) (roi : C → Bool) (fill : Option K) (write : List D)
    (hist acc : List (D × (C → Option K))) :
    run (some a) roi fill write hist (midState a roi fill acc) =
      (blocksAux (fun r => decide (r.1 ∈ write)) acc hist).map fun b =>
        ((b.getLast?.map fun r => write.idxOf r.1).getD 0,
          fun c => if roi c then aggregated a (b.map fun r => r.2 c) else fill) := by
  induction hist generalizing acc with
  | nil => rfl
  | cons r hist ih =>
    obtain ⟨d, cur⟩ := r
    simp only [run, update, aggregate_mid a roi fill acc d cur]
    by_cases hd : d ∈ write
    · simp only [hd, if_true, blocksAux, decide_true, List.map_cons]
      have h0 : (⟨none, 0⟩ : FSt C K) = midState (D := D) a roi fill [] := by simp [midState]
      rw [h0, ih []]
      congr 1
      have hne : acc ++ [(d, cur)] ≠ [] := by simp
      simp only [midState, hne, if_false, Option.getD_some, List.getLast?_append, List.getLast?_singleton,
        Option.some_or, Option.map_some]
    · simp only [hd, if_false, blocksAux, decide_false, Bool.false_eq_true]
      exact ih _

/-- **C45.** The records written for an aggregated field are, in order, one per block of time steps
ending at a write date: at each ROI cell the exact sum (mean) of the variable over the block (missing
if one of the values is), elsewhere the fill value, stored at the index of the write date. -/
theorem C45_aggregated (a : Agg) (roi : C → Bool) (fill : Option K) (write : List D)
    (hist : List (D × (C → Option K))) :
    run (some a) roi fill write hist ⟨none, 0⟩ =
      (blocks (fun r => decide (r.1 ∈ write)) hist).map fun b =>
        ((b.getLast?.map fun r => write.idxOf r.1).getD 0,
          fun c => if roi c then aggregated a (b.map fun r => r.2 c) else fill) :=
  run_mid a roi fill write hist []

/-- **C45.** The blocks are those of the statement: they partition the history up to an incomplete
rest, each ends at a write date and contains no other. -/
theorem C45_blocks {α : Type*} (p : α → Bool) (xs : List α) :
    (∃ rest, xs = (blocks p xs).flatten ++ rest ∧ ∀ x ∈ rest, p x = false) ∧
    ∀ b ∈ blocks p xs, ∃ init last, b = init ++ [last] ∧ p last = true ∧ ∀ x ∈ init, p x = false := by
  have key : ∀ acc : List α, (∀ x ∈ acc, p x = false) →
      (∃ rest, acc ++ xs = (blocksAux p acc xs).flatten ++ rest ∧ ∀ x ∈ rest, p x = false) ∧
      ∀ b ∈ blocksAux p acc xs, ∃ init last, b = init ++ [last] ∧ p last = true ∧
        ∀ x ∈ init, p x = false := by
    induction xs with
    | nil => intro acc hacc; exact ⟨⟨acc, by simp [blocksAux], hacc⟩, by simp [blocksAux]⟩
    | cons x xs ih =>
      intro acc hacc
      cases hx : p x with
      | true =>
        obtain ⟨⟨rest, h1, h2⟩, h3⟩ := ih [] (by simp)
        simp only [blocksAux, hx, if_true]
        refine ⟨⟨rest, ?_, h2⟩, ?_⟩
        · rw [List.nil_append] at h1
          rw [List.flatten_cons, List.append_assoc, ← h1]
          simp
        · intro b hb
          rcases List.mem_cons.mp hb with rfl | hb
          · exact ⟨acc, x, rfl, hx, hacc⟩
          · exact h3 b hb
      | false =>
        obtain ⟨⟨rest, h1, h2⟩, h3⟩ := ih (acc ++ [x]) (by
          intro y hy
          rcases List.mem_append.mp hy with hy | hy
          · exact hacc y hy
          · simp only [List.mem_singleton] at hy
            rw [hy, hx])
        simp only [blocksAux, hx, Bool.false_eq_true, if_false]
        refine ⟨⟨rest, ?_, h2⟩, h3⟩
        rw [← h1]
        simp
  have := key [] (by simp)
  simpa [blocks] using this

/-- **C45.** Fields without aggregation are written as they are at the write dates. -/
theorem C45_instantaneous (roi : C → Bool) (fill : Option K) (write : List D)
    (hist : List (D × (C → Option K))) :
    run none roi fill write hist ⟨none, 0⟩ =
      (hist.filter fun r => decide (r.1 ∈ write)).map fun r => (write.idxOf r.1, r.2) := by
  induction hist with
  | nil => rfl
  | cons r hist ih =>
    obtain ⟨d, cur⟩ := r
    simp only [run, update]
    by_cases hd : d ∈ write
    · simp only [hd, if_true, List.filter_cons, decide_true, List.map_cons]
      rw [ih]
    · simp only [hd, if_false, List.filter_cons, decide_false, Bool.false_eq_true]
      exact ih

/-- Four steps, two cells of which one is in the ROI; the third value of the mean field is missing. -/
example : (run (some .mean) (fun c : Bool => c) (none : Option ℚ) [2, 4]
    [(1, fun _ => some 1), (2, fun _ => some 4), (3, fun _ => none), (4, fun _ => some 2)] ⟨none, 0⟩).map
      (fun o => (o.1, o.2 true, o.2 false)) =
    [(0, some (5 / 2), none), (1, none, none)] := by
  norm_num [run, update, aggregate, accum, List.idxOf, List.findIdx, List.findIdx.go,
    show ((2 : ℕ) == 4) = false from rfl]

end agg

/-! ## C46 -/

theorem range_map_dateRange (a b f : ℤ) (n : ℕ) (hf : 0 < f)
    (h0 : n = 0 ↔ b < a) (h1 : 0 < n → a + ((n : ℤ) - 1) * f ≤ b) (h2 : b < a + (n : ℤ) * f) :
    dateRange a b f = (List.range n).map fun k : ℕ => a + (k : ℤ) * f := by
  unfold dateRange
  split_ifs with h
  · rw [h0.mpr h]; rfl
  · have hn : 0 < n := Nat.pos_of_ne_zero fun e => h (h0.mp e)
    have h1 := h1 hn
    have e : (b - a) / f = (n : ℤ) - 1 :=
      ((Int.ediv_emod_unique (r := (b - a) - f * ((n : ℤ) - 1)) hf).mpr
        ⟨by ring, by nlinarith, by nlinarith⟩).1
    rw [e]
    congr 2
    omega

/-- **C46.** Frequencies smaller than or not a multiple of the time step are rejected, all others
accepted. -/
theorem C46_rejects (t0 dt : ℤ) (n : ℕ) (f : ℤ) (agg : Bool) (hdt : 0 < dt) (hf : 0 < f) :
    fieldWriteDates t0 dt n f agg = none ↔ ¬ ∃ m : ℕ, f = m * dt := by
  have hm : (∃ m : ℕ, f = m * dt) ↔ ¬ f < dt ∧ dt ∣ f := by
    constructor
    · rintro ⟨m, rfl⟩
      refine ⟨?_, Dvd.intro_left _ rfl⟩
      have hmp : 0 < (m : ℤ) := by
        by_contra h
        push Not at h
        nlinarith
      nlinarith
    · rintro ⟨-, q, rfl⟩
      have hq : 0 < q := by
        by_contra h
        push Not at h
        nlinarith
      exact ⟨q.toNat, by rw [Int.toNat_of_nonneg hq.le]; ring⟩
  rw [hm]
  unfold fieldWriteDates freqWriteDates
  by_cases h1 : f < dt
  · simp [h1]
  · by_cases h2 : dt ∣ f
    · cases agg <;> simp [h1, h2]
    · simp [h1, h2]

/-- **C46.** Write dates of aggregated fields: the `k`-th is the last step of the `k`-th group of `m`
steps, there is one for every complete group. -/
theorem C46_aggregated (t0 dt : ℤ) (n m : ℕ) (hdt : 0 < dt) (hn : 0 < n) (hm : 0 < m) :
    fieldWriteDates t0 dt n (m * dt) true =
      some ((List.range (n / m)).map fun k : ℕ => t0 + (((k : ℤ) + 1) * m - 1) * dt) := by
  have hm' : (1 : ℤ) ≤ m := by exact_mod_cast hm
  have h1 : ¬ (m : ℤ) * dt < dt := by nlinarith
  obtain ⟨q, hq⟩ : ∃ q, n / m = q := ⟨_, rfl⟩
  have hle : q * m ≤ n := by rw [← hq]; exact Nat.div_mul_le_self n m
  have hlt : n < (q + 1) * m := by rw [← hq]; exact Nat.lt_mul_of_div_lt (Nat.lt_succ_self _) hm
  have hleZ : (q : ℤ) * m ≤ n := by exact_mod_cast hle
  have hltZ : (n : ℤ) < (q + 1) * m := by exact_mod_cast hlt
  have hr : dateRange (t0 + m * dt - dt) (t0 + ((n : ℤ) - 1) * dt) (m * dt) =
      (List.range q).map fun k : ℕ => (t0 + m * dt - dt) + (k : ℤ) * (m * dt) := by
    apply range_map_dateRange
    · nlinarith
    · constructor
      · intro e
        subst e
        simp only [Nat.cast_zero, zero_add, one_mul] at hltZ
        nlinarith
      · intro h
        by_contra hne
        have : (1 : ℤ) ≤ q := by exact_mod_cast Nat.pos_of_ne_zero hne
        have h3 : (m : ℤ) ≤ n := by nlinarith
        nlinarith
    · intro _
      nlinarith
    · nlinarith
  unfold fieldWriteDates freqWriteDates
  simp only [h1, if_false, dvd_mul_left, not_true, if_true, hr, Option.map_some, hq, Option.some.injEq]
  rw [List.filter_eq_self.mpr]
  · apply List.map_congr_left
    intro k _
    ring
  · intro w hw
    obtain ⟨k, hk, rfl⟩ := List.mem_map.mp hw
    have hk' : ((k : ℤ) + 1) ≤ q := by exact_mod_cast List.mem_range.mp hk
    have hk0 : (0 : ℤ) ≤ k := by positivity
    have e1 : 0 ≤ (k : ℤ) * (m * dt) := by positivity
    have e2 : ((k : ℤ) + 1) * m ≤ n := by nlinarith
    simp only [decide_eq_true_eq]
    constructor <;> nlinarith

/-- **C46.** Write dates of instantaneous fields: the first step of every group, including an
incomplete last one. -/
theorem C46_instantaneous (t0 dt : ℤ) (n m : ℕ) (hdt : 0 < dt) (hn : 0 < n) (hm : 0 < m) :
    fieldWriteDates t0 dt n (m * dt) false =
      some ((List.range ((n + m - 1) / m)).map fun k : ℕ => t0 + ((k : ℤ) * m) * dt) := by
  have hm' : (1 : ℤ) ≤ m := by exact_mod_cast hm
  have h1 : ¬ (m : ℤ) * dt < dt := by nlinarith
  obtain ⟨q, hq⟩ : ∃ q, (n + m - 1) / m = q := ⟨_, rfl⟩
  have hle : q * m ≤ n + m - 1 := by rw [← hq]; exact Nat.div_mul_le_self _ m
  have hlt : n + m - 1 < (q + 1) * m := by
    rw [← hq]; exact Nat.lt_mul_of_div_lt (Nat.lt_succ_self _) hm
  have hleZ : (q : ℤ) * m + 1 ≤ n + m := by
    have : q * m + 1 ≤ n + m := by omega
    exact_mod_cast this
  have hltZ : (n : ℤ) + m < (q + 1) * m + 1 := by
    have : n + m < (q + 1) * m + 1 := by omega
    exact_mod_cast this
  have hn' : (1 : ℤ) ≤ n := by exact_mod_cast hn
  have hr : dateRange t0 (t0 + ((n : ℤ) - 1) * dt) (m * dt) =
      (List.range q).map fun k : ℕ => t0 + (k : ℤ) * (m * dt) := by
    apply range_map_dateRange
    · nlinarith
    · constructor
      · intro e
        subst e
        simp only [Nat.cast_zero, zero_add, one_mul] at hltZ
        nlinarith
      · intro h
        nlinarith
    · intro _
      nlinarith
    · nlinarith
  unfold fieldWriteDates freqWriteDates
  simp only [h1, if_false, dvd_mul_left, not_true, Bool.false_eq_true, hr, Option.map_some, hq,
    Option.some.injEq]
  rw [List.filter_eq_self.mpr]
  · apply List.map_congr_left
    intro k _
    ring
  · intro w hw
    obtain ⟨k, hk, rfl⟩ := List.mem_map.mp hw
    have hk' : ((k : ℤ) + 1) ≤ q := by exact_mod_cast List.mem_range.mp hk
    have e1 : 0 ≤ (k : ℤ) * (m * dt) := by positivity
    have e2 : ((k : ℤ) + 1) * m ≤ n + m - 1 := by nlinarith
    simp only [decide_eq_true_eq]
    constructor <;> nlinarith

theorem blocksAux_range {α : Type*} (p : α → Bool) (g : ℕ → α) (m : ℕ)
    (hp : ∀ i, p (g i) = decide ((i + 1) % m = 0)) (len q r : ℕ) (hr : r < m) :
    blocksAux p ((List.range' (q * m) r).map g) ((List.range' (q * m + r) len).map g) =
      (List.range' q ((r + len) / m)).map fun k => (List.range' (k * m) m).map g := by
  induction len generalizing q r with
  | zero => simp [blocksAux, Nat.div_eq_of_lt hr]
  | succ len ih =>
    have hacc : (List.range' (q * m) r).map g ++ [g (q * m + r)] =
        (List.range' (q * m) (r + 1)).map g := by
      rw [List.range'_1_concat, List.map_append]; rfl
    rw [List.range'_succ, List.map_cons, blocksAux, hp, hacc]
    by_cases hm : r + 1 = m
    · have hz : (q * m + r + 1) % m = 0 := by
        rw [show q * m + r + 1 = (q + 1) * m by rw [← hm]; ring, Nat.mul_mod_left]
      rw [decide_eq_true hz, if_pos rfl]
      have := ih (q + 1) 0 (by omega)
      rw [List.range'_zero, List.map_nil, show (q + 1) * m + 0 = q * m + r + 1 by rw [← hm]; ring] at this
      rw [this, show r + (len + 1) = len + m by omega, Nat.add_div_right _ (by omega), hm,
        List.range'_succ (n := len / m), List.map_cons, Nat.zero_add]
    · have hlt : r + 1 < m := by omega
      have hz : ¬ (q * m + r + 1) % m = 0 := by
        rw [show q * m + r + 1 = (r + 1) + q * m by ring, Nat.add_mul_mod_self_right,
          Nat.mod_eq_of_lt hlt]
        omega
      rw [decide_eq_false hz, if_neg (by simp)]
      have := ih q (r + 1) hlt
      rw [show q * m + (r + 1) = q * m + r + 1 by ring] at this
      rw [this, show r + 1 + len = r + (len + 1) by ring]

/-- **C45, C46.** The whole output of an aggregated field with an output frequency of `m` time steps
over a run of `n` steps: `n / m` records, the `k`-th of which is the aggregate of exactly the steps
`k m, ..., k m + m - 1`. -/
theorem C46_output {C K : Type*} [Field K] [CharZero K] (a : Agg) (roi : C → Bool)
    (fill : Option K) (t0 dt : ℤ) (n m : ℕ) (hdt : 0 < dt) (hn : 0 < n) (hm : 0 < m)
    (x : ℕ → C → Option K) (write : List ℤ)
    (hw : fieldWriteDates t0 dt n (m * dt) true = some write) :
    run (some a) roi fill write ((List.range n).map fun i : ℕ => (t0 + (i : ℤ) * dt, x i)) ⟨none, 0⟩ =
      (List.range (n / m)).map fun k : ℕ =>
        (k, fun c => if roi c then
          aggregated a ((List.range m).map fun j => x (k * m + j) c) else fill) := by
  rw [C46_aggregated t0 dt n m hdt hn hm, Option.some.injEq] at hw
  have hinj : ∀ k l : ℕ, t0 + (((k : ℤ) + 1) * m - 1) * dt = t0 + (((l : ℤ) + 1) * m - 1) * dt →
      k = l := by
    intro k l h
    have h1 : (((k : ℤ) + 1) * m - 1) * dt = (((l : ℤ) + 1) * m - 1) * dt := by linarith
    have h2 := mul_right_cancel₀ hdt.ne' h1
    have h3 : ((k : ℤ) + 1) * m = ((l : ℤ) + 1) * m := by linarith
    have h4 := mul_right_cancel₀ (by exact_mod_cast hm.ne' : (m : ℤ) ≠ 0) h3
    have : (k : ℤ) = l := by linarith
    exact_mod_cast this
  have hp : ∀ i < n, (decide (t0 + (i : ℤ) * dt ∈ write)) = decide ((i + 1) % m = 0) := by
    intro i hi
    rw [← hw, decide_eq_decide, List.mem_map]
    constructor
    · rintro ⟨k, -, hk⟩
      have h1 : (((k : ℤ) + 1) * m - 1) * dt = (i : ℤ) * dt := by linarith
      have h2 := mul_right_cancel₀ hdt.ne' h1
      have h3 : (k + 1) * m = i + 1 := by
        have : ((k : ℤ) + 1) * m = i + 1 := by linarith
        exact_mod_cast this
      rw [← h3, Nat.mul_mod_left]
    · intro h
      obtain ⟨k, hk⟩ := Nat.dvd_of_mod_eq_zero h
      have hk0 : 0 < k := by
        rcases Nat.eq_zero_or_pos k with e | e
        · subst e; omega
        · exact e
      refine ⟨k - 1, ?_, ?_⟩
      · rw [List.mem_range]
        have : k ≤ n / m := by
          rw [Nat.le_div_iff_mul_le hm]
          rw [Nat.mul_comm]; omega
        omega
      · have : (((k - 1 : ℕ) : ℤ) + 1) * m = (i : ℤ) + 1 := by
          rw [Nat.cast_sub hk0]
          push_cast
          have : ((m * k : ℕ) : ℤ) = ((i + 1 : ℕ) : ℤ) := by rw [hk]
          push_cast at this
          linarith
        rw [this]; ring
  rw [C45_aggregated]
  -- a history with the same blocks, defined for all indices
  obtain ⟨g, hg⟩ : ∃ g : ℕ → ℤ × (C → Option K), g = fun i : ℕ => (t0 + (i : ℤ) * dt, x i) := ⟨_, rfl⟩
  have hblk : blocks (fun r => decide (r.1 ∈ write)) ((List.range n).map g) =
      (List.range' 0 (n / m)).map fun k => (List.range' (k * m) m).map g := by
    have hcong : ∀ (p p' : ℤ × (C → Option K) → Bool) (acc l : List (ℤ × (C → Option K))),
        (∀ y ∈ l, p y = p' y) → blocksAux p acc l = blocksAux p' acc l := by
      intro p p' acc l
      induction l generalizing acc with
      | nil => intro _; rfl
      | cons y l ih =>
        intro h
        simp only [blocksAux]
        rw [h y (by simp), ih _ fun z hz => h z (by simp [hz]), ih _ fun z hz => h z (by simp [hz])]
    have h1 := hcong (fun r => decide (r.1 ∈ write))
      (fun r => decide ((((r.1 - t0) / dt).toNat + 1) % m = 0)) [] ((List.range n).map g) (by
        intro y hy
        obtain ⟨i, hi, rfl⟩ := List.mem_map.mp hy
        have := hp i (List.mem_range.mp hi)
        rw [hg]
        simp only
        rw [this]
        have e : (t0 + (i : ℤ) * dt - t0) / dt = i := by
          rw [show t0 + (i : ℤ) * dt - t0 = (i : ℤ) * dt by ring, Int.mul_ediv_cancel _ hdt.ne']
        rw [e]; simp)
    unfold blocks
    rw [h1]
    have h2 := blocksAux_range (fun r : ℤ × (C → Option K) =>
      decide ((((r.1 - t0) / dt).toNat + 1) % m = 0)) g m (by
        intro i
        rw [hg]
        simp only
        have e : (t0 + (i : ℤ) * dt - t0) / dt = i := by
          rw [show t0 + (i : ℤ) * dt - t0 = (i : ℤ) * dt by ring, Int.mul_ediv_cancel _ hdt.ne']
        rw [e]; simp) n 0 0 hm
    simp only [Nat.zero_mul, Nat.zero_add, List.range'_zero, List.map_nil] at h2
    rw [List.range_eq_range']
    exact h2
  rw [← hg, hblk, List.map_map, ← List.range_eq_range']
  apply List.map_congr_left
  intro k hk
  simp only [Function.comp]
  have hlast : ((List.range' (k * m) m).map g).getLast? = some (g (k * m + (m - 1))) := by
    obtain ⟨m', rfl⟩ : ∃ m', m = m' + 1 := ⟨m - 1, by omega⟩
    rw [List.range'_1_concat, List.map_append]
    simp
  have hidx : write.idxOf (g (k * m + (m - 1))).1 = k := by
    have hk' := List.mem_range.mp hk
    have hd : (g (k * m + (m - 1))).1 = t0 + (((k : ℤ) + 1) * m - 1) * dt := by
      rw [hg]
      simp only
      congr 2
      push_cast [Nat.cast_sub (show 1 ≤ m from hm)]
      ring
    rw [hd, ← hw]
    have hnd : ((List.range (n / m)).map fun k : ℕ => t0 + (((k : ℤ) + 1) * m - 1) * dt).Nodup := by
      apply List.Nodup.map (fun a b h => hinj a b h) List.nodup_range
    have := hnd.idxOf_getElem k (by simpa using hk')
    simpa using this
  rw [hlast]
  simp only [Option.map_some, Option.getD_some, hidx]
  congr 1
  funext c
  congr 2
  have hr : List.range' (k * m) m = (List.range m).map (k * m + ·) := by
    rw [List.range_eq_range', List.map_add_range', Nat.add_zero]
  rw [hr, List.map_map, List.map_map]
  apply List.map_congr_left
  intro j _
  simp [hg]

/-- **C46.** The file name of the `k`-th record of an aggregated field starts with the first step of
its group and ends with the last one; the time bounds start one step earlier, except for the first. -/
theorem C46_labels (t0 dt : ℤ) (n m : ℕ) (hdt : 0 < dt) (hn : 0 < n) (hm : 0 < m)
    (write : List ℤ) (hw : fieldWriteDates t0 dt n (m * dt) true = some write) (k : ℕ)
    (hk : k < n / m) :
    labelStart t0 dt write k = t0 + ((k : ℤ) * m) * dt ∧
    timeBounds t0 write k =
      (if k = 0 then t0 else t0 + ((k : ℤ) * m - 1) * dt, t0 + (((k : ℤ) + 1) * m - 1) * dt) := by
  rw [C46_aggregated t0 dt n m hdt hn hm, Option.some.injEq] at hw
  have hget : ∀ j, j < n / m → write.getD j 0 = t0 + (((j : ℤ) + 1) * m - 1) * dt := by
    intro j hj
    rw [← hw, List.getD_eq_getElem?_getD, List.getElem?_map, List.getElem?_range hj]
    rfl
  unfold labelStart timeBounds
  rw [hget k hk]
  cases k with
  | zero => simp
  | succ k =>
    rw [if_neg (by omega), if_neg (by omega), if_neg (by omega), Nat.add_sub_cancel,
      hget k (by omega)]
    push_cast
    refine ⟨by ring, by ring_nf⟩

/-- Seven three-hourly steps and a frequency of nine hours: two complete groups, three starts. -/
example : fieldWriteDates 0 10800 7 (3 * 10800) true = some [21600, 54000] ∧
    fieldWriteDates 0 10800 7 (3 * 10800) false = some [0, 32400, 64800] ∧
    fieldWriteDates 0 10800 7 14400 true = none := by decide

end Verif.Gridded
