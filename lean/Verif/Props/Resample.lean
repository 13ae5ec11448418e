import Verif.Model.Resample
import Mathlib.Tactic.Linarith
import Mathlib.Tactic.NormNum
import Mathlib.Tactic.Ring
import Mathlib.Algebra.BigOperators.Group.List.Basic
import Mathlib.Data.List.Nodup

/-!
# C50: resampling
-/

set_option linter.unusedSectionVars false

namespace Verif.Resample

variable {K : Type*} [Field K] [LinearOrder K] [IsStrictOrderedRing K]

/-! ## Lemmas -/

theorem cdiv_spec (a f : ℤ) (hf : 0 < f) : (cdiv a f - 1) * f < a ∧ a ≤ cdiv a f * f := by
  unfold cdiv
  have h1 := Int.ediv_mul_le (-a) hf.ne'
  have h2 := Int.lt_ediv_add_one_mul_self (-a) hf
  constructor <;> nlinarith

theorem cdiv_unique (a f k : ℤ) (hf : 0 < f) (h1 : (k - 1) * f < a) (h2 : a ≤ k * f) :
    cdiv a f = k := by
  obtain ⟨h3, h4⟩ := cdiv_spec a f hf
  have a1 : cdiv a f - 1 < k := by
    by_contra h
    push Not at h
    nlinarith
  have a2 : k - 1 < cdiv a f := by
    by_contra h
    push Not at h
    nlinarith
  omega

theorem cdiv_mono (a b f : ℤ) (hf : 0 < f) (h : a ≤ b) : cdiv a f ≤ cdiv b f := by
  obtain ⟨h3, -⟩ := cdiv_spec a f hf
  obtain ⟨-, h4⟩ := cdiv_spec b f hf
  have : cdiv a f - 1 < cdiv b f := by
    by_contra hc
    push Not at hc
    nlinarith
  omega

/-- Specification: the records in the interval `(a, b]`. -/
def within (a b : ℤ) (recs : Series K) : List (Option K) :=
  (recs.filter fun r => decide (a < r.1 ∧ r.1 ≤ b)).map Prod.snd

theorem binLabel_iff (daily : Bool) (origin f t k : ℤ) (hf : 0 < f) :
    binLabel daily origin f t = origin + k * f ↔
      if daily then origin + k * f < t ∧ t ≤ origin + (k + 1) * f
      else origin + (k - 1) * f < t ∧ t ≤ origin + k * f := by
  obtain ⟨h1, h2⟩ := cdiv_spec (t - origin) f hf
  have hcancel : ∀ a b : ℤ, origin + a * f = origin + b * f ↔ a = b := by
    intro a b
    constructor
    · intro h
      exact mul_right_cancel₀ hf.ne' (by linarith : a * f = b * f)
    · rintro rfl; rfl
  cases daily with
  | true =>
    simp only [binLabel, if_true]
    rw [hcancel]
    constructor
    · intro h
      have : cdiv (t - origin) f = k + 1 := by omega
      rw [this] at h1 h2
      constructor <;> nlinarith
    · rintro ⟨a, b⟩
      have := cdiv_unique (t - origin) f (k + 1) hf (by nlinarith) (by nlinarith)
      omega
  | false =>
    simp only [binLabel, Bool.false_eq_true, if_false]
    rw [hcancel]
    constructor
    · intro h
      rw [h] at h1 h2
      constructor <;> nlinarith
    · rintro ⟨a, b⟩
      exact cdiv_unique (t - origin) f k hf (by nlinarith) (by nlinarith)

theorem binned_within (agg : List (Option K) → Option K) (daily : Bool) (origin f k : ℤ)
    (hf : 0 < f) (recs : Series K) :
    binned agg daily origin f recs (origin + k * f) =
      agg (if daily then within (origin + k * f) (origin + k * f + f) recs
        else within (origin + k * f - f) (origin + k * f) recs) := by
  unfold binned within
  cases daily with
  | true =>
    simp only [if_true]
    congr 2
    apply List.filter_congr
    intro r _
    rw [decide_eq_decide, binLabel_iff true origin f r.1 k hf]
    simp only [if_true]
    rw [show origin + (k + 1) * f = origin + k * f + f by ring]
  | false =>
    simp only [Bool.false_eq_true, if_false]
    congr 2
    apply List.filter_congr
    intro r _
    rw [decide_eq_decide, binLabel_iff false origin f r.1 k hf]
    simp only [Bool.false_eq_true, if_false]
    rw [show origin + (k - 1) * f = origin + k * f - f by ring]

theorem binLabels_form (daily : Bool) (origin f first last l : ℤ)
    (h : l ∈ binLabels daily origin f first last) : ∃ k, l = origin + k * f := by
  simp only [binLabels] at h
  obtain ⟨k, -, rfl⟩ := List.mem_map.mp h
  unfold binLabel
  split_ifs
  · exact ⟨cdiv (first - origin) f - 1 + k, by ring⟩
  · exact ⟨cdiv (first - origin) f + k, by ring⟩

theorem binLabels_mem (daily : Bool) (origin f first last t : ℤ) (hf : 0 < f) (h1 : first ≤ t)
    (h2 : t ≤ last) : binLabel daily origin f t ∈ binLabels daily origin f first last := by
  have m1 := cdiv_mono (first - origin) (t - origin) f hf (by linarith)
  have m2 := cdiv_mono (t - origin) (last - origin) f hf (by linarith)
  simp only [binLabels, List.mem_map, List.mem_range]
  obtain ⟨d, hd⟩ := Int.eq_ofNat_of_zero_le (sub_nonneg.mpr m1)
  refine ⟨d, ?_, ?_⟩
  · have e : binLabel daily origin f last - binLabel daily origin f first =
        (cdiv (last - origin) f - cdiv (first - origin) f) * f := by
      unfold binLabel
      split_ifs <;> ring
    rw [e, Int.mul_ediv_cancel _ hf.ne']
    omega
  · unfold binLabel
    have : (d : ℤ) = cdiv (t - origin) f - cdiv (first - origin) f := hd.symm
    rw [this]
    split_ifs <;> ring

theorem binLabels_nodup (daily : Bool) (origin f first last : ℤ) (hf : 0 < f) :
    (binLabels daily origin f first last).Nodup := by
  simp only [binLabels]
  apply List.Nodup.map _ List.nodup_range
  intro a b h
  have h' : (a : ℤ) * f = (b : ℤ) * f := by
    have : binLabel daily origin f first + (a : ℤ) * f = binLabel daily origin f first + (b : ℤ) * f := h
    linarith
  exact_mod_cast mul_right_cancel₀ hf.ne' h'

/-! ## C50 -/

/-- **C50.** The strict sum: missing iff one of the values is, otherwise the sum of all values. -/
theorem C50_sum_strict (xs : List (Option K)) :
    (sumStrict xs = none ↔ none ∈ xs) ∧
    ∀ ys : List K, xs = ys.map some → sumStrict xs = some ys.sum := by
  constructor
  · induction xs with
    | nil => simp [sumStrict]
    | cons x xs ih =>
      cases x with
      | none => simp [sumStrict]
      | some a =>
        simp only [sumStrict, List.mem_cons, reduceCtorEq, false_or, ← ih]
        cases sumStrict xs <;> simp
  · intro ys h
    subst h
    induction ys with
    | nil => simp [sumStrict]
    | cons y ys ih => simp [sumStrict, ih]

theorem resample_some (agg : List (Option K) → Option K) (start stop f : ℤ) (aggregate : Bool)
    (recs out : Series K) (hne : recs ≠ []) (h : resample agg start stop f aggregate recs = some out) :
    ∃ a b, recs.head? = some a ∧ recs.getLast? = some b ∧ ¬ 86400 < f ∧
      out = (resIndex (decide (f = 86400)) aggregate start stop f a.1 b.1).map fun l =>
        (l, if l ∈ binLabels (decide (f = 86400)) (if decide (f = 86400) then a.1 else start) f a.1 b.1
          then binned agg (decide (f = 86400)) (if decide (f = 86400) then a.1 else start) f recs l
          else none) := by
  cases recs with
  | nil => exact absurd rfl hne
  | cons a rs =>
    obtain ⟨b, hb⟩ : ∃ b, (a :: rs).getLast? = some b :=
      ⟨(a :: rs).getLast (by simp), List.getLast?_eq_some_getLast (by simp)⟩
    simp only [resample, List.head?_cons, hb] at h
    refine ⟨a, b, rfl, hb, ?_⟩
    by_cases hf : 86400 < f
    · simp [hf] at h
    · rw [if_neg hf] at h
      refine ⟨hf, ?_⟩
      by_cases hd : f = 86400
      · simp only [hd, decide_true, if_true] at h ⊢
        split_ifs at h with hc hc'
        · simpa using h.symm
      · simp only [hd, decide_false, Bool.false_eq_true, if_false] at h ⊢
        split_ifs at h with hc hc'
        · simpa using h.symm

/-- **C50.** Below one day, every value of the resampled series is the aggregate of exactly the
records in `(t - step, t]`, for all aggregation functions and with instantaneous values for the other
variables or not. -/
theorem C50_interval (agg : List (Option K) → Option K) (start stop f : ℤ) (aggregate : Bool)
    (recs out : Series K) (hne : recs ≠ []) (hf : 0 < f) (hd : f < 86400)
    (h : resample agg start stop f aggregate recs = some out) (l : ℤ) (v : Option K)
    (hl : (l, v) ∈ out) :
    (∃ k : ℤ, l = start + k * f) ∧ v = agg (within (l - f) l recs) := by
  obtain ⟨a, b, ha, hb, -, rfl⟩ := resample_some agg start stop f aggregate recs out hne h
  have hdd : decide (f = 86400) = false := by simp; omega
  rw [hdd] at hl
  simp only [Bool.false_eq_true, if_false] at hl
  obtain ⟨l', hl', e⟩ := List.mem_map.mp hl
  simp only [Prod.mk.injEq] at e
  obtain ⟨rfl, rfl⟩ := e
  -- the label is a bin label
  have hmem : l' ∈ binLabels false start f a.1 b.1 ∧ ∃ k : ℤ, l' = start + k * f := by
    simp only [resIndex, Bool.false_eq_true, if_false] at hl'
    cases aggregate with
    | true =>
      simp only [if_true] at hl'
      have : l' ∈ (binLabels false start f a.1 b.1).filter fun l => decide (start ≤ l ∧ l ≤ stop) := by
        split at hl'
        · simp at hl'
        · rename_i x xs heq
          rw [heq]
          split_ifs at hl'
          · exact List.mem_cons_of_mem _ hl'
          · exact hl'
      have h1 := (List.mem_filter.mp this).1
      exact ⟨h1, binLabels_form _ _ _ _ _ _ h1⟩
    | false =>
      simp only [Bool.false_eq_true, if_false] at hl'
      split_ifs at hl' with hss
      · simp at hl'
      · obtain ⟨h1, h2⟩ := List.mem_filter.mp hl'
        obtain ⟨k, -, rfl⟩ := List.mem_map.mp h1
        simp only [decide_eq_true_eq] at h2
        refine ⟨?_, k, rfl⟩
        have e : binLabel false start f (start + (k : ℤ) * f) = start + (k : ℤ) * f := by
          rw [binLabel_iff false start f _ k hf]
          simp only [Bool.false_eq_true, if_false]
          constructor <;> nlinarith
        have := binLabels_mem false start f a.1 b.1 (start + (k : ℤ) * f) hf h2.1 h2.2
        rwa [e] at this
  obtain ⟨hm, k, rfl⟩ := hmem
  refine ⟨⟨k, rfl⟩, ?_⟩
  rw [if_pos hm, binned_within agg false start f k hf recs]
  simp

/-- **C50.** With daily time steps every value is the aggregate of the records in `(t, t + 24 h]`. -/
theorem C50_daily (agg : List (Option K) → Option K) (start stop : ℤ)
    (recs out : Series K) (hne : recs ≠ [])
    (h : resample agg start stop 86400 true recs = some out) (l : ℤ) (v : Option K)
    (hl : (l, v) ∈ out) :
    (∀ a, recs.head? = some a → (86400 : ℤ) ∣ l - a.1) ∧ start ≤ l ∧ l ≤ stop ∧
      v = agg (within l (l + 86400) recs) := by
  obtain ⟨a, b, ha, hb, -, rfl⟩ := resample_some agg start stop 86400 true recs out hne h
  simp only [decide_true, if_true] at hl
  obtain ⟨l', hl', e⟩ := List.mem_map.mp hl
  simp only [Prod.mk.injEq] at e
  obtain ⟨rfl, rfl⟩ := e
  simp only [resIndex, if_true] at hl'
  have hmem : l' ∈ (binLabels true a.1 86400 a.1 b.1).filter fun l => decide (start ≤ l ∧ l ≤ stop) := by
    split at hl'
    · simp at hl'
    · rename_i x xs heq
      rw [heq]
      split_ifs at hl'
      · exact List.mem_cons_of_mem _ hl'
      · exact hl'
  obtain ⟨h1, h2⟩ := List.mem_filter.mp hmem
  simp only [decide_eq_true_eq] at h2
  obtain ⟨k, rfl⟩ := binLabels_form _ _ _ _ _ _ h1
  refine ⟨?_, h2.1, h2.2, ?_⟩
  · intro a' ha'
    rw [ha] at ha'
    cases ha'
    exact ⟨k, by ring⟩
  · rw [if_pos h1, binned_within agg true a.1 86400 k (by norm_num) recs]
    simp

/-- **C50.** Every record enters exactly one bin: the sums over the bins add up to the sum of all
records (no missing values). -/
theorem C50_total (daily : Bool) (origin f first last : ℤ) (hf : 0 < f) (recs : List (ℤ × K))
    (hr : ∀ r ∈ recs, first ≤ r.1 ∧ r.1 ≤ last) :
    ∃ sums : List K,
      ((binLabels daily origin f first last).map
        (binned sumStrict daily origin f (recs.map fun r => (r.1, some r.2)))) = sums.map some ∧
      sums.sum = (recs.map Prod.snd).sum := by
  have hbin : ∀ l, binned sumStrict daily origin f (recs.map fun r => (r.1, some r.2)) l =
      some (((recs.filter fun r => decide (binLabel daily origin f r.1 = l)).map Prod.snd).sum) := by
    intro l
    unfold binned
    apply (C50_sum_strict _).2
    rw [List.filter_map, List.map_map, List.map_map]
    rfl
  refine ⟨(binLabels daily origin f first last).map fun l =>
    (((recs.filter fun r => decide (binLabel daily origin f r.1 = l)).map Prod.snd).sum), ?_, ?_⟩
  · rw [List.map_map]
    apply List.map_congr_left
    intro l _
    exact hbin l
  · have hnd := binLabels_nodup daily origin f first last hf
    have hmem : ∀ r ∈ recs, binLabel daily origin f r.1 ∈ binLabels daily origin f first last :=
      fun r h => binLabels_mem daily origin f first last r.1 hf (hr r h).1 (hr r h).2
    clear hr hbin
    generalize binLabels daily origin f first last = ls at hnd hmem
    induction recs with
    | nil =>
      simp only [List.filter_nil, List.map_nil, List.sum_nil]
      clear hnd hmem
      induction ls with
      | nil => rfl
      | cons l ls ih => simp [ih]
    | cons r recs ih =>
      have ih' := ih fun r' h => hmem r' (by simp [h])
      rw [List.map_cons, List.sum_cons, ← ih']
      have hr := hmem r (by simp)
      clear ih ih' hmem
      induction ls with
      | nil => simp at hr
      | cons l ls ihl =>
        obtain ⟨hn1, hn2⟩ := List.nodup_cons.mp hnd
        simp only [List.map_cons, List.sum_cons]
        by_cases he : binLabel daily origin f r.1 = l
        · have hnot : ∀ l' ∈ ls, ¬ binLabel daily origin f r.1 = l' := by
            intro l' hl' e
            exact hn1 (he ▸ e ▸ hl')
          have hrest : (ls.map fun l => (((r :: recs).filter fun r =>
              decide (binLabel daily origin f r.1 = l)).map Prod.snd).sum) =
              ls.map fun l => ((recs.filter fun r =>
              decide (binLabel daily origin f r.1 = l)).map Prod.snd).sum := by
            apply List.map_congr_left
            intro l' hl'
            rw [List.filter_cons_of_neg (by simpa using hnot l' hl')]
          rw [hrest, List.filter_cons_of_pos (by simpa using he)]
          simp only [List.map_cons, List.sum_cons]
          ring
        · rw [List.filter_cons_of_neg (by simpa using he)]
          have := ihl hn2 (by
            rcases List.mem_cons.mp hr with e | e
            · exact absurd e he
            · exact e)
          rw [this]
          ring

/-- **C50.** Uniform data: a bin that starts not before the record preceding the first one and ends
not after the last one contains exactly `f / dt` records. -/
theorem C50_complete_bins (a dt m : ℤ) (n : ℕ) (v : ℕ → Option K) (hdt : 0 < dt) (hm : 0 < m)
    (j : ℕ) (hj : (j : ℤ) + m ≤ n) :
    (within (a + ((j : ℤ) - 1) * dt) (a + ((j : ℤ) - 1) * dt + m * dt)
      ((List.range n).map fun i : ℕ => (a + (i : ℤ) * dt, v i))) =
      (List.range m.toNat).map fun i => v (j + i) := by
  unfold within
  rw [List.filter_map, List.map_map]
  have hfil : (List.range n).filter ((fun r : ℤ × Option K => decide (a + ((j : ℤ) - 1) * dt < r.1 ∧
      r.1 ≤ a + ((j : ℤ) - 1) * dt + m * dt)) ∘ fun i : ℕ => (a + (i : ℤ) * dt, v i)) =
      List.range' j m.toNat := by
    have hcond : ∀ i : ℕ, ((a + ((j : ℤ) - 1) * dt < a + (i : ℤ) * dt ∧
        a + (i : ℤ) * dt ≤ a + ((j : ℤ) - 1) * dt + m * dt) ↔ j ≤ i ∧ i < j + m.toNat) := by
      intro i
      constructor
      · rintro ⟨h1, h2⟩
        have h3 : ((j : ℤ) - 1) < i := by
          by_contra h
          push Not at h
          nlinarith
        have h4 : (i : ℤ) ≤ (j : ℤ) - 1 + m := by
          by_contra h
          push Not at h
          nlinarith
        omega
      · rintro ⟨h1, h2⟩
        have h3 : (j : ℤ) ≤ i := by exact_mod_cast h1
        have h4 : (i : ℤ) + 1 ≤ (j : ℤ) + m := by omega
        constructor <;> nlinarith
    have hsplit : List.range n = List.range' 0 j ++ (List.range' j m.toNat ++
        List.range' (j + m.toNat) (n - j - m.toNat)) := by
      have e2 := List.range'_append_1 (s := j) (m := m.toNat) (n := n - j - m.toNat)
      have e1 := List.range'_append_1 (s := 0) (m := j) (n := m.toNat + (n - j - m.toNat))
      rw [Nat.zero_add] at e1
      rw [e2, e1, List.range_eq_range']
      congr 1
      omega
    rw [hsplit, List.filter_append, List.filter_append]
    have f1 : (List.range' 0 j).filter ((fun r : ℤ × Option K => decide (a + ((j : ℤ) - 1) * dt < r.1 ∧
        r.1 ≤ a + ((j : ℤ) - 1) * dt + m * dt)) ∘ fun i : ℕ => (a + (i : ℤ) * dt, v i)) = [] := by
      rw [List.filter_eq_nil_iff]
      intro i hi
      have := List.mem_range'_1.mp hi
      simp only [Function.comp, hcond, decide_eq_true_eq]
      omega
    have f2 : (List.range' j m.toNat).filter ((fun r : ℤ × Option K =>
        decide (a + ((j : ℤ) - 1) * dt < r.1 ∧
        r.1 ≤ a + ((j : ℤ) - 1) * dt + m * dt)) ∘ fun i : ℕ => (a + (i : ℤ) * dt, v i)) =
        List.range' j m.toNat := by
      rw [List.filter_eq_self]
      intro i hi
      have := List.mem_range'_1.mp hi
      simp only [Function.comp, hcond, decide_eq_true_eq]
      omega
    have f3 : (List.range' (j + m.toNat) (n - j - m.toNat)).filter ((fun r : ℤ × Option K =>
        decide (a + ((j : ℤ) - 1) * dt < r.1 ∧
        r.1 ≤ a + ((j : ℤ) - 1) * dt + m * dt)) ∘ fun i : ℕ => (a + (i : ℤ) * dt, v i)) = [] := by
      rw [List.filter_eq_nil_iff]
      intro i hi
      have := List.mem_range'_1.mp hi
      simp only [Function.comp, hcond, decide_eq_true_eq]
      omega
    rw [f1, f2, f3, List.nil_append, List.append_nil]
  rw [hfil]
  have hr : List.range' j m.toNat = (List.range m.toNat).map (j + ·) := by
    rw [List.range_eq_range', List.map_add_range', Nat.add_zero]
  rw [hr, List.map_map]
  rfl

/-- **C50.** Resampling to the time step of the data itself (e.g. "60min" for hourly data) keeps every
precipitation value. -/
theorem C50_same_step (a dt : ℤ) (n : ℕ) (v : ℕ → Option K) (hdt : 0 < dt) (j : ℕ) (hj : j < n) :
    sumStrict (within (a + (j : ℤ) * dt - dt) (a + (j : ℤ) * dt)
      ((List.range n).map fun i : ℕ => (a + (i : ℤ) * dt, v i))) = v j := by
  have := C50_complete_bins a dt 1 n v hdt one_pos j (by exact_mod_cast hj)
  rw [show a + ((j : ℤ) - 1) * dt + 1 * dt = a + (j : ℤ) * dt by ring,
    show a + ((j : ℤ) - 1) * dt = a + (j : ℤ) * dt - dt by ring] at this
  rw [this]
  simp only [Int.toNat_one, List.range_one, List.map_cons, List.map_nil, Nat.add_zero]
  cases v j <;> simp [sumStrict]

/-- Six hourly records resampled to three hours from hour 3 on; the period starts with the second
bin. -/
example : sliceResample sumStrict 10800 21600 10800 3600 true
    [(3600, some 1), (7200, some 2), (10800, some 3), (14400, some 4), (18000, none),
      (21600, some (6 : ℚ))] = some [(10800, some 6), (21600, none)] := by
  decide +kernel

/-- **C50.** The first bin may be incomplete without notice: data starting with the run give a first
precipitation value of one record instead of three. -/
theorem C50_first_bin_witness :
    sliceResample sumStrict 10800 21600 10800 3600 true
      [(10800, some 3), (14400, some 4), (18000, some 5), (21600, some (6 : ℚ))] =
      some [(10800, some 3), (21600, some 15)] := by
  decide +kernel

/-- **C50.** Aggregation fails altogether if the data end within a bin (and the run does not): the
label of the last bin is not the time of a record. -/
theorem C50_end_witness :
    sliceResample sumStrict 0 21600 10800 3600 true
      [(3600, some 1), (7200, some 2), (10800, some 3), (14400, some (4 : ℚ))] = none ∧
    sliceResample sumStrict 0 21600 10800 3600 false
      [(3600, some 1), (7200, some 2), (10800, some 3), (14400, some (4 : ℚ))] =
      some [(10800, some 6)] := by
  decide +kernel

/-- **C50.** Daily values are not aligned with the dates of the run if the first record used is not:
with 12-hourly data from 12:00 of the day before the run starts at midnight, the daily values are those
from noon to noon and labelled noon. -/
theorem C50_daily_misaligned_witness :
    sliceResample sumStrict 86400 172800 86400 43200 true
      [(43200, some 1), (86400, some 2), (129600, some 3), (172800, some 4), (216000, some 5),
        (259200, some (6 : ℚ))] = some [(129600, some 9), (216000, some 6)] := by
  decide +kernel

end Verif.Resample
