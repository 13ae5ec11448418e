import Verif.Props.PointOutput
import Verif.Props.Gridded

/-!
# C112: point and gridded outputs agree
-/

namespace Verif.OutputsAgree

open Verif.Gridded (Agg aggregated fieldWriteDates)

theorem range_filter (n a m : ℕ) (h : a + m ≤ n) :
    (List.range n).filter (fun i => decide (a ≤ i ∧ i < a + m)) = (List.range m).map (a + ·) := by
  obtain ⟨r, rfl⟩ : ∃ r, n = a + (m + r) := ⟨n - a - m, by omega⟩
  rw [List.range_add, List.range_add, List.map_append, List.filter_append, List.filter_append]
  have h1 : (List.range a).filter (fun i => decide (a ≤ i ∧ i < a + m)) = [] := by
    rw [List.filter_eq_nil_iff]
    intro i hi
    rw [List.mem_range] at hi
    simp; omega
  have h2 : ((List.range m).map (a + ·)).filter (fun i => decide (a ≤ i ∧ i < a + m)) =
      (List.range m).map (a + ·) := by
    rw [List.filter_eq_self]
    intro i hi
    obtain ⟨j, hj, rfl⟩ := List.mem_map.1 hi
    rw [List.mem_range] at hj
    simp; omega
  have h3 : (((List.range r).map (m + ·)).map (a + ·)).filter
      (fun i => decide (a ≤ i ∧ i < a + m)) = [] := by
    rw [List.filter_eq_nil_iff]
    intro i hi
    obtain ⟨j, hj, rfl⟩ := List.mem_map.1 hi
    obtain ⟨l, hl, rfl⟩ := List.mem_map.1 hj
    simp
  rw [h1, h2, h3]
  simp

/-- **C112.** `x t c` is the value of a variable at time `t` in pixel `c`. A run of `n` time steps writes
the time series of pixel `c` (in chunks ending at `pwrite`) and the sum or mean of the variable over
intervals of `m` time steps. For every interval, the aggregate of the records of the point output within
the interval is the gridded value of the pixel. -/
theorem C112_aggregated {C K : Type*} [Field K] [CharZero K] (a : Agg) (roi : C → Bool)
    (fill : Option K) (t0 dt : ℤ) (n m : ℕ) (hdt : 0 < dt) (hn : 0 < n) (hm : 0 < m)
    (x : ℤ → C → Option K) (c : C) (hc : roi c = true) (write : List ℤ)
    (hw : fieldWriteDates t0 dt n (m * dt) true = some write)
    (dates : List ℤ) (hdates : dates = (List.range n).map fun i : ℕ => t0 + (i : ℤ) * dt)
    (fmt : PointOutput.Format) (pwrite : List ℤ) (w0 : ℤ) (hp : pwrite.Pairwise (· < ·))
    (hend : ∀ d ∈ dates, ∃ w ∈ pwrite, d ≤ w) (hfirst : pwrite.head? = some w0) (hmem : w0 ∈ dates)
    (old : Option (List (ℤ × Option (Option K)))) :
    ∃ file, PointOutput.run fmt pwrite dates (fun t => x t c) dates ⟨none, old⟩ =
        some ⟨none, some file⟩ ∧
      (Gridded.run (some a) roi fill write (dates.map fun t => (t, x t)) ⟨none, 0⟩).length = n / m ∧
      ∀ k < n / m, ∃ g,
        (Gridded.run (some a) roi fill write (dates.map fun t => (t, x t)) ⟨none, 0⟩)[k]? = some (k, g) ∧
        g c = aggregated a ((file.filter fun r =>
          decide (t0 + (k * m : ℤ) * dt ≤ r.1 ∧ r.1 < t0 + ((k + 1) * m : ℤ) * dt)).map
            fun r => r.2.join) := by
  have hinc : dates.Pairwise (· < ·) := by
    rw [hdates, List.pairwise_map]
    refine List.pairwise_lt_range.imp ?_
    intro i j h
    have : (i : ℤ) < j := by exact_mod_cast h
    nlinarith
  refine ⟨_, PointOutput.C44_complete fmt pwrite dates (fun t => x t c) w0 hp hinc hend hfirst hmem old,
    ?_⟩
  have hg := Gridded.C46_output a roi fill t0 dt n m hdt hn hm (fun i => x (t0 + (i : ℤ) * dt)) write hw
  have hd : (dates.map fun t => (t, x t)) =
      (List.range n).map fun i : ℕ => (t0 + (i : ℤ) * dt, x (t0 + (i : ℤ) * dt)) := by
    rw [hdates, List.map_map]; rfl
  rw [hd, hg]
  refine ⟨by simp, fun k hk => ?_⟩
  refine ⟨_, by rw [List.getElem?_map, List.getElem?_range hk]; rfl, ?_⟩
  simp only [hc, if_true]
  congr 1
  have hkm : k * m + m ≤ n := by
    have : (k + 1) * m ≤ n / m * m := Nat.mul_le_mul_right m hk
    have := Nat.div_mul_le_self n m
    nlinarith
  rw [hdates, List.map_map, List.filter_map, List.map_map]
  have hf : ((fun r : ℤ × Option (Option K) =>
      decide (t0 + (k * m : ℤ) * dt ≤ r.1 ∧ r.1 < t0 + ((k + 1) * m : ℤ) * dt)) ∘
      ((fun d => (d, some (x d c))) ∘ fun i : ℕ => t0 + (i : ℤ) * dt)) =
      fun i : ℕ => decide (k * m ≤ i ∧ i < k * m + m) := by
    funext i
    simp only [Function.comp, decide_eq_decide]
    constructor
    · rintro ⟨h1, h2⟩
      have h1' : (k * m : ℤ) ≤ i := by
        have : (k * m : ℤ) * dt ≤ i * dt := by linarith
        exact le_of_mul_le_mul_right this hdt
      have h2' : (i : ℤ) < (k + 1) * m := by
        have : (i : ℤ) * dt < ((k + 1) * m : ℤ) * dt := by linarith
        exact lt_of_mul_lt_mul_right this hdt.le
      constructor
      · exact_mod_cast h1'
      · have : (i : ℤ) < k * m + m := by linarith
        exact_mod_cast this
    · rintro ⟨h1, h2⟩
      have h1' : (k * m : ℤ) ≤ i := by exact_mod_cast h1
      have h2' : (i : ℤ) < k * m + m := by exact_mod_cast h2
      constructor <;> nlinarith
  rw [hf, range_filter n (k * m) m hkm, List.map_map]
  rfl

/-- **C112**, instantaneous fields: the gridded values of a pixel are the records of the point output at
the write dates. -/
theorem C112_instantaneous {C K : Type*} [Field K] [CharZero K] (roi : C → Bool) (fill : Option K)
    (x : ℤ → C → Option K) (c : C) (write dates : List ℤ) (hd : dates.Pairwise (· < ·))
    (fmt : PointOutput.Format) (pwrite : List ℤ) (w0 : ℤ) (hp : pwrite.Pairwise (· < ·))
    (hend : ∀ d ∈ dates, ∃ w ∈ pwrite, d ≤ w) (hfirst : pwrite.head? = some w0) (hmem : w0 ∈ dates)
    (old : Option (List (ℤ × Option (Option K)))) :
    ∃ file, PointOutput.run fmt pwrite dates (fun t => x t c) dates ⟨none, old⟩ =
        some ⟨none, some file⟩ ∧
      (Gridded.run none roi fill write (dates.map fun t => (t, x t)) ⟨none, 0⟩).map
          (fun r => (r.1, r.2 c)) =
        (file.filter fun r => decide (r.1 ∈ write)).map fun r => (write.idxOf r.1, r.2.join) := by
  refine ⟨_, PointOutput.C44_complete fmt pwrite dates (fun t => x t c) w0 hp hd hend hfirst hmem old, ?_⟩
  rw [Gridded.C45_instantaneous]
  rw [List.filter_map, List.filter_map, List.map_map, List.map_map, List.map_map]
  rfl

/-- Four steps, intervals of two steps, point output in chunks ending at 3 and 6. -/
example : ∃ file, PointOutput.run .csv [3, 6] [1, 2, 3, 4] (fun t : ℤ => some (t : ℚ)) [1, 2, 3, 4]
      ⟨none, none⟩ = some ⟨none, some file⟩ ∧
    (Gridded.run (some .sum) (fun _ : Unit => true) (none : Option ℚ) [2, 4]
      (([1, 2, 3, 4] : List ℤ).map fun t => (t, fun _ => some (t : ℚ))) ⟨none, 0⟩).length = 2 ∧
    ∀ k : ℕ, k < 2 → ∃ g, (Gridded.run (some .sum) (fun _ : Unit => true) (none : Option ℚ) [2, 4]
      (([1, 2, 3, 4] : List ℤ).map fun t => (t, fun _ => some (t : ℚ))) ⟨none, 0⟩)[k]? = some (k, g) ∧
      g () = aggregated .sum ((file.filter fun r =>
          decide ((1 : ℤ) + (k * (2 : ℕ) : ℤ) * 1 ≤ r.1 ∧ r.1 < 1 + ((k + 1) * (2 : ℕ) : ℤ) * 1)).map
            fun r => r.2.join) :=
  C112_aggregated .sum (fun _ : Unit => true) none 1 1 4 2 (by norm_num) (by norm_num) (by norm_num)
    (fun t _ => some (t : ℚ)) () rfl [2, 4] (by decide +kernel) [1, 2, 3, 4] (by decide) .csv [3, 6] 3
    (by decide) (by decide) rfl (by decide) none

end Verif.OutputsAgree
