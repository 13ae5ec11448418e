import Verif.Model.ShadowGrid
import Verif.Props.GridGeom
import Mathlib.Tactic

/-!
# C98: shadow resampling and stations outside the grid
-/

namespace Verif.ShadowGrid

open Verif.Stations Verif.GridGeom

theorem stride_getElem? {α : Type*} (f : ℕ) (hf : 0 < f) (l : List α) (k : ℕ) : (stride f l)[k]? = l[k * f]? := by
  induction k generalizing l with
  | zero => cases l <;> simp [stride]
  | succ k ih =>
    cases l with
    | nil => simp [stride]
    | cons x xs =>
      rw [stride, List.getElem?_cons_succ, ih, List.getElem?_drop]
      have : (k + 1) * f = (f - 1 + k * f) + 1 := by
        rw [Nat.succ_mul]; omega
      rw [this, List.getElem?_cons_succ]

theorem stride_length {α : Type*} (f : ℕ) (hf : 0 < f) (l : List α) (k : ℕ) :
    k < (stride f l).length ↔ k * f < l.length := by
  rw [← not_le, ← not_le, ← List.getElem?_eq_none_iff, stride_getElem? f hf, List.getElem?_eq_none_iff]

theorem repeatEach_getElem? {α : Type*} (f : ℕ) (hf : 0 < f) (l : List α) (i : ℕ) :
    (repeatEach f l)[i]? = l[i / f]? := by
  unfold repeatEach
  induction l generalizing i with
  | nil => simp
  | cons x xs ih =>
    rw [List.flatMap_cons]
    by_cases h : i < f
    · rw [List.getElem?_append_left (by simpa using h), Nat.div_eq_of_lt h]
      simp [h]
    · rw [List.getElem?_append_right (by simp; omega), List.length_replicate, ih]
      have : i / f = (i - f) / f + 1 := by
        rw [← Nat.add_div_right _ hf]
        congr 1; omega
      rw [this, List.getElem?_cons_succ]

/-- Specification: an array of `r` rows with `c` columns. -/
def Shape {α : Type*} (a : List (List α)) (r c : ℕ) : Prop := a.length = r ∧ ∀ row ∈ a, row.length = c

/-- Specification: the element of an array. -/
def at2 {α : Type*} (a : List (List α)) (i j : ℕ) : Option α := (a[i]?).bind fun row => row[j]?

/-- Specification: number of coarse cells that cover `n` cells. -/
def coarse (n f : ℕ) : ℕ := (n + f - 1) / f

theorem lt_coarse (n f k : ℕ) (hf : 0 < f) : k < coarse n f ↔ k * f < n := by
  unfold coarse
  rw [Nat.lt_iff_add_one_le, Nat.le_div_iff_mul_le hf, Nat.succ_mul]
  omega

theorem length_of_lt {a b : ℕ} (h : ∀ k, k < a ↔ k < b) : a = b := by
  have h1 := h a
  have h2 := h b
  omega

theorem downsample_shape {α : Type*} (f : ℕ) (hf : 0 < f) (a : List (List α)) (r c : ℕ) (h : Shape a r c) :
    Shape (downsample f a) (coarse r f) (coarse c f) := by
  constructor
  · rw [downsample, List.length_map]
    apply length_of_lt
    intro k
    rw [stride_length f hf, lt_coarse _ _ _ hf, h.1]
  · intro row hrow
    obtain ⟨r0, hr0, rfl⟩ := List.mem_map.mp hrow
    obtain ⟨k, hk⟩ := List.mem_iff_getElem?.mp hr0
    rw [stride_getElem? f hf] at hk
    have := h.2 r0 (List.mem_of_getElem? hk)
    apply length_of_lt
    intro k
    rw [stride_length f hf, lt_coarse _ _ _ hf, this]

theorem downsample_at {α : Type*} (f : ℕ) (hf : 0 < f) (a : List (List α)) (i j : ℕ) :
    at2 (downsample f a) i j = at2 a (i * f) (j * f) := by
  unfold at2 downsample
  rw [List.getElem?_map, stride_getElem? f hf]
  cases a[i * f]? with
  | none => rfl
  | some row => simp [stride_getElem? f hf]

theorem repeatEach_length {α : Type*} (f : ℕ) (l : List α) : (repeatEach f l).length = l.length * f := by
  induction l with
  | nil => simp [repeatEach]
  | cons x xs ih =>
    unfold repeatEach at ih ⊢
    rw [List.flatMap_cons, List.length_append, ih]
    simp; ring

theorem coarse_mul (n f : ℕ) (hf : 0 < f) : n ≤ coarse n f * f := by
  by_contra h
  push Not at h
  have := (lt_coarse n f (coarse n f) hf).mpr h
  omega

theorem upsample_spec {α : Type*} (f : ℕ) (hf : 0 < f) (a : List (List α)) (r c : ℕ)
    (h : Shape a (coarse r f) (coarse c f)) :
    Shape (upsample f r c a) r c ∧ ∀ i j, i < r → j < c → at2 (upsample f r c a) i j = at2 a (i / f) (j / f) := by
  obtain ⟨h1, h2⟩ := h
  obtain ⟨b, hb⟩ : ∃ b, (repeatEach f a).map (repeatEach f) = b := ⟨_, rfl⟩
  have hlen : b.length = coarse r f * f := by rw [← hb, List.length_map, repeatEach_length, h1]
  have hle : r ≤ b.length := by rw [hlen]; exact coarse_mul r f hf
  have hrow : ∀ row ∈ b, row.length = coarse c f * f := by
    intro row hr
    rw [← hb] at hr
    obtain ⟨r0, hr0, rfl⟩ := List.mem_map.mp hr
    rw [repeatEach_length, h2 r0]
    unfold repeatEach at hr0
    obtain ⟨q, hq, hq'⟩ := List.mem_flatMap.mp hr0
    rw [List.eq_of_mem_replicate hq']
    exact hq
  have hat : ∀ i j, at2 b i j = at2 a (i / f) (j / f) := by
    intro i j
    unfold at2
    rw [← hb, List.getElem?_map, repeatEach_getElem? f hf]
    cases a[i / f]? with
    | none => rfl
    | some row => simp [repeatEach_getElem? f hf]
  have hb1 : (if r < b.length then b.take r else b) = b.take r := by
    split_ifs with h
    · rfl
    · rw [List.take_of_length_le (by omega)]
  have hb2 : (if ∃ q ∈ b.take r, c < q.length then (b.take r).map fun q => q.take c else b.take r) =
      (b.take r).map fun q => q.take c := by
    split_ifs with h
    · rfl
    · push Not at h
      symm
      calc (b.take r).map (fun q => q.take c) = (b.take r).map id := by
            apply List.map_congr_left
            intro q hq
            exact List.take_of_length_le (h q hq)
        _ = b.take r := List.map_id _
  have hup : upsample f r c a = (b.take r).map fun q => q.take c := by
    simp only [upsample, hb]
    rw [hb1, hb2]
  rw [hup]
  refine ⟨⟨?_, ?_⟩, ?_⟩
  · rw [List.length_map, List.length_take]; omega
  · intro row hr
    obtain ⟨q, hq, rfl⟩ := List.mem_map.mp hr
    rw [List.length_take, hrow q (List.mem_of_mem_take hq)]
    have := coarse_mul c f hf
    omega
  · intro i j hi hj
    rw [← hat i j]
    unfold at2
    rw [List.getElem?_map, List.getElem?_take, if_pos hi]
    cases b[i]? with
    | none => rfl
    | some q => simp [List.getElem?_take, hj]

/-- **C98.** Shadows on a coarser grid: the result has the shape of the DEM, and each cell has the value that was
calculated for the coarse cell that contains it. The coarse DEM consists of every `f`-th cell, its resolution is `f`
times the original one. -/
theorem C98_resample {K α β : Type*} [Field K] (S : K → List (List α) → List (List β))
    (hS : ∀ res dem r c, Shape dem r c → Shape (S res dem) r c)
    (res : K) (f r c : ℕ) (hf : 1 < f) (dem : List (List α)) (hd : Shape dem r c) :
    Shape (shadowsFor S res f r c dem) r c ∧
    ∃ small : List (List α), Shape small (coarse r f) (coarse c f) ∧
      (∀ i j, at2 small i j = at2 dem (i * f) (j * f)) ∧
      ∀ i j, i < r → j < c → at2 (shadowsFor S res f r c dem) i j = at2 (S (f * res) small) (i / f) (j / f) := by
  have h0 : 0 < f := by omega
  have hs := downsample_shape f h0 dem r c hd
  obtain ⟨h1, h2⟩ := upsample_spec f h0 (S (res * f) (downsample f dem)) r c (hS _ _ _ _ hs)
  rw [shadowsFor, if_pos hf]
  refine ⟨h1, downsample f dem, hs, fun i j => downsample_at f h0 dem i j, fun i j hi hj => ?_⟩
  rw [mul_comm (f : K) res]
  exact h2 i j hi hj

/-- **C98.** A factor of one changes nothing. -/
theorem C98_one {K α β : Type*} [Field K] (S : K → List (List α) → List (List β)) (res : K) (r c : ℕ)
    (dem : List (List α)) : shadowsFor S res 1 r c dem = S res dem := by
  simp [shadowsFor]

section stations

variable {K : Type*} [Field K] [LinearOrder K] [IsStrictOrderedRing K] [FloorRing K]

theorem extCell_eq (res : K) (hres : 0 < res) (g ext : Geom K) (hg : g.res = res) (off : ℤ × ℤ)
    (h : extOffsets res g ext = some off) (x y : K) : extCell g off x y = rowcol ext x y := by
  obtain ⟨r, c⟩ := off
  obtain ⟨h1, e1, e2, -⟩ := (C87_accepts res hres g ext hg r c).mp h
  simp only [extCell, rowcol, hg, h1]
  have hne := hres.ne'
  have a : (ext.yoff - y) / res = (g.yoff - y) / res + (r : K) := by rw [e1]; field_simp; ring
  have b : (x - ext.xoff) / res = (x - g.xoff) / res + (c : K) := by rw [e2]; field_simp; ring
  rw [a, b, Int.floor_add_intCast, Int.floor_add_intCast]

/-- **C98.** The clear-sky irradiance is calculated for exactly those stations that lie in the extended grid but not in
the model grid, and for each of them in the cell of the extended grid that contains it. -/
theorem C98_station (res : K) (hres : 0 < res) (g ext : Geom K) (hg : g.res = res) (off : ℤ × ℤ)
    (h : extOffsets res g ext = some off) (x y : K) :
    (extSelected g ext off x y = true ↔
      (∃ i j, i < ext.rows ∧ j < ext.cols ∧ InCell ext i j x y) ∧
      ¬ ∃ i j, i < g.rows ∧ j < g.cols ∧ InCell g i j x y) ∧
    (extSelected g ext off x y = true →
      ∃ i j : ℕ, extCell g off x y = (↑i, ↑j) ∧ i < ext.rows ∧ j < ext.cols ∧ InCell ext i j x y) := by
  have hr : ext.res = res := by
    obtain ⟨r, c⟩ := off
    exact ((C87_accepts res hres g ext hg r c).mp h).1
  have key : ∀ q : Geom K, 0 < q.res → (withinExtent q x y = true ↔
      ∃ i j, i < q.rows ∧ j < q.cols ∧ InCell q i j x y) := by
    intro q hq
    constructor
    · intro hw
      have hw' := hw
      simp only [withinExtent, Bool.and_eq_true, decide_eq_true_eq] at hw'
      exact ⟨_, _, by omega, by omega, (inCell_iff q hq x y _ _ hw).mpr ⟨rfl, rfl⟩⟩
    · rintro ⟨i, j, hi, hj, h1, h2, h3, h4⟩
      have hcol : (rowcol q x y).2 = j := by
        simp only [rowcol]
        rw [Int.floor_eq_iff, le_div_iff₀ hq, div_lt_iff₀ hq]
        push_cast
        constructor <;> linarith
      have hrow : (rowcol q x y).1 = i := by
        simp only [rowcol]
        rw [Int.floor_eq_iff, le_div_iff₀ hq, div_lt_iff₀ hq]
        push_cast
        constructor <;> linarith
      simp only [withinExtent, Bool.and_eq_true, decide_eq_true_eq, hcol, hrow]
      omega
  have hsel : extSelected g ext off x y = true ↔ withinExtent ext x y = true ∧ ¬ withinExtent g x y = true := by
    simp only [extSelected, extCell_eq res hres g ext hg off h x y, Bool.and_eq_true, decide_eq_true_eq,
      Bool.not_eq_true', withinExtent]
    constructor
    · rintro ⟨⟨⟨⟨a, b⟩, c⟩, d⟩, e⟩
      refine ⟨by omega, ?_⟩
      simp only [Bool.and_eq_false_iff, decide_eq_false_iff_not] at e
      omega
    · rintro ⟨a, e⟩
      refine ⟨by omega, ?_⟩
      simp only [Bool.and_eq_false_iff, decide_eq_false_iff_not]
      omega
  constructor
  · rw [hsel, key ext (by rw [hr]; exact hres), key g (by rw [hg]; exact hres)]
  · intro hs
    have hw := (hsel.mp hs).1
    have hw' := hw
    simp only [withinExtent, Bool.and_eq_true, decide_eq_true_eq] at hw'
    refine ⟨(rowcol ext x y).1.toNat, (rowcol ext x y).2.toNat, ?_, by omega, by omega,
      (inCell_iff ext (by rw [hr]; exact hres) x y _ _ hw).mpr ⟨rfl, rfl⟩⟩
    rw [extCell_eq res hres g ext hg off h x y]
    ext
    · simp only; omega
    · simp only; omega

end stations

-- C98_resample: a DEM of 3 x 5 cells and a factor of two.
example : Shape [[1, 2, 3, 4, 5], [6, 7, 8, 9, 10], [11, 12, 13, 14, 15]] 3 5 ∧
    downsample 2 [[1, 2, 3, 4, 5], [6, 7, 8, 9, 10], [11, 12, 13, 14, 15]] = [[1, 3, 5], [11, 13, 15]] ∧
    upsample 2 3 5 [[1, 3, 5], [11, 13, 15]] = [[1, 1, 3, 3, 5], [1, 1, 3, 3, 5], [11, 11, 13, 13, 15]] := by
  refine ⟨⟨rfl, by simp⟩, ?_, ?_⟩
  · simp [downsample, stride]
  · simp [upsample, repeatEach, List.replicate]

-- C98_station: a station left of the model grid.
example : extOffsets (1 : ℚ) ⟨2, 5, 1, 3, 3⟩ ⟨0, 6, 1, 6, 6⟩ = some (1, 2) ∧
    extSelected (⟨2, 5, 1, 3, 3⟩ : Geom ℚ) ⟨0, 6, 1, 6, 6⟩ (1, 2) (1 / 2) 3 = true := by
  constructor
  · rw [C87_accepts 1 (by norm_num) _ _ rfl]
    norm_num
  · have e1 : ⌊(2 : ℚ)⌋ = 2 := by norm_num
    have e2 : ⌊(-(3 / 2) : ℚ)⌋ = -2 := by rw [Int.floor_eq_iff]; norm_num
    norm_num [extSelected, extCell, rowcol, withinExtent, e1, e2]

end Verif.ShadowGrid
