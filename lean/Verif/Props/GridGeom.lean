import Verif.Model.GridGeom
import Verif.Props.Stations
import Verif.Props.Grid
import Mathlib.Tactic

/-!
# C87, C88: grid geometry
-/

set_option linter.unusedSectionVars false

namespace Verif.GridGeom

open Verif.Grid Verif.Stations

variable {K : Type*} [Field K] [LinearOrder K] [IsStrictOrderedRing K]

/-! ## C88 -/

/-- **C88.** The geometry of a raster file is accepted exactly if its pixels are squares and it is oriented
left to right and top to bottom. -/
theorem C88_metadata (h : Header K) :
    (∃ g, readMetadata h = some g) ↔ h.e = -h.a ∧ 0 ≤ h.a := by
  unfold readMetadata
  constructor
  · rintro ⟨g, hg⟩
    split_ifs at hg with hc
    refine ⟨by rw [hc.1]; ring, ?_⟩
    rw [hc.1, hc.2]; exact abs_nonneg _
  · rintro ⟨h1, h2⟩
    rw [if_pos ⟨by rw [h1]; ring, by rw [h1, abs_of_nonneg h2]; ring⟩]
    exact ⟨_, rfl⟩

/-- **C88.** The model starts with a grid exactly if the pixels of the elevation model are squares with the configured
resolution, and then the grid has the shape, resolution and upper left corner of the file. -/
theorem C88_grid (cfgRes : K) (h : Header K) (g : Geom K) :
    initGrid cfgRes h = some g ↔
      h.a = cfgRes ∧ h.e = -cfgRes ∧ 0 ≤ cfgRes ∧ g = ⟨h.c, h.f, cfgRes, h.rows, h.cols⟩ := by
  unfold initGrid readMetadata
  constructor
  · intro hg
    split at hg
    · exact absurd hg (by simp)
    · rename_i m hm
      split_ifs at hm hg with h1 h2
      rw [Option.some.injEq] at hm hg
      subst hm
      subst hg
      simp only at h2
      subst h2
      exact ⟨rfl, by rw [h1.1]; ring, by rw [h1.1, h1.2]; exact abs_nonneg _, rfl⟩
  · rintro ⟨rfl, h1, h2, rfl⟩
    rw [if_pos ⟨by rw [h1]; ring, by rw [h1, abs_of_nonneg h2]; ring⟩]
    simp

example : initGrid (50 : ℚ) ⟨2, 3, 50, 0, -50, 100⟩ = some ⟨0, 100, 50, 2, 3⟩ := by
  rw [C88_grid]; norm_num

theorem linspace_get (start d : K) (n i : ℕ) (hi : i < n) :
    (linspace start (start + ((n - 1 : ℕ) : K) * d) n)[i]? = some (start + i * d) := by
  unfold linspace
  rw [List.getElem?_map, List.getElem?_range hi]
  simp only [Option.map_some, Option.some.injEq]
  split_ifs with h1
  · have : i = 0 := by omega
    simp [this]
  · have hne : ((n - 1 : ℕ) : K) ≠ 0 := by
      rw [Nat.cast_ne_zero]; omega
    congr 2
    rw [add_sub_cancel_left, mul_div_cancel_left₀ _ hne]

/-- **C88.** The coordinates of the grid points are those of the cell centres. -/
theorem C88_centres (g : Geom K) :
    (xs g).length = g.cols ∧ (ys g).length = g.rows ∧
    (∀ j : ℕ, j < g.cols → (xs g)[j]? = some (g.xoff + j * g.res + g.res / 2)) ∧
    ∀ i : ℕ, i < g.rows → (ys g)[i]? = some (g.yoff - i * g.res - g.res / 2) := by
  refine ⟨by simp [xs, linspace], by simp [ys, linspace], ?_, ?_⟩
  · intro j hj
    have := linspace_get (centreX g 0) g.res g.cols j hj
    have e : centreX g 0 + ((g.cols - 1 : ℕ) : K) * g.res = centreX g ((g.cols - 1 : ℕ) : K) := by
      unfold centreX; ring
    rw [e] at this
    unfold xs
    rw [this]
    unfold centreX
    congr 1; ring
  · intro i hi
    have := linspace_get (centreY g 0) (-g.res) g.rows i hi
    have e : centreY g 0 + ((g.rows - 1 : ℕ) : K) * -g.res = centreY g ((g.rows - 1 : ℕ) : K) := by
      unfold centreY; ring
    rw [e] at this
    unfold ys
    rw [this]
    unfold centreY
    congr 1; ring

theorem flat_length {α : Type*} (g : Geom K) (F : ℕ → ℕ → α) :
    (flat g F).length = g.rows * g.cols := by
  simp [flat, List.length_flatMap]

theorem flat_get {α : Type*} (g : Geom K) (F : ℕ → ℕ → α) (i j : ℕ) (hi : i < g.rows)
    (hj : j < g.cols) : (flat g F)[i * g.cols + j]? = some (F i j) := by
  unfold flat
  have gen : ∀ (n off i : ℕ), i < n →
      ((List.range' off n).flatMap fun i => (List.range g.cols).map (F i))[i * g.cols + j]? =
        some (F (off + i) j) := by
    intro n
    induction n with
    | zero => intro off i h; omega
    | succ n ih =>
      intro off i h
      rw [List.range'_succ, List.flatMap_cons]
      cases i with
      | zero =>
        rw [List.getElem?_append_left (by simpa using hj)]
        simp [hj]
      | succ i =>
        rw [List.getElem?_append_right (by simp; nlinarith)]
        have e : (i + 1) * g.cols + j - (List.map (F off) (List.range g.cols)).length =
            i * g.cols + j := by
          simp only [List.length_map, List.length_range]
          have : (i + 1) * g.cols = i * g.cols + g.cols := by ring
          omega
        rw [e, ih (off + 1) i (by omega)]
        congr 2; ring
  have := gen g.rows 0 i hi
  rw [← List.range_eq_range'] at this
  simpa using this

theorem select_get {α : Type*} (xs : List α) (bs : List Bool) (hl : xs.length = bs.length)
    (k : ℕ) (off m : ℕ) (hk : (flatnonzero off bs)[k]? = some m) :
    off ≤ m ∧ (select xs bs)[k]? = xs[m - off]? ∧ bs[m - off]? = some true := by
  induction bs generalizing xs off k with
  | nil => simp [flatnonzero] at hk
  | cons b bs ih =>
    cases xs with
    | nil => simp at hl
    | cons x xs =>
      have hl' : xs.length = bs.length := by simpa using hl
      cases b with
      | true =>
        simp only [flatnonzero] at hk
        cases k with
        | zero =>
          simp only [List.getElem?_cons_zero, Option.some.injEq] at hk
          subst hk
          simp [select]
        | succ k =>
          rw [List.getElem?_cons_succ] at hk
          obtain ⟨h1, h2, h3⟩ := ih xs hl' k (off + 1) hk
          have e : m - off = (m - (off + 1)) + 1 := by omega
          refine ⟨by omega, ?_, ?_⟩
          · simp only [select, List.getElem?_cons_succ]
            rw [h2, e, List.getElem?_cons_succ]
          · rw [e, List.getElem?_cons_succ, h3]
      | false =>
        simp only [flatnonzero] at hk
        obtain ⟨h1, h2, h3⟩ := ih xs hl' k (off + 1) hk
        have e : m - off = (m - (off + 1)) + 1 := by omega
        refine ⟨by omega, ?_, ?_⟩
        · simp only [select]
          rw [h2, e, List.getElem?_cons_succ]
        · rw [e, List.getElem?_cons_succ, h3]

theorem select_length {α : Type*} (xs : List α) (bs : List Bool) (hl : xs.length = bs.length) :
    (select xs bs).length = bs.count true := by
  induction bs generalizing xs with
  | nil => cases xs <;> simp [select]
  | cons b bs ih =>
    cases xs with
    | nil => simp at hl
    | cons x xs =>
      have hl' : xs.length = bs.length := by simpa using hl
      cases b <;> simp [select, ih xs hl']

/-- **C88.** The three ROI arrays have the same length, and their `k`-th entries belong to the same pixel: the
flat index is `row * cols + col`, the pixel is in the ROI, and the coordinates are those of its centre. -/
theorem C88_roi (g : Geom K) (roi : ℕ → ℕ → Bool) :
    (roiPoints g roi).length = (roiIdxsFlat g roi).length ∧
    (roiIdxs g roi).length = (roiIdxsFlat g roi).length ∧
    ∀ (k : ℕ) m, (roiIdxsFlat g roi)[k]? = some m →
      ∃ i j, i < g.rows ∧ j < g.cols ∧ m = i * g.cols + j ∧ roi i j = true ∧
        (roiIdxs g roi)[k]? = some (i, j) ∧
        (roiPoints g roi)[k]? =
          some (g.xoff + j * g.res + g.res / 2, g.yoff - i * g.res - g.res / 2) := by
  refine ⟨?_, ?_, ?_⟩
  · unfold roiPoints roiIdxsFlat
    rw [select_length _ _ (by rw [flat_length, flat_length]), flatnonzero_length]
  · unfold roiIdxs roiIdxsFlat
    rw [select_length _ _ (by rw [flat_length, flat_length]), flatnonzero_length]
  · intro k m hk
    obtain ⟨-, h2, h3⟩ := select_get (flat g fun i j => (i, j)) (flat g roi)
      (by rw [flat_length, flat_length]) k 0 m hk
    obtain ⟨-, h4, -⟩ := select_get (flat g fun i j => ((xs g).getD j 0, (ys g).getD i 0)) (flat g roi)
      (by rw [flat_length, flat_length]) k 0 m hk
    rw [Nat.sub_zero] at h2 h3 h4
    have hm : m < g.rows * g.cols := by
      by_contra hge
      rw [List.getElem?_eq_none (by rw [flat_length]; omega)] at h3
      simp at h3
    have hc : 0 < g.cols := by
      rcases Nat.eq_zero_or_pos g.cols with h | h
      · rw [h] at hm; simp at hm
      · exact h
    have hi : m / g.cols < g.rows := Nat.div_lt_of_lt_mul (by rwa [mul_comm])
    have hj : m % g.cols < g.cols := Nat.mod_lt _ hc
    have hme : m = m / g.cols * g.cols + m % g.cols := by
      rw [mul_comm]; exact (Nat.div_add_mod m g.cols).symm
    obtain ⟨-, -, hx, hy⟩ := C88_centres g
    refine ⟨m / g.cols, m % g.cols, hi, hj, hme, ?_, ?_, ?_⟩
    · rw [hme, flat_get g roi _ _ hi hj] at h3
      simpa using h3
    · unfold roiIdxs
      rw [h2]
      conv_lhs => rw [hme]
      rw [flat_get g _ _ _ hi hj]
    · unfold roiPoints
      rw [h4]
      conv_lhs => rw [hme]
      rw [flat_get g _ _ _ hi hj, List.getD_eq_getElem?_getD, List.getD_eq_getElem?_getD,
        hx _ hj, hy _ hi]
      rfl

/-- **C88.** The flat ROI indices ascend (row-major order) and comprise all ROI pixels. -/
theorem C88_roi_complete (g : Geom K) (roi : ℕ → ℕ → Bool) :
    (roiIdxsFlat g roi).Pairwise (· < ·) ∧
    ∀ i j, i < g.rows → j < g.cols → (roi i j = true ↔ (i, j) ∈ roiIdxs g roi) := by
  obtain ⟨h1, h2, -⟩ := C05_roi_indices (flat g roi)
  refine ⟨h1, fun i j hi hj => ?_⟩
  unfold roiIdxs
  rw [mem_select]
  constructor
  · intro h
    exact ⟨i * g.cols + j, flat_get g _ i j hi hj, by rw [flat_get g roi i j hi hj, h]⟩
  · rintro ⟨m, ha, hb⟩
    have hm : m < g.rows * g.cols := by
      by_contra hge
      rw [List.getElem?_eq_none (by rw [flat_length]; omega)] at hb
      simp at hb
    have hc : 0 < g.cols := by omega
    have hi' : m / g.cols < g.rows := Nat.div_lt_of_lt_mul (by rwa [mul_comm])
    have hj' : m % g.cols < g.cols := Nat.mod_lt _ hc
    have hme : m = m / g.cols * g.cols + m % g.cols := by
      rw [mul_comm]; exact (Nat.div_add_mod m g.cols).symm
    rw [hme, flat_get g _ _ _ hi' hj'] at ha hb
    simp only [Option.some.injEq, Prod.mk.injEq] at ha hb
    rw [← ha.1, ← ha.2, hb]

/-- **C88.** A raster is read exactly if its header has the geometry of the grid; its nodata pixels get the
fill value and all others their value. -/
theorem C88_raster {α : Type*} (g : Geom K) (hg : 0 ≤ g.res) (h : Header K) (nodata : Option K)
    (cast : K → α) (fill : α) (cells : ℕ → ℕ → K) :
    (readRaster g h nodata cast fill cells = none ↔
      ¬ (h = ⟨g.rows, g.cols, g.res, g.xoff, -g.res, g.yoff⟩)) ∧
    ∀ out, readRaster g h nodata cast fill cells = some out → ∀ i j,
      (nodata = some (cells i j) → out i j = fill) ∧
      (nodata ≠ some (cells i j) → out i j = cast (cells i j)) := by
  obtain ⟨rows, cols, a, c, e, f⟩ := h
  constructor
  · unfold readRaster readMetadata
    simp only [Header.mk.injEq]
    by_cases hc : a = -e ∧ -e = |a|
    · rw [if_pos hc]
      simp only
      split_ifs with hd
      · simp only [reduceCtorEq, false_iff, not_not]
        refine ⟨hd.1, hd.2.1, hd.2.2.1, hd.2.2.2.1, ?_, hd.2.2.2.2⟩
        rw [← hd.2.2.1, hc.1]; ring
      · simp only [true_iff]
        rintro ⟨h1, h2, h3, h4, h5, h6⟩
        exact hd ⟨h1, h2, h3, h4, h6⟩
    · rw [if_neg hc]
      simp only [true_iff]
      rintro ⟨h1, h2, h3, h4, h5, h6⟩
      refine hc ⟨by rw [h3, h5]; ring, ?_⟩
      rw [h5, h3, abs_of_nonneg hg]; ring
  · intro out ho i j
    unfold readRaster at ho
    split at ho
    · simp at ho
    · split_ifs at ho
      simp only [Option.some.injEq] at ho
      rw [← ho]
      constructor
      · intro hn; simp [masked, hn]
      · intro hn
        have : masked nodata (cells i j) = false := by simpa [masked] using hn
        simp [this]

/-- **C88.** Pixels without elevation and nodata pixels of the ROI file are outside the ROI; all other non-zero
pixels of the ROI file are in it. -/
theorem C88_roi_nodata (g : Geom K) (hd hr : Header K) (nd nr : Option K)
    (demCells roiCells : ℕ → ℕ → K) (dem : ℕ → ℕ → Option K) (roi : ℕ → ℕ → Bool)
    (h1 : readRaster g hd nd some none demCells = some dem)
    (h2 : readRaster g hr nr (fun v => decide (v ≠ 0)) false roiCells = some roi) (i j : ℕ) :
    excludeNan dem roi i j = true ↔
      nd ≠ some (demCells i j) ∧ nr ≠ some (roiCells i j) ∧ roiCells i j ≠ 0 := by
  have a : dem i j = if nd = some (demCells i j) then none else some (demCells i j) := by
    unfold readRaster at h1
    split at h1
    · simp at h1
    · split_ifs at h1
      simp only [Option.some.injEq] at h1
      rw [← h1]; simp [masked]
  have b : roi i j = if nr = some (roiCells i j) then false else decide (roiCells i j ≠ 0) := by
    unfold readRaster at h2
    split at h2
    · simp at h2
    · split_ifs at h2
      simp only [Option.some.injEq] at h2
      rw [← h2]; simp [masked]
  unfold excludeNan
  rw [a, b]
  by_cases c1 : nd = some (demCells i j) <;> by_cases c2 : nr = some (roiCells i j) <;>
    by_cases c3 : roiCells i j = 0 <;> simp [c1, c2, c3]

section ext

variable [FloorRing K]

/-- **C88.** Looking up the cell of a grid point returns that cell, and all grid points are within the grid
extent. -/
theorem C88_lookup (g : Geom K) (hres : 0 < g.res) (i j : ℕ) (hi : i < g.rows) (hj : j < g.cols)
    (x y : K) (hx : (xs g)[j]? = some x) (hy : (ys g)[i]? = some y) :
    rowcol g x y = ((i : ℤ), (j : ℤ)) ∧ withinExtent g x y = true ∧ InCell g i j x y := by
  obtain ⟨-, -, h1, h2⟩ := C88_centres g
  rw [h1 j hj, Option.some.injEq] at hx
  rw [h2 i hi, Option.some.injEq] at hy
  have hin : InCell g i j x y := by
    rw [← hx, ← hy]
    unfold InCell
    refine ⟨?_, ?_, ?_, ?_⟩ <;> linarith
  have hi' : (i : K) + 1 ≤ g.rows := by exact_mod_cast hi
  have hj' : (j : K) + 1 ≤ g.cols := by exact_mod_cast hj
  have hi0 : (0 : K) ≤ i := Nat.cast_nonneg _
  have hj0 : (0 : K) ≤ j := Nat.cast_nonneg _
  have hw : withinExtent g x y = true := by
    rw [C51_extent g hres]
    obtain ⟨a, b, c, d⟩ := hin
    refine ⟨?_, ?_, ?_, ?_⟩ <;> nlinarith
  refine ⟨?_, hw, hin⟩
  obtain ⟨e1, e2⟩ := (inCell_iff g hres x y i j hw).mp hin
  simp only [withinExtent, Bool.and_eq_true, decide_eq_true_eq] at hw
  ext1 <;> simp only <;> omega

/-! ## C87 -/

/-- **C87.** The extended grid is accepted exactly if it has the configured resolution, the model grid starts at
one of its cell corners, and all cells of the model grid are cells of the extended grid; the offsets are then
the numbers of cells in between. -/
theorem C87_accepts (res : K) (hres : 0 < res) (g ext : Geom K) (hg : g.res = res) (r c : ℤ) :
    extOffsets res g ext = some (r, c) ↔
      ext.res = res ∧ g.yoff = ext.yoff - r * res ∧ g.xoff = ext.xoff + c * res ∧
      0 ≤ r ∧ 0 ≤ c ∧ r + g.rows ≤ ext.rows ∧ c + g.cols ≤ ext.cols := by
  have cmp : ∀ (a b : ℤ), (a : K) * res ≤ b * res ↔ a ≤ b := by
    intro a b
    rw [mul_le_mul_iff_left₀ hres, Int.cast_le]
  simp only [extOffsets]
  constructor
  · intro h
    split_ifs at h with h1 h2 h3
    push Not at h1
    rw [h1, hg] at h3
    rw [h1] at h h2
    simp only [Option.some.injEq, Prod.mk.injEq] at h
    obtain ⟨i1, i2⟩ := h2
    unfold isInteger at i1 i2
    rw [decide_eq_true_eq] at i1 i2
    rw [h.1] at i1
    rw [h.2] at i2
    have e1 : g.yoff = ext.yoff - r * res := by
      rw [i1]; field_simp; ring
    have e2 : g.xoff = ext.xoff + c * res := by
      rw [i2]; field_simp; ring
    obtain ⟨a, b, cc, d⟩ := h3
    rw [e2] at a cc
    rw [e1] at b d
    have ca := cmp 0 c
    have cb := cmp 0 r
    have cd := cmp (r + g.rows) ext.rows
    have ce := cmp (c + g.cols) ext.cols
    push_cast at ca cb cd ce
    refine ⟨h1, e1, e2, cb.mp (by linarith), ca.mp (by linarith), cd.mp (by linarith),
      ce.mp (by linarith)⟩
  · rintro ⟨h1, e1, e2, h3, h4, h5, h6⟩
    have q1 : (g.yoff - ext.yoff) / -ext.res = (r : K) := by
      rw [h1, e1]; field_simp; ring
    have q2 : (g.xoff - ext.xoff) / ext.res = (c : K) := by
      rw [h1, e2]; field_simp; ring
    rw [q1, q2, if_neg (by simpa using h1), if_neg (by simp [isInteger])]
    have ca := (cmp 0 c).mpr h4
    have cb := (cmp 0 r).mpr h3
    have cd := (cmp (r + g.rows) ext.rows).mpr h5
    have ce := (cmp (c + g.cols) ext.cols).mpr h6
    push_cast at ca cb cd ce
    rw [if_neg]
    · simp
    · rw [not_not, h1, hg]
      refine ⟨?_, ?_, ?_, ?_⟩ <;> linarith

/-- **C87.** For an accepted extended grid every model pixel receives the value of the extended cell that covers
the same square; the index lies inside the extended grid. -/
theorem C87_same_cell {α : Type*} (res : K) (hres : 0 < res) (g ext : Geom K) (hg : g.res = res)
    (off : ℤ × ℤ) (h : extOffsets res g ext = some off) (dem : ℕ → ℕ → α) (i j : ℕ)
    (hi : i < g.rows) (hj : j < g.cols) :
    ∃ i' j', i' < ext.rows ∧ j' < ext.cols ∧ cutOut ext off dem i j = dem i' j' ∧
      (∀ x y, InCell g i j x y ↔ InCell ext i' j' x y) ∧
      (xs g)[j]? = (xs ext)[j']? ∧ (ys g)[i]? = (ys ext)[i']? := by
  obtain ⟨r, c⟩ := off
  obtain ⟨h1, e1, e2, h3, h4, h5, h6⟩ := (C87_accepts res hres g ext hg r c).mp h
  obtain ⟨r, rfl⟩ := Int.eq_ofNat_of_zero_le h3
  obtain ⟨c, rfl⟩ := Int.eq_ofNat_of_zero_le h4
  have hi' : r + i < ext.rows := by omega
  have hj' : c + j < ext.cols := by omega
  refine ⟨r + i, c + j, hi', hj', ?_, ?_, ?_, ?_⟩
  · have a : sliceIdx ext.rows (r : ℤ) i = ((r + i : ℕ) : ℤ) := by
      unfold sliceIdx; rw [if_neg (by omega)]; push_cast; ring
    have b : sliceIdx ext.cols (c : ℤ) j = ((c + j : ℕ) : ℤ) := by
      unfold sliceIdx; rw [if_neg (by omega)]; push_cast; ring
    unfold cutOut
    rw [a, b]; rfl
  · intro x y
    unfold InCell
    rw [e1, e2, hg, h1]
    push_cast
    constructor
    · rintro ⟨a, b, c, d⟩
      refine ⟨?_, ?_, ?_, ?_⟩ <;> linarith
    · rintro ⟨a, b, c, d⟩
      refine ⟨?_, ?_, ?_, ?_⟩ <;> linarith
  · rw [(C88_centres g).2.2.1 j hj, (C88_centres ext).2.2.1 _ hj', e2, hg, h1]
    push_cast
    congr 1; ring
  · rw [(C88_centres g).2.2.2 i hi, (C88_centres ext).2.2.2 _ hi', e1, hg, h1]
    push_cast
    congr 1; ring

/-- **C87.** Different model pixels receive different cells. -/
theorem C87_injective (res : K) (hres : 0 < res) (g ext : Geom K) (hg : g.res = res)
    (off : ℤ × ℤ) (h : extOffsets res g ext = some off) (i j i' j' : ℕ)
    (heq : cutOut ext off (fun a b => (a, b)) i j = cutOut ext off (fun a b => (a, b)) i' j') :
    i = i' ∧ j = j' := by
  obtain ⟨r, c⟩ := off
  obtain ⟨-, -, -, h3, h4, -⟩ := (C87_accepts res hres g ext hg r c).mp h
  simp only [cutOut, sliceIdx, Prod.mk.injEq] at heq
  rw [if_neg (by omega), if_neg (by omega)] at heq
  omega

end ext

-- C87: a 2 x 3 grid inside a 5 x 6 grid with 50 m cells; a shift by half a cell is rejected.
example : extOffsets (K := ℚ) 50 ⟨150, 900, 50, 2, 3⟩ ⟨100, 1000, 50, 5, 6⟩ = some (2, 1) := by
  rw [C87_accepts 50 (by norm_num) _ _ rfl]
  norm_num

example : extOffsets (K := ℚ) 50 ⟨175, 900, 50, 2, 3⟩ ⟨100, 1000, 50, 5, 6⟩ = none := by
  unfold extOffsets isInteger
  norm_num

-- C88: hypotheses of the reading theorems.
example : ∃ out, readRaster (K := ℚ) ⟨0, 100, 50, 2, 2⟩ ⟨2, 2, 50, 0, -50, 100⟩ (some (-9999)) some
    none (fun _ _ => -9999) = some out := by
  unfold readRaster readMetadata
  norm_num

example : xs (K := ℚ) ⟨10, 100, 50, 1, 3⟩ = [35, 85, 135] ∧ ys (K := ℚ) ⟨10, 100, 50, 1, 3⟩ = [75] := by
  simp [xs, ys, linspace, centreX, centreY, List.range_succ]
  try norm_num

end Verif.GridGeom
