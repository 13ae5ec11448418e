import Verif.Model.RoiPixel
import Verif.Props.Grid
import Mathlib.Algebra.CharZero.Defs
import Mathlib.Tactic.FieldSimp
import Mathlib.Tactic.Ring
import Mathlib.Tactic.Linarith
import Mathlib.Tactic.NormNum

/-!
# C47: ROI-pixel layout
-/

set_option linter.unusedSectionVars false

namespace Verif.RoiPixel

open Verif.Grid

theorem foldl_set_zip {α : Type*} (off : ℕ) (field : List α) (roi : List Bool)
    (hl : roi.length = field.length) (g : List α) (hg : g.length = off + field.length) (i : ℕ) :
    (((flatnonzero off roi).zip (select field roi)).foldl (fun g iv => g.set iv.1 iv.2) g)[i]? =
      if off ≤ i ∧ roi[i - off]? = some true then field[i - off]? else g[i]? := by
  induction roi generalizing off field g with
  | nil => simp [flatnonzero]
  | cons b roi ih =>
    cases field with
    | nil => simp at hl
    | cons x field =>
      simp only [List.length_cons, Nat.add_right_cancel_iff] at hl
      simp only [List.length_cons] at hg
      have hshift : off + 1 ≤ i → i - off = (i - (off + 1)) + 1 := by omega
      cases b with
      | true =>
        simp only [flatnonzero, select, List.zip_cons_cons, List.foldl_cons]
        rw [ih (off + 1) field hl _ (by rw [List.length_set]; omega)]
        by_cases h1 : off + 1 ≤ i
        · rw [hshift h1]
          simp only [h1, true_and, List.getElem?_cons_succ]
          have h2 : off ≤ i := by omega
          simp only [h2, true_and]
          split_ifs
          · rfl
          · rw [List.getElem?_set_ne (by omega)]
        · simp only [h1, false_and, if_false]
          by_cases h2 : off ≤ i
          · have : i = off := by omega
            subst this
            simp [List.getElem?_set_self (show i < g.length by omega)]
          · rw [List.getElem?_set_ne (by omega), if_neg (by simp [h2])]
      | false =>
        simp only [flatnonzero, select]
        rw [ih (off + 1) field hl g (by omega)]
        by_cases h1 : off + 1 ≤ i
        · rw [hshift h1]
          have h2 : off ≤ i := by omega
          simp only [h1, h2, true_and, List.getElem?_cons_succ]
        · simp only [h1, false_and, if_false]
          by_cases h2 : off ≤ i
          · have : i = off := by omega
            subst this
            simp
          · rw [if_neg (by simp [h2])]

/-- **C47.** Round trip: the converted field has the shape of the grid, carries the original value in
every cell of the ROI and the fill value in all others. -/
theorem C47_round_trip {α : Type*} (nrows ncols : ℕ) (roi : List Bool) (field : List α) (fill : α)
    (hr : roi.length = nrows * ncols) (hf : field.length = nrows * ncols)
    (row col : ℕ) (hrow : row < nrows) (hcol : col < ncols) :
    cell ncols (fromPixels nrows ncols (pixelIdxs roi) fill (toPixels field roi)) row col =
      if cell ncols roi row col = some true then cell ncols field row col else some fill := by
  have hlt : row * ncols + col < nrows * ncols := by
    calc row * ncols + col < row * ncols + ncols := by omega
      _ = (row + 1) * ncols := by ring
      _ ≤ nrows * ncols := Nat.mul_le_mul_right _ hrow
  unfold cell fromPixels pixelIdxs toPixels
  rw [foldl_set_zip 0 field roi (by omega) _ (by simp [hf])]
  simp only [Nat.zero_le, true_and, Nat.sub_zero]
  split_ifs
  · rfl
  · rw [List.getElem?_replicate, if_pos hlt]

/-- **C47.** The number of stored values is that of the ROI cells, and each is stored under the
row-major index of its cell. -/
theorem C47_pixels {α : Type*} (roi : List Bool) (field : List α) (hl : roi.length = field.length)
    (k i : ℕ) (hk : (pixelIdxs roi)[k]? = some i) :
    (toPixels field roi).length = (roi.filter id).length ∧
    roi[i]? = some true ∧ (toPixels field roi)[k]? = field[i]? := by
  have key : ∀ off (k i : ℕ), (flatnonzero off roi)[k]? = some i →
      (select field roi).length = (roi.filter id).length ∧ off ≤ i ∧
      roi[i - off]? = some true ∧ (select field roi)[k]? = field[i - off]? := by
    clear hk
    induction roi generalizing field with
    | nil => intro off k i h; simp [flatnonzero] at h
    | cons b roi ih =>
      cases field with
      | nil => simp at hl
      | cons x field =>
        simp only [List.length_cons, Nat.add_right_cancel_iff] at hl
        have hlen : ∀ (roi : List Bool) (field : List α), roi.length = field.length →
            (select field roi).length = (roi.filter id).length := by
          intro roi
          induction roi with
          | nil => intro field h; cases field <;> simp [select] at h ⊢
          | cons b roi ih =>
            intro field h
            cases field with
            | nil => simp at h
            | cons y field => cases b <;> simp [select, ih field (by simpa using h)]
        intro off k i h
        refine ⟨hlen _ _ (by simp [hl]), ?_⟩
        cases b with
        | true =>
          simp only [flatnonzero, select] at h ⊢
          cases k with
          | zero =>
            simp only [List.getElem?_cons_zero, Option.some.injEq] at h
            subst h
            simp
          | succ k =>
            simp only [List.getElem?_cons_succ] at h ⊢
            obtain ⟨-, h1, h2, h3⟩ := ih field hl (off + 1) k i h
            rw [show i - off = (i - (off + 1)) + 1 by omega]
            exact ⟨by omega, by simpa using h2, by simpa using h3⟩
        | false =>
          simp only [flatnonzero, select] at h ⊢
          obtain ⟨-, h1, h2, h3⟩ := ih field hl (off + 1) k i h
          rw [show i - off = (i - (off + 1)) + 1 by omega]
          exact ⟨by omega, by simpa using h2, by simpa using h3⟩
  obtain ⟨h1, -, h2, h3⟩ := key 0 k i hk
  exact ⟨h1, by simpa using h2, by simpa [toPixels] using h3⟩

/-- **C47.** The transposition puts the axes where the labels of the result say they are, for any
number of dimensions and position of the pixel axis. -/
theorem C47_axes {α : Type*} (dims : List α) (axis : ℕ) (y x : α) (h : axis < dims.length) :
    transposeDims (fullDims dims axis y x) (targetOrder axis dims.length) =
      (newDims dims axis y x).map some := by
  unfold transposeDims fullDims targetOrder newDims
  have hlen : (dims.eraseIdx axis).length = dims.length - 1 := List.length_eraseIdx_of_lt h
  apply List.ext_getElem?
  intro i
  rw [List.getElem?_map, List.getElem?_map]
  by_cases h1 : i < axis
  · rw [List.getElem?_append_left (by simp; omega), List.getElem?_append_left (by simp; omega),
      List.getElem?_range h1, List.getElem?_append_left (by simp; omega),
      List.getElem?_append_left (by simp; omega), List.getElem?_take_of_lt h1]
    simp only [Option.map_some]
    rw [List.getElem?_append_left (by omega), List.getElem?_eraseIdx_of_lt h1,
      List.getElem?_eq_getElem (by omega)]
    rfl
  · by_cases h2 : i = axis
    · subst h2
      rw [List.getElem?_append_left (by simp), List.getElem?_append_right (by simp),
        List.getElem?_append_left (by simp; omega), List.getElem?_append_right (by simp)]
      simp [hlen]
      rw [Nat.min_eq_left (by omega)]
      simp
    · by_cases h3 : i = axis + 1
      · subst h3
        rw [List.getElem?_append_left (by simp), List.getElem?_append_right (by simp),
          List.getElem?_append_left (by simp; omega), List.getElem?_append_right (by simp)]
        have e1 : axis + 1 - (List.range axis).length = 1 := by simp
        have e2 : axis + 1 - (dims.take axis).length = 1 := by simp; omega
        rw [e1, e2]
        simp only [List.getElem?_cons_succ, List.getElem?_cons_zero, Option.map_some]
        rw [List.getElem?_append_right (by omega), hlen]
        have : dims.length - (dims.length - 1) = 1 := by omega
        rw [this]
        rfl
      · rw [List.getElem?_append_right (by simp; omega), List.getElem?_append_right (by simp; omega)]
        have e1 : i - (List.range axis ++ [dims.length - 1, dims.length]).length = i - axis - 2 := by
          simp; omega
        have e2 : i - (dims.take axis ++ [y, x]).length = i - axis - 2 := by simp; omega
        rw [e1, e2, List.getElem?_drop]
        by_cases h4 : i - axis - 2 < dims.length - 1 - axis
        · rw [List.getElem?_range' h4]
          simp only [Option.map_some]
          rw [List.getElem?_append_left (by omega), List.getElem?_eraseIdx_of_ge (by omega)]
          rw [show axis + 1 * (i - axis - 2) + 1 = axis + 1 + (i - axis - 2) by omega,
            List.getElem?_eq_getElem (by omega)]
          rfl
        · rw [List.getElem?_eq_none (by simp; omega), List.getElem?_eq_none (by omega)]
          rfl

section coords

variable {K : Type*} [Field K] [CharZero K]

/-- **C47.** The reconstructed coordinates are the cell centres of the model grid. -/
theorem C47_coordinates (xoff yoff res : K) (rows cols row col : ℕ) (hr : row < rows)
    (hc : col < cols) :
    convX xoff res col = gridX xoff res cols col ∧ convY yoff res rows row = gridY yoff res rows row ∧
    convX xoff res col = xoff + ((col : K) + 1 / 2) * res ∧
    convY yoff res rows row = yoff - ((row : K) + 1 / 2) * res := by
  have aux : ∀ n : ℕ, n ≠ 1 → 0 < n → (n : K) - 1 ≠ 0 := by
    intro n h1 h0
    rw [sub_ne_zero]
    exact_mod_cast h1
  refine ⟨?_, ?_, by unfold convX; ring, by unfold convY; ring⟩
  · unfold convX gridX linspace
    split_ifs with h
    · have : col = 0 := by omega
      subst this
      push_cast
      ring
    · have := aux cols h (by omega)
      field_simp
      ring
  · unfold convY gridY linspace
    split_ifs with h
    · have : row = 0 := by omega
      subst this
      push_cast
      ring
    · have := aux rows h (by omega)
      field_simp
      ring

end coords

/-- A 2 x 3 grid with three ROI cells. -/
example : fromPixels 2 3 (pixelIdxs [true, false, false, false, true, true]) (-1 : ℤ)
    (toPixels [10, 11, 12, 13, 14, 15] [true, false, false, false, true, true]) =
    [10, -1, -1, -1, 14, 15] := by decide

/-- A variable with a layer axis, and one whose pixel axis is not the last. -/
example : transposeDims (fullDims ["time", "layer", "pixel"] 2 "y" "x") (targetOrder 2 3) =
      ["time", "layer", "y", "x"].map some ∧
    transposeDims (fullDims ["pixel", "time"] 0 "y" "x") (targetOrder 0 2) =
      ["y", "x", "time"].map some := by decide

end Verif.RoiPixel
