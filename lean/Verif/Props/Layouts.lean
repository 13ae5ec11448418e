import Verif.Model.Layouts
import Verif.Props.RoiPixel

/-!
# C157: both layouts of the gridded output hold the same fields
-/

set_option linter.unusedSectionVars false

namespace Verif.Layouts

open Verif.Grid Verif.RoiPixel
open Verif.GridDataset (wrap FILL)

variable {K : Type*} [Field K] [LinearOrder K] [IsStrictOrderedRing K]

/-! ## Specification -/

/-- Specification: both layouts hold the same field. -/
def SameField (grid conv : List (Num K)) : Prop := conv = grid

/-- Specification: a cell that is recognised as having no data, undecoded (`_FillValue`) or decoded
(NaN). -/
def NoData (decode : Bool) (fill v : Num K) : Prop := if decode then v = .float none else v = fill

/-- Specification: cell `i` is outside of the region. -/
def Outside (roi : List Bool) (i : ℕ) : Prop := roi[i]? = some false

/-! ## Helper lemmas -/

theorem select_map {α β : Type*} (f : α → β) (l : List α) (roi : List Bool) :
    (select l roi).map f = select (l.map f) roi := by
  induction l generalizing roi with
  | nil => cases roi <;> rfl
  | cons a l ih =>
    cases roi with
    | nil => rfl
    | cons b roi => cases b <;> simp [select, ih]

/-- The converted field, cell by cell. -/
theorem converted_get (rnd : K → K) (decode : Bool) (nrows ncols : ℕ) (roi : List Bool)
    (fill : Num K) (field : List (Num K)) (hr : roi.length = nrows * ncols)
    (hf : field.length = nrows * ncols) (i : ℕ) (hi : i < nrows * ncols) :
    (converted rnd decode nrows ncols roi fill field)[i]? =
      if roi[i]? = some true then (gridLayout rnd decode field)[i]?
      else some (conversionFill decode fill) := by
  unfold converted pixelLayout toPixels
  rw [select_map]
  have h := foldl_set_zip 0 (field.map fun v => read decode (store rnd v)) roi
    (by rw [List.length_map, hr, hf]) (List.replicate (nrows * ncols) (conversionFill decode fill))
    (by simp [hf]) i
  unfold fromPixels pixelIdxs
  rw [h]
  simp only [Nat.zero_le, true_and, Nat.sub_zero, gridLayout]
  split_ifs
  · rfl
  · rw [List.getElem?_replicate, if_pos hi]

theorem converted_length (rnd : K → K) (decode : Bool) (nrows ncols : ℕ) (roi : List Bool)
    (fill : Num K) (field : List (Num K)) :
    (converted rnd decode nrows ncols roi fill field).length = nrows * ncols := by
  unfold converted fromPixels
  generalize (pixelIdxs roi).zip (pixelLayout rnd decode roi field) = l
  have : ∀ g : List (Num K), (l.foldl (fun g iv => g.set iv.1 iv.2) g).length = g.length := by
    induction l with
    | nil => intro g; rfl
    | cons a l ih => intro g; rw [List.foldl_cons, ih, List.length_set]
  rw [this, List.length_replicate]

theorem same_of_outside (rnd : K → K) (decode : Bool) (nrows ncols : ℕ) (roi : List Bool)
    (fill : Num K) (field : List (Num K)) (hr : roi.length = nrows * ncols)
    (hf : field.length = nrows * ncols)
    (h : ∀ i v, Outside roi i → field[i]? = some v →
      read decode (store rnd v) = conversionFill decode fill) :
    converted rnd decode nrows ncols roi fill field = gridLayout rnd decode field := by
  apply List.ext_getElem?
  intro i
  by_cases hi : i < nrows * ncols
  · rw [converted_get rnd decode nrows ncols roi fill field hr hf i hi]
    split_ifs with hc
    · rfl
    · have ho : Outside roi i := by
        unfold Outside
        rw [List.getElem?_eq_getElem (hr ▸ hi)] at hc ⊢
        simpa using hc
      have hv := List.getElem?_eq_getElem (hf ▸ hi : i < field.length)
      rw [gridLayout, List.getElem?_map, hv, Option.map_some, h i _ ho hv]
  · rw [List.getElem?_eq_none (by rw [converted_length]; omega),
      List.getElem?_eq_none (by simp only [gridLayout, List.length_map, hf]; omega)]

/-! ## Theorems -/

/-- **C157.** In the cells of the region both layouts have the same values, for integer and float
variables, in memory, in files and after decoding. -/
theorem C157_region (rnd : K → K) (decode : Bool) (nrows ncols : ℕ) (roi : List Bool)
    (fill : Num K) (field : List (Num K)) (hr : roi.length = nrows * ncols)
    (hf : field.length = nrows * ncols) (i : ℕ) (hi : roi[i]? = some true) :
    (converted rnd decode nrows ncols roi fill field)[i]? = (gridLayout rnd decode field)[i]? := by
  have : i < nrows * ncols := by
    rw [← hr]; by_contra hc
    rw [List.getElem?_eq_none (by omega)] at hi
    exact absurd hi (by simp)
  rw [converted_get rnd decode nrows ncols roi fill field hr hf i this, if_pos hi]

/-- **C157.** Float variables that have no data outside of the region are the same in both layouts,
decoded or not. Missing for the full claim: integer variables (`C157_integer_false`,
`C157_decoded_false`) and variables with values outside of the region. -/
theorem C157_float_partial (rnd : K → K) (decode : Bool) (nrows ncols : ℕ) (roi : List Bool)
    (field : List (Num K)) (hr : roi.length = nrows * ncols) (hf : field.length = nrows * ncols)
    (h : ∀ i v, Outside roi i → field[i]? = some v → v = .float none) :
    SameField (gridLayout rnd decode field)
      (converted rnd decode nrows ncols roi (fillValue false false) field) :=
  same_of_outside rnd decode nrows ncols roi _ field hr hf fun i v ho hv => by
    rw [h i v ho hv]; rfl

/-- **C157.** Sums and means are the same in both layouts as long as the files are not decoded; those
with float results (means and all aggregates of float variables) also after decoding. -/
theorem C157_aggregated_partial (rnd : K → K) (decode integer mean : Bool) (nrows ncols : ℕ)
    (roi : List Bool) (agg : ℕ → Num K) (hr : roi.length = nrows * ncols)
    (hd : decode = true → integer = false ∨ mean = true) :
    SameField (gridLayout rnd decode (aggregated (fillValue integer mean) agg roi))
      (converted rnd decode nrows ncols roi (fillValue integer mean)
        (aggregated (fillValue integer mean) agg roi)) :=
  same_of_outside rnd decode nrows ncols roi _ _ hr (by simp [aggregated, hr]) fun i v ho hv => by
    unfold aggregated at hv
    unfold Outside at ho
    rw [List.getElem?_mapIdx, ho] at hv
    simp only [Option.map_some, Bool.false_eq_true, if_false, Option.some.injEq] at hv
    subst hv
    cases decode with
    | false => cases integer <;> cases mean <;> rfl
    | true => rcases hd rfl with rfl | rfl <;> first | rfl | (cases integer <;> rfl)

/-- **C157.** Not aggregated integer variables never agree in the two layouts if there is a cell
outside of the region: it has the initial value of the variable in the one and the fill value in the
other, also after decoding. -/
theorem C157_integer_false (rnd : K → K) (decode : Bool) (nrows ncols : ℕ) (roi : List Bool)
    (field : List (Num K)) (hr : roi.length = nrows * ncols) (hf : field.length = nrows * ncols)
    (i : ℕ) (ho : Outside roi i) (hv : field[i]? = some (initial true)) :
    ¬ SameField (gridLayout rnd decode field)
      (converted rnd decode nrows ncols roi (fillValue true false) field) := by
  intro h
  have hi : i < nrows * ncols := by
    rw [← hf]; by_contra hc
    rw [List.getElem?_eq_none (by omega)] at hv
    exact absurd hv (by simp)
  have e := converted_get rnd decode nrows ncols roi (fillValue true false) field hr hf i hi
  rw [h, if_neg (by rw [ho]; simp), gridLayout, List.getElem?_map, hv] at e
  cases decode with
  | false => simp [initial, store, read, fillValue, conversionFill, wrap, FILL] at e
  | true =>
    simp only [initial, store, read, fillValue, conversionFill, wrap, FILL, if_true,
      Option.map_some, Option.some.injEq, Num.float.injEq, Bool.not_false, Bool.and_self] at e
    norm_num at e

/-- **C157.** After reading and decoding a file the conversion gives an ordinary number, and no
missing value, in every cell outside of the region for an integer variable. -/
theorem C157_decoded_false (rnd : K → K) (nrows ncols : ℕ) (roi : List Bool)
    (field : List (Num K)) (hr : roi.length = nrows * ncols) (hf : field.length = nrows * ncols)
    (i : ℕ) (ho : Outside roi i) :
    ∃ v, (converted rnd true nrows ncols roi (fillValue true false) field)[i]? = some v ∧
      ¬ NoData true (fillValue true false) v ∧ v = .float (some (-2147483648)) := by
  have hi : i < nrows * ncols := by
    rw [← hr]; by_contra hc
    unfold Outside at ho
    rw [List.getElem?_eq_none (by omega)] at ho
    exact absurd ho (by simp)
  refine ⟨_, ?_, ?_, rfl⟩
  · rw [converted_get rnd true nrows ncols roi _ field hr hf i hi, if_neg (by rw [ho]; simp)]
    simp [fillValue, conversionFill, FILL]
  · simp [NoData]

/-! ## Examples -/

/-- Two by two cells, one of them outside of the region, with numbers of snow layers. -/
example : (converted (K := ℚ) id false 2 2 [true, false, true, true] (fillValue true false)
      [.int 3, .int 0, .int 1, .int 2]) = [.int 3, .int (-2147483648), .int 1, .int 2] ∧
    gridLayout (K := ℚ) id false [.int 3, .int 0, .int 1, .int 2] = [.int 3, .int 0, .int 1, .int 2] ∧
    Outside [true, false, true, true] 1 := by
  refine ⟨by decide +kernel, by decide +kernel, rfl⟩

example : (converted (K := ℚ) id true 1 3 [true, false, true] (fillValue false false)
      [.float (some 3), .float none, .float (some 1)]) =
      [.float (some 3), .float none, .float (some 1)] := by
  decide +kernel

example : ∀ i v, Outside [true, false, true] i →
    [Num.float (some (3 : ℚ)), .float none, .float (some 1)][i]? = some v → v = .float none := by
  intro i v ho hv
  match i with
  | 0 => simp [Outside] at ho
  | 1 => simpa using hv.symm
  | 2 => simp [Outside] at ho
  | i + 3 => simp [Outside] at ho

end Verif.Layouts
