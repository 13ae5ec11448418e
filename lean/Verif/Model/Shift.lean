import Mathlib.Data.Int.Notation
import Mathlib.Tactic.Common

/-!
# Shifting arrays

Mirrors `openamundsen/terrain.py:374-464`.
-/

namespace Verif.Shift

/-- A two-dimensional array: shape and values (used only inside of the shape). -/
structure Arr (K : Type*) where
  rows : ℕ
  cols : ℕ
  val : ℕ → ℕ → K

/-- `np.pad(M, ((top, bottom), (left, right)), mode=mode)`: the mode determines the values outside of `M`
from their position relative to it. -/
def pad {K : Type*} (fill : ℤ → ℤ → K) (top bottom left right : ℕ) (M : Arr K) : Arr K where
  rows := top + M.rows + bottom
  cols := left + M.cols + right
  val i j :=
    if top ≤ i ∧ i < top + M.rows ∧ left ≤ j ∧ j < left + M.cols then M.val (i - top) (j - left)
    else fill ((i : ℤ) - top) ((j : ℤ) - left)

/-- Number of elements of `[:-k]` (`-0` is 0, and `[:0]` is empty). -/
def upTo (len k : ℕ) : ℕ := if k = 0 then 0 else len - k

/-- Slices `[a:]` or `[:-b]` along both axes. -/
inductive Sl
  | after (k : ℕ)
  | before (k : ℕ)
  | all

/-- Length of a slice. -/
def Sl.len : Sl → ℕ → ℕ
  | .after k, n => n - k
  | .before k, n => upTo n k
  | .all, n => n

/-- First index of a slice. -/
def Sl.start : Sl → ℕ
  | .after k => k
  | .before _ => 0
  | .all => 0

/-- `P[r, c]`. -/
def slice {K : Type*} (r c : Sl) (P : Arr K) : Arr K where
  rows := r.len P.rows
  cols := c.len P.cols
  val i j := P.val (r.start + i) (c.start + j)

/-- `_shift_arr` with a mode other than "retain", `terrain.py:402-418`; `none`: any other direction. -/
def shiftPad {K : Type*} (fill : ℤ → ℤ → K) (dir n : ℕ) (M : Arr K) : Option (Arr K) :=
  match dir with
  | 0 => some (slice (.after n) .all (pad fill 0 n 0 0 M))
  | 1 => some (slice (.after n) (.before n) (pad fill 0 n n 0 M))
  | 2 => some (slice .all (.before n) (pad fill 0 0 n 0 M))
  | 3 => some (slice (.before n) (.before n) (pad fill n 0 n 0 M))
  | 4 => some (slice (.before n) .all (pad fill n 0 0 0 M))
  | 5 => some (slice (.before n) (.after n) (pad fill n 0 0 n M))
  | 6 => some (slice .all (.after n) (pad fill 0 0 0 n M))
  | 7 => some (slice (.after n) (.after n) (pad fill 0 n 0 n M))
  | _ => none

/-- `S = M.copy(); S[r, c] = M[r', c']`. -/
def assign {K : Type*} (r c r' c' : Sl) (M : Arr K) : Arr K where
  rows := M.rows
  cols := M.cols
  val i j :=
    if r.start ≤ i ∧ i < r.start + r.len M.rows ∧ c.start ≤ j ∧ j < c.start + c.len M.cols then
      M.val (r'.start + (i - r.start)) (c'.start + (j - c.start))
    else M.val i j

/-- `_shift_arr_retain`, `terrain.py:443-464`. -/
def shiftRetain {K : Type*} (dir n : ℕ) (M : Arr K) : Arr K :=
  match dir with
  | 0 => assign (.before (n + 1)) .all (.after (1 + n)) .all M
  | 1 => assign (.before (n + 1)) (.after (1 + n)) (.after (1 + n)) (.before (n + 1)) M
  | 2 => assign .all (.after (1 + n)) .all (.before (n + 1)) M
  | 3 => assign (.after (1 + n)) (.after (1 + n)) (.before (n + 1)) (.before (n + 1)) M
  | 4 => assign (.after (1 + n)) .all (.before (n + 1)) .all M
  | 5 => assign (.after (1 + n)) (.before (n + 1)) (.before (n + 1)) (.after (1 + n)) M
  | 6 => assign .all (.before (n + 1)) .all (.after (1 + n)) M
  | 7 => assign (.before (n + 1)) (.before (n + 1)) (.after (1 + n)) (.after (1 + n)) M
  | _ => M

/-- `mode` of `_shift_arr`. -/
inductive Mode (K : Type*)
  | retain
  | pad (fill : ℤ → ℤ → K)

/-- `_shift_arr`, `terrain.py:374-418`. -/
def shiftArr {K : Type*} (M : Arr K) (dir n : ℕ) : Mode K → Option (Arr K)
  | .retain => some (shiftRetain dir n M)
  | .pad fill => shiftPad fill dir n M

end Verif.Shift
