import Mathlib.Tactic.Ring
import Mathlib.Tactic.Linarith
import Mathlib.Tactic.FieldSimp
import Verif.Model.Terrain

set_option linter.unusedSectionVars false

namespace Verif.Terrain

variable {K : Type*}

theorem idx_prev {i n : ℕ} (h1 : 1 ≤ i) (hi : i < n) : (((i : ℤ) - 1) % n).toNat = i - 1 := by
  rw [Int.emod_eq_of_lt (by omega) (by omega)]; omega

theorem idx_next {i n : ℕ} (hi : i + 1 < n) : (((i : ℤ) - -1) % n).toNat = i + 1 := by
  rw [Int.emod_eq_of_lt (by omega) (by omega)]; omega

variable {n m i j : ℕ} (hn : 3 ≤ n) (hm : 3 ≤ m) (hi : i < n) (hj : j < m) (d : ℕ → ℕ → K)
include hn hm hi hj

/-! Every shifted raster reads a real neighbour; on the border the window is clamped on the side that
leaves the raster. -/

theorem za_eq : za n m d i j = d (max i 1 - 1) (max j 1 - 1) := by
  simp only [za, copyRow, copyCol, rollCols, rollRows]
  split_ifs with h1 h2 h2 <;> (try subst h1) <;> (try subst h2) <;>
    repeat rw [idx_prev (by omega) (by omega)]
  all_goals congr 1 <;> omega

theorem zb_eq : zb n d i j = d (max i 1 - 1) j := by
  simp only [zb, copyRow, rollRows]
  split_ifs with h1 <;> (try subst h1) <;> rw [idx_prev (by omega) (by omega)]
  all_goals congr 1 <;> omega

theorem zc_eq : zc n m d i j = d (max i 1 - 1) (min j (m - 2) + 1) := by
  simp only [zc, copyRow, copyCol, rollCols, rollRows]
  split_ifs with h1 h2 h2 <;> rw [idx_prev (by omega) (by omega), idx_next (by omega)]
  all_goals congr 1 <;> omega

theorem zd_eq : zd m d i j = d i (max j 1 - 1) := by
  simp only [zd, copyCol, rollCols]
  split_ifs with h1 <;> (try subst h1) <;> rw [idx_prev (by omega) (by omega)]
  all_goals congr 1 <;> omega

theorem zf_eq : zf m d i j = d i (min j (m - 2) + 1) := by
  simp only [zf, copyCol, rollCols]
  split_ifs with h1 <;> rw [idx_next (by omega)]
  all_goals congr 1 <;> omega

theorem zg_eq : zg n m d i j = d (min i (n - 2) + 1) (max j 1 - 1) := by
  simp only [zg, copyRow, copyCol, rollCols, rollRows]
  split_ifs with h1 h2 h2 <;> rw [idx_next (by omega), idx_prev (by omega) (by omega)]
  all_goals congr 1 <;> omega

theorem zh_eq : zh n d i j = d (min i (n - 2) + 1) j := by
  simp only [zh, copyRow, rollRows]
  split_ifs with h1 <;> rw [idx_next (by omega)]
  all_goals congr 1 <;> omega

theorem zi_eq : zi n m d i j = d (min i (n - 2) + 1) (min j (m - 2) + 1) := by
  simp only [zi, copyRow, copyCol, rollCols, rollRows]
  split_ifs with h1 h2 h2 <;> repeat rw [idx_next (by omega)]
  all_goals congr 1 <;> omega

/-- The normal at `(i, j)` is computed from the four cells of the square to the north-east of the cell,
shifted into the raster at the northern and eastern border. -/
theorem rawNormal_eq [Field K] (res : K) :
    let a := max i 1
    let b := min j (m - 2)
    rawNormal n m res d i j =
      (1 / 2 * res * (d a b - d a (b + 1) + d (a - 1) b - d (a - 1) (b + 1)),
        1 / 2 * res * (d a b + d a (b + 1) - d (a - 1) b - d (a - 1) (b + 1)), res ^ 2) := by
  intro a b
  have key : rawNormal n m res d i j = (fun i j =>
      ((1 / 2 * res * (d i j - rollCols m (-1) d i j + rollRows n 1 d i j -
          rollCols m (-1) (rollRows n 1 d) i j),
        1 / 2 * res * (d i j + rollCols m (-1) d i j - rollRows n 1 d i j -
          rollCols m (-1) (rollRows n 1 d) i j), res ^ 2) : K × K × K)) a b := by
    simp only [rawNormal, copyRow, copyCol]
    have ha : (if i = 0 then 1 else i) = a := by simp only [a]; split_ifs <;> omega
    have hb : (if j = m - 1 then m - 2 else j) = b := by simp only [b]; split_ifs <;> omega
    rw [← ha, ← hb]
    split_ifs <;> rfl
  rw [key]
  simp only [rollCols, rollRows]
  rw [idx_next (show b + 1 < m by omega), idx_prev (show 1 ≤ a by omega) (show a < n by omega)]

end Verif.Terrain
