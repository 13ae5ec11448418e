import Verif.Model.Shift
import Mathlib.Tactic.NormNum
import Mathlib.Tactic.Linarith
import Mathlib.Tactic.Ring

/-!
# C106: shifting arrays
-/

namespace Verif.Shift

/-- Rows southwards and columns eastwards of one step in the eight compass directions (0 north,
clockwise). -/
def compass : ℕ → ℤ × ℤ
  | 0 => (-1, 0)
  | 1 => (-1, 1)
  | 2 => (0, 1)
  | 3 => (1, 1)
  | 4 => (1, 0)
  | 5 => (1, -1)
  | 6 => (0, -1)
  | _ => (-1, -1)

/-- Specification: `S` is `M` moved by `k` pixels in a direction; where nothing is moved in, the value is
`out` (a function of the pixel and of the position outside of the array where the value would come from). -/
def Moved {K : Type*} (M S : Arr K) (dir k : ℕ) (out : ℕ → ℕ → ℤ → ℤ → K) : Prop :=
  S.rows = M.rows ∧ S.cols = M.cols ∧ ∀ i j, i < M.rows → j < M.cols →
    let si := (i : ℤ) - k * (compass dir).1
    let sj := (j : ℤ) - k * (compass dir).2
    (∀ a b : ℕ, a < M.rows → b < M.cols → (a : ℤ) = si → (b : ℤ) = sj → S.val i j = M.val a b) ∧
    (¬ (0 ≤ si ∧ si < M.rows ∧ 0 ≤ sj ∧ sj < M.cols) → S.val i j = out i j si sj)

/-- **C106 (padding modes).** With any padding mode an array is moved by exactly `n ≥ 1` pixels, in all
eight directions; the rest is filled by the mode. -/
theorem C106_pad {K : Type*} (M : Arr K) (fill : ℤ → ℤ → K) (dir n : ℕ) (hd : dir < 8) (hn : 1 ≤ n) :
    ∃ S, shiftArr M dir n (.pad fill) = some S ∧ Moved M S dir n fun _ _ si sj => fill si sj := by
  have hn0 : n ≠ 0 := by omega
  have key : ∀ (top bottom left right : ℕ) (r c : Sl),
      r.len (top + M.rows + bottom) = M.rows → c.len (left + M.cols + right) = M.cols →
      (r.start : ℤ) - top = -(n * (compass dir).1) → (c.start : ℤ) - left = -(n * (compass dir).2) →
      Moved M (slice r c (pad fill top bottom left right M)) dir n fun _ _ si sj => fill si sj := by
    intro top bottom left right r c hr hc er ec
    refine ⟨hr, hc, ?_⟩
    intro i j hi hj si sj
    have e1 : ((r.start + i : ℕ) : ℤ) - top = si := by
      push_cast
      show _ = (i : ℤ) - n * (compass dir).1
      linarith
    have e2 : ((c.start + j : ℕ) : ℤ) - left = sj := by
      push_cast
      show _ = (j : ℤ) - n * (compass dir).2
      linarith
    generalize si = si at *
    generalize sj = sj at *
    constructor
    · intro a b ha hb ea eb
      simp only [slice, pad]
      rw [if_pos (by omega)]
      congr 1 <;> omega
    · intro hout
      simp only [slice, pad]
      rw [if_neg (by omega), e1, e2]
  have h8 : dir = 0 ∨ dir = 1 ∨ dir = 2 ∨ dir = 3 ∨ dir = 4 ∨ dir = 5 ∨ dir = 6 ∨ dir = 7 := by omega
  rcases h8 with rfl | rfl | rfl | rfl | rfl | rfl | rfl | rfl <;>
    refine ⟨_, rfl, key _ _ _ _ _ _ ?_ ?_ ?_ ?_⟩ <;>
    simp only [Sl.len, Sl.start, upTo, compass, if_neg hn0] <;> push_cast <;> first | omega | ring

theorem assign_in {K : Type*} {r c r' c' : Sl} {M : Arr K} {i j a b : ℕ}
    (h : r.start ≤ i ∧ i < r.start + r.len M.rows ∧ c.start ≤ j ∧ j < c.start + c.len M.cols)
    (ha : r'.start + (i - r.start) = a) (hb : c'.start + (j - c.start) = b) :
    (assign r c r' c' M).val i j = M.val a b := by
  simp only [assign]
  rw [if_pos h, ha, hb]

theorem assign_out {K : Type*} {r c r' c' : Sl} {M : Arr K} {i j : ℕ}
    (h : ¬ (r.start ≤ i ∧ i < r.start + r.len M.rows ∧ c.start ≤ j ∧ j < c.start + c.len M.cols)) :
    (assign r c r' c' M).val i j = M.val i j := by
  simp only [assign]
  rw [if_neg h]

/-- The retain mode moves an array by `n + 1` pixels; the other pixels keep their values. -/
theorem C106_retain {K : Type*} (M : Arr K) (dir n : ℕ) (hd : dir < 8) :
    ∃ S, shiftArr M dir n .retain = some S ∧ Moved M S dir (n + 1) fun i j _ _ => M.val i j := by
  refine ⟨_, rfl, ?_⟩
  have h8 : dir = 0 ∨ dir = 1 ∨ dir = 2 ∨ dir = 3 ∨ dir = 4 ∨ dir = 5 ∨ dir = 6 ∨ dir = 7 := by omega
  rcases h8 with rfl | rfl | rfl | rfl | rfl | rfl | rfl | rfl <;>
  · refine ⟨rfl, rfl, ?_⟩
    intro i j hi hj
    simp only [compass]
    push_cast
    constructor
    · intro a b ha hb ea eb
      refine assign_in ?_ ?_ ?_ <;> simp only [Sl.len, Sl.start, upTo, if_neg (Nat.succ_ne_zero n)] <;> omega
    · intro hout
      refine assign_out ?_
      simp only [Sl.len, Sl.start, upTo, if_neg (Nat.succ_ne_zero n)]
      omega

/-- **C106 fails in the retain mode** (the default): a shift by one pixel to the north moves the values by
two pixels. -/
theorem C106_retain_false : ∃ M S : Arr ℕ, shiftArr M 0 1 .retain = some S ∧ S.val 0 0 = M.val 2 0 ∧
    ¬ Moved M S 0 1 fun i j _ _ => M.val i j := by
  refine ⟨⟨3, 1, fun i _ => i⟩, _, rfl, rfl, ?_⟩
  rintro ⟨-, -, h⟩
  have := (h 0 0 (by decide) (by decide)).1 1 0 (by decide) (by decide) (by simp [compass]) (by simp [compass])
  simp [shiftRetain, assign, Sl.len, Sl.start, upTo] at this

/-- **C106 fails for a shift by 0 pixels** to the east with padding: the result has no columns. -/
theorem C106_zero_false {K : Type*} (M : Arr K) (fill : ℤ → ℤ → K) :
    ∃ S, shiftArr M 2 0 (.pad fill) = some S ∧ S.cols = 0 := ⟨_, rfl, rfl⟩

/-- Non-vacuity: a 2 × 2 array shifted by one pixel to the southeast. -/
example : ∃ S, shiftArr (⟨2, 2, fun i j => 10 * i + j⟩ : Arr ℕ) 3 1 (.pad fun _ _ => 99) = some S ∧
    S.rows = 2 ∧ S.cols = 2 ∧ S.val 1 1 = 0 ∧ S.val 0 1 = 99 ∧ S.val 1 0 = 99 :=
  ⟨_, rfl, rfl, rfl, rfl, rfl, rfl⟩

end Verif.Shift
