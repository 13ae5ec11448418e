import Verif.Model.SurfaceTemp
import Mathlib.Analysis.Convex.Slope
import Mathlib.Analysis.Convex.Mul
import Mathlib.Tactic.Linarith
import Mathlib.Tactic.FieldSimp
import Mathlib.Tactic.Positivity

/-!
# Lemmas on the surface temperature iteration
-/

namespace Verif.SurfaceTemp

open Verif.Atmosphere (T0 cp)
open Classical

/-! ## Stepwise search -/

theorem foldl_map_temp {α β : Type*} (g : α → β → β) (ks : List α) (l : List β) :
    ks.foldl (fun rs k => rs.map (g k)) l = l.map fun r => ks.foldl (fun r k => g k r) r := by
  induction ks generalizing l with
  | nil => simp
  | cons k ks ih => simp [ih, List.map_map, Function.comp_def]

/-- The search for a single pixel over the first `n` grid values. -/
noncomputable def runs (c : Cell) (n : ℕ) : Run :=
  (List.range n).foldl (fun r k => Run.round (gridTemp k) r) ⟨c, true, c.air, some 0⟩

theorem runs_succ (c : Cell) (n : ℕ) : runs c (n + 1) = (runs c n).round (gridTemp n) := by
  simp [runs, List.range_succ]

theorem runs_cell (c : Cell) (n : ℕ) : (runs c n).cell = c := by
  induction n with
  | zero => rfl
  | succ n ih =>
    rw [runs_succ]; unfold Run.round
    split_ifs <;> simpa using ih

theorem runs_spec (c : Cell) (n : ℕ) :
    ((runs c (n + 1)).active = true ∧ (∀ j ≤ n, IsNeg (c.bal (gridTemp j))) ∧ (runs c (n + 1)).temp = gridTemp n ∧
      (runs c (n + 1)).enBal = c.bal (gridTemp n)) ∨
    ((runs c (n + 1)).active = false ∧ ∃ k ≤ n, (∀ j < k, IsNeg (c.bal (gridTemp j))) ∧
      ¬ IsNeg (c.bal (gridTemp k)) ∧ (runs c (n + 1)).temp = gridTemp k ∧
      (runs c (n + 1)).enBal = c.bal (gridTemp k)) := by
  induction n with
  | zero =>
    rw [runs_succ]
    have : runs c 0 = ⟨c, true, c.air, some 0⟩ := rfl
    rw [this]
    by_cases h : IsNeg (c.bal (gridTemp 0))
    · left
      simp only [Run.round, if_true, and_true]
      refine ⟨by simpa using h, fun j hj => ?_⟩
      rw [Nat.le_zero.1 hj]; exact h
    · right
      simp only [Run.round, if_true]
      exact ⟨by simpa using h, 0, le_rfl, fun j hj => absurd hj (Nat.not_lt_zero _), h, rfl, rfl⟩
  | succ n ih =>
    rw [runs_succ c (n + 1)]
    rcases ih with ⟨ha, hn, -, -⟩ | ⟨ha, k, hk, hj, hng, ht, he⟩
    · have hc := runs_cell c (n + 1)
      by_cases h : IsNeg (c.bal (gridTemp (n + 1)))
      · left
        simp only [Run.round, ha, if_true, hc, and_true]
        refine ⟨by simpa using h, fun j hjn => ?_⟩
        rcases Nat.lt_or_ge j (n + 1) with h' | h'
        · exact hn j (Nat.lt_succ_iff.1 h')
        · rw [le_antisymm hjn h']; exact h
      · right
        simp only [Run.round, ha, if_true, hc]
        exact ⟨by simpa using h, n + 1, le_rfl, fun j hjn => hn j (Nat.lt_succ_iff.1 hjn), h, rfl, rfl⟩
    · right
      simp only [Run.round, ha, Bool.false_eq_true, if_false]
      exact ⟨by rw [he]; simpa using hng, k, hk.trans (Nat.le_succ n), hj, hng, ht, he⟩

theorem legacy_eq (cells : List Cell) :
    legacy cells = cells.map fun c => (runs c (gridLen (coldest cells))).temp := by
  unfold legacy
  rw [foldl_map_temp (fun k r => Run.round (gridTemp k) r)]
  simp [List.map_map, Function.comp_def, runs]

theorem coldest_le {cells : List Cell} {c : Cell} (h : c ∈ cells) : coldest cells ≤ c.air := by
  induction cells with
  | nil => simp at h
  | cons d ds ih =>
    cases ds with
    | nil =>
      simp only [List.mem_singleton] at h
      subst h; exact le_rfl
    | cons e es =>
      rw [coldest]
      rcases List.mem_cons.1 h with rfl | h'
      · exact min_le_left _ _
      · exact (min_le_right _ _).trans (ih h')

theorem coldest_mem {cells : List Cell} (h : cells ≠ []) : ∃ c ∈ cells, coldest cells = c.air := by
  induction cells with
  | nil => exact absurd rfl h
  | cons d ds ih =>
    cases ds with
    | nil => exact ⟨d, by simp, rfl⟩
    | cons e es =>
      obtain ⟨c, hc, hce⟩ := ih (by simp)
      rw [coldest]
      rcases min_choice d.air (coldest (e :: es)) with h' | h'
      · exact ⟨d, by simp, h'⟩
      · exact ⟨c, by simp [List.mem_cons.1 hc], by rw [h', hce]⟩

theorem gridLen_anti {x y : ℝ} (h : x ≤ y) : gridLen y ≤ gridLen x := by
  unfold gridLen
  refine Nat.ceil_le_ceil ?_
  rw [div_neg, div_neg, neg_le_neg_iff]
  exact div_le_div_of_nonneg_right (by linarith) (by norm_num)

theorem gridLen_bounds {x : ℝ} (hx : x < T0) :
    0 < gridLen x ∧ gridTemp (gridLen x - 1) ≤ x - 11 / 4 ∧ x - 3 - 1 / 1000000 < gridTemp (gridLen x - 1) := by
  have hpos : 0 < ((x - 3 - 1 / 1000000) - T0) / (-(1 / 4)) := by
    rw [div_neg, neg_pos]
    exact div_neg_of_neg_of_pos (by linarith) (by norm_num)
  have h0 : 0 < gridLen x := Nat.ceil_pos.2 hpos
  have h1 := Nat.le_ceil (((x - 3 - 1 / 1000000) - T0) / (-(1 / 4)))
  have h2 := Nat.ceil_lt_add_one hpos.le
  have e : ((gridLen x - 1 : ℕ) : ℝ) = (gridLen x : ℝ) - 1 := by
    rw [Nat.cast_sub h0]; norm_num
  have h1' : ((x - 3 - 1 / 1000000) - T0) / (-(1 / 4)) ≤ (gridLen x : ℝ) := h1
  have h2' : (gridLen x : ℝ) < ((x - 3 - 1 / 1000000) - T0) / (-(1 / 4)) + 1 := h2
  have e2 : ((x - 3 - 1 / 1000000) - T0) / (-(1 / 4)) = 4 * (T0 - x + 3 + 1 / 1000000) := by ring
  rw [e2] at h1' h2'
  refine ⟨h0, ?_, ?_⟩
  · unfold gridTemp; rw [e]; linarith
  · unfold gridTemp; rw [e]; linarith

/-! ## Secant method: a single pixel -/

/-- Secant correction. -/
noncomputable def corr (f : ℝ → ℝ) (x0 x1 : ℝ) : ℝ := (x1 - x0) / (f x1 - f x0) * f x1

/-- Secant iteration for one balance function: the last two iterates after at most `n` rounds and whether the
correction is within tolerance. -/
noncomputable def pixRun (f : ℝ → ℝ) : ℕ → ℝ → ℝ → ℝ × ℝ × Bool
  | 0, x0, x1 => (x0, x1, decide (|corr f x0 x1| ≤ tol))
  | n + 1, x0, x1 =>
    if |corr f x0 x1| ≤ tol then (x0, x1, true) else pixRun f n x1 (x1 - corr f x0 x1)

theorem tol_pos : 0 < tol := by norm_num [tol]

theorem pixRun_stop {f : ℝ → ℝ} {x0 x1 : ℝ} (h : |corr f x0 x1| ≤ tol) (n : ℕ) :
    pixRun f n x0 x1 = (x0, x1, true) := by
  cases n <;> simp [pixRun, h]

theorem pixRun_go {f : ℝ → ℝ} {x0 x1 : ℝ} (h : ¬ |corr f x0 x1| ≤ tol) (n : ℕ) :
    pixRun f (n + 1) x0 x1 = pixRun f n x1 (x1 - corr f x0 x1) := by
  simp [pixRun, h]

theorem pixRun_mono {f : ℝ → ℝ} {n m : ℕ} (h : n ≤ m) {x0 x1 : ℝ} (he : (pixRun f n x0 x1).2.2 = true) :
    pixRun f m x0 x1 = pixRun f n x0 x1 := by
  induction n generalizing m x0 x1 with
  | zero =>
    have hs : |corr f x0 x1| ≤ tol := by simpa [pixRun] using he
    rw [pixRun_stop hs, pixRun_stop hs]
  | succ n ih =>
    by_cases hs : |corr f x0 x1| ≤ tol
    · rw [pixRun_stop hs, pixRun_stop hs]
    · obtain ⟨m, rfl⟩ : ∃ k, m = k + 1 := ⟨m - 1, by omega⟩
      rw [pixRun_go hs] at he ⊢
      rw [pixRun_go hs]
      exact ih (by omega) he

theorem pixRun_stopped {f : ℝ → ℝ} (n : ℕ) {x0 x1 : ℝ} (hne : x0 ≠ x1) (he : (pixRun f n x0 x1).2.2 = true) :
    (pixRun f n x0 x1).1 ≠ (pixRun f n x0 x1).2.1 ∧
    |corr f (pixRun f n x0 x1).1 (pixRun f n x0 x1).2.1| ≤ tol := by
  induction n generalizing x0 x1 with
  | zero => exact ⟨hne, by simpa [pixRun] using he⟩
  | succ n ih =>
    by_cases hs : |corr f x0 x1| ≤ tol
    · rw [pixRun_stop hs]; exact ⟨hne, hs⟩
    · rw [pixRun_go hs] at he ⊢
      refine ih (fun h => hs ?_) he
      have : corr f x0 x1 = 0 := by linarith
      rw [this, abs_zero]; exact tol_pos.le

/-- Some number of rounds suffices. -/
def Ends (f : ℝ → ℝ) (x0 x1 : ℝ) : Prop := ∃ n, (pixRun f n x0 x1).2.2 = true

theorem ends_of_next {f : ℝ → ℝ} {x0 x1 : ℝ}
    (h : ¬ |corr f x0 x1| ≤ tol → Ends f x1 (x1 - corr f x0 x1)) : Ends f x0 x1 := by
  by_cases hs : |corr f x0 x1| ≤ tol
  · exact ⟨0, by rw [pixRun_stop hs]⟩
  · obtain ⟨n, hn⟩ := h hs
    exact ⟨n + 1, by rw [pixRun_go hs]; exact hn⟩

/-! ### Convergence for decreasing concave balances -/

section
variable {f : ℝ → ℝ} {S : Set ℝ}

/-- The next iterate is the zero of the chord. -/
theorem chord {x y : ℝ} (hne : f x ≠ f y) :
    f x * (y - (y - corr f x y)) = f y * (x - (y - corr f x y)) := by
  have h : f y - f x ≠ 0 := sub_ne_zero.2 (Ne.symm hne)
  unfold corr
  field_simp
  ring

theorem mem_between (hc : ConcaveOn ℝ S f) {x y r : ℝ} (hx : x ∈ S) (hy : y ∈ S) (h1 : x ≤ r) (h2 : r ≤ y) :
    r ∈ S := hc.1.ordConnected.out hx hy ⟨h1, h2⟩

/-- Zero of a chord with ends on both sides. -/
theorem chord_between (hc : ConcaveOn ℝ S f) {x y r : ℝ} (hx' : x ∈ S) (hy' : y ∈ S) (hxy : x < y) (hx : 0 ≤ f x)
    (hy : f y ≤ 0) (hlt : f y < f x) (h : f x * (y - r) = f y * (x - r)) : x ≤ r ∧ r ≤ y ∧ 0 ≤ f r := by
  have hr1 : (f x - f y) * (r - x) = f x * (y - x) := by linarith
  have hr2 : (f x - f y) * (y - r) = -f y * (y - x) := by linarith
  have hd : 0 < f x - f y := by linarith
  have h1 : x ≤ r := by
    have : 0 ≤ (f x - f y) * (r - x) := by rw [hr1]; exact mul_nonneg hx (by linarith)
    have := nonneg_of_mul_nonneg_right this hd; linarith
  have h2 : r ≤ y := by
    have : 0 ≤ (f x - f y) * (y - r) := by rw [hr2]; exact mul_nonneg (by linarith) (by linarith)
    have := nonneg_of_mul_nonneg_right this hd; linarith
  refine ⟨h1, h2, ?_⟩
  rcases h1.eq_or_lt with e | h1'
  · rw [← e]; exact hx
  rcases h2.eq_or_lt with e | h2'
  · rw [e, sub_self, mul_zero] at hr2
    have : f y = 0 := by
      rcases mul_eq_zero.1 hr2.symm with h' | h'
      · linarith
      · linarith
    rw [e, this]
  have hs := hc.slope_anti_adjacent hx' hy' h1' h2'
  rw [div_le_div_iff₀ (by linarith) (by linarith)] at hs
  -- (f y - f r) (r - x) ≤ (f r - f x) (y - r)
  have : 0 ≤ f r * (y - x) := by nlinarith
  exact nonneg_of_mul_nonneg_left this (by linarith)

/-- Zeros of chords right of both ends remain in `S`. -/
def RightClosed (f : ℝ → ℝ) (S : Set ℝ) : Prop :=
  ∀ x ∈ S, ∀ y ∈ S, ∀ r, x < y → 0 ≤ f y → f y < f x → f x * (y - r) = f y * (x - r) → r ∈ S

theorem le_chord_right {x y r : ℝ} (hxy : x < y) (hy : 0 ≤ f y) (hlt : f y < f x)
    (h : f x * (y - r) = f y * (x - r)) : y ≤ r := by
  have hd : 0 < f x - f y := by linarith
  have hr2 : (f x - f y) * (r - y) = f y * (y - x) := by linarith
  have : 0 ≤ (f x - f y) * (r - y) := by rw [hr2]; exact mul_nonneg hy (by linarith)
  have := nonneg_of_mul_nonneg_right this hd; linarith

theorem rightClosed_Ici (f : ℝ → ℝ) (a : ℝ) : RightClosed f (Set.Ici a) :=
  fun _ _ y hy _ hxy h0 hlt h => le_trans (Set.mem_Ici.1 hy) (le_chord_right hxy h0 hlt h)

/-- Zero of a chord right of both ends. -/
theorem chord_right (hc : ConcaveOn ℝ S f) {x y r : ℝ} (hx' : x ∈ S) (hr' : r ∈ S) (hxy : x < y)
    (hy : 0 ≤ f y) (hlt : f y < f x) (h : f x * (y - r) = f y * (x - r)) : y ≤ r ∧ f r ≤ 0 := by
  have hd : 0 < f x - f y := by linarith
  have hr2 : (f x - f y) * (r - y) = f y * (y - x) := by linarith
  have h1 : y ≤ r := le_chord_right hxy hy hlt h
  refine ⟨h1, ?_⟩
  rcases h1.eq_or_lt with e | h1'
  · rw [← e, sub_self, mul_zero] at hr2
    rw [← e]
    rcases mul_eq_zero.1 hr2.symm with h' | h' <;> linarith
  have hs := hc.slope_anti_adjacent hx' hr' hxy h1'
  rw [div_le_div_iff₀ (by linarith) (by linarith)] at hs
  have : f r * (y - x) ≤ 0 := by nlinarith
  exact nonpos_of_mul_nonpos_left this (by linarith)

/-- Zero of a chord left of both ends. -/
theorem chord_left (hc : ConcaveOn ℝ S f) {a : ℝ} (haS : a ∈ S) (ha : 0 ≤ f a) {x y r : ℝ} (hax : a ≤ x)
    (hy' : y ∈ S) (hxy : x < y)
    (hx : f x ≤ 0) (hlt : f y < f x) (h : f x * (y - r) = f y * (x - r)) : a ≤ r ∧ r ≤ x ∧ f r ≤ 0 := by
  have hd : 0 < f x - f y := by linarith
  have hr1 : (f x - f y) * (x - r) = -f x * (y - x) := by linarith
  have h1 : r ≤ x := by
    have : 0 ≤ (f x - f y) * (x - r) := by rw [hr1]; exact mul_nonneg (by linarith) (by linarith)
    have := nonneg_of_mul_nonneg_right this hd; linarith
  have h0 : a ≤ r := by
    rcases hax.eq_or_lt with e | hax'
    · have hx0 : f x = 0 := le_antisymm hx (e ▸ ha)
      rw [hx0, neg_zero, zero_mul] at hr1
      rcases mul_eq_zero.1 hr1 with h' | h'
      · rw [hx0] at hd; linarith
      · linarith
    · have hs := hc.slope_anti_adjacent haS hy' hax' hxy
      rw [div_le_div_iff₀ (by linarith) (by linarith)] at hs
      -- (f y - f x) (x - a) ≤ (f x - f a) (y - x)
      have : 0 ≤ (f x - f y) * (r - a) := by nlinarith
      have := nonneg_of_mul_nonneg_right this hd; linarith
  refine ⟨h0, h1, ?_⟩
  rcases h1.eq_or_lt with e | h1'
  · rw [e]; exact hx
  have hrS : r ∈ S := mem_between hc haS hy' h0 (h1.trans hxy.le)
  have hs := hc.slope_anti_adjacent hrS hy' h1' hxy
  rw [div_le_div_iff₀ (by linarith) (by linarith)] at hs
  have : f r * (y - x) ≤ 0 := by nlinarith
  exact nonpos_of_mul_nonpos_left this (by linarith)

variable (hc : ConcaveOn ℝ S f) (hs : StrictAntiOn f S) (hr : RightClosed f S)
include hc hs

theorem left_le {x u : ℝ} (hx : x ∈ S) (hu : u ∈ S) (h0 : 0 ≤ f x) (h1 : f u ≤ 0) : x ≤ u := by
  by_contra h
  have := hs hu hx (not_le.1 h)
  linarith

include hr in
/-- Right, then left iterate. -/
theorem ends_C (N : ℕ) {u x0 x1 : ℝ} (hu : u ∈ S) (hfu : f u ≤ 0) (ha0 : x0 ∈ S) (ha1 : x1 ∈ S) (hlt : x1 < x0)
    (h1 : 0 ≤ f x1) (h0 : f x0 ≤ 0) (hN : u - x1 ≤ N * tol) : Ends f x0 x1 := by
  induction N generalizing x0 x1 with
  | zero =>
    refine ends_of_next fun hgo => ?_
    exfalso
    have hl := hs ha1 ha0 hlt
    obtain ⟨hr1, hr2, hr3⟩ := chord_between hc ha1 ha0 hlt h1 h0 hl (chord hl.ne).symm
    have h2 := left_le hc hs (mem_between hc ha1 ha0 hr1 hr2) hu hr3 hfu
    rw [not_le, abs_of_nonpos (by linarith)] at hgo
    have := tol_pos
    push_cast at hN
    linarith
  | succ N ih =>
    -- to both left
    refine ends_of_next fun hgo => ?_
    have hl := hs ha1 ha0 hlt
    obtain ⟨hr1, hr2, hr3⟩ := chord_between hc ha1 ha0 hlt h1 h0 hl (chord hl.ne).symm
    have hstep : x1 + tol < x1 - corr f x0 x1 := by
      rw [not_le, abs_of_nonpos (by linarith)] at hgo; linarith
    generalize x1 - corr f x0 x1 = x2 at *
    have := tol_pos
    have h12 : x1 < x2 := by linarith
    have ha2 : x2 ∈ S := mem_between hc ha1 ha0 hr1 hr2
    -- to left, right
    refine ends_of_next fun hgo2 => ?_
    have hl2 := hs ha1 ha2 h12
    have ha3 := hr x1 ha1 x2 ha2 _ h12 hr3 hl2 (chord hl2.ne')
    obtain ⟨hq1, hq2⟩ := chord_right hc ha1 ha3 h12 hr3 hl2 (chord hl2.ne')
    have hgo2' : x2 ≠ x2 - corr f x1 x2 := fun e => hgo2 (by
      have : corr f x1 x2 = 0 := by linarith
      rw [this, abs_zero]; exact tol_pos.le)
    generalize x2 - corr f x1 x2 = x3 at *
    have h23 : x2 < x3 := lt_of_le_of_ne hq1 hgo2'
    -- to right, left
    refine ends_of_next fun hgo3 => ?_
    have hl3 := hs ha2 ha3 h23
    obtain ⟨hp1, hp2, hp3⟩ := chord_between hc ha2 ha3 h23 hr3 hq2 hl3 (chord hl3.ne')
    have hgo3' : x3 - corr f x2 x3 ≠ x3 := fun e => hgo3 (by
      have : corr f x2 x3 = 0 := by linarith
      rw [this, abs_zero]; exact tol_pos.le)
    generalize x3 - corr f x2 x3 = x4 at *
    refine ih ha3 (mem_between hc ha2 ha3 hp1 hp2) (lt_of_le_of_ne hp2 hgo3') hp3 hq2 ?_
    push_cast at hN
    linarith

include hr in
/-- Left, then right iterate. -/
theorem ends_B {x0 x1 : ℝ} (ha0 : x0 ∈ S) (ha1 : x1 ∈ S) (hlt : x0 < x1) (h0 : 0 ≤ f x0) (h1 : f x1 ≤ 0) :
    Ends f x0 x1 := by
  refine ends_of_next fun hgo => ?_
  have hl := hs ha0 ha1 hlt
  obtain ⟨hp1, hp2, hp3⟩ := chord_between hc ha0 ha1 hlt h0 h1 hl (chord hl.ne')
  have hgo' : x1 - corr f x0 x1 ≠ x1 := fun e => hgo (by
    have : corr f x0 x1 = 0 := by linarith
    rw [this, abs_zero]; exact tol_pos.le)
  generalize x1 - corr f x0 x1 = x2 at *
  refine ends_C hc hs hr ⌈(x1 - x2) / tol⌉₊ ha1 h1 ha1 (mem_between hc ha0 ha1 hp1 hp2) (lt_of_le_of_ne hp2 hgo')
    hp3 h1 ?_
  rw [← div_le_iff₀ tol_pos]
  exact Nat.le_ceil _

include hr in
/-- Both left, increasing. -/
theorem ends_D {x0 x1 : ℝ} (ha0 : x0 ∈ S) (ha1 : x1 ∈ S) (hlt : x0 < x1) (h1 : 0 ≤ f x1) : Ends f x0 x1 := by
  refine ends_of_next fun hgo => ?_
  have hl := hs ha0 ha1 hlt
  have ha2 := hr x0 ha0 x1 ha1 _ hlt h1 hl (chord hl.ne')
  obtain ⟨hq1, hq2⟩ := chord_right hc ha0 ha2 hlt h1 hl (chord hl.ne')
  have hgo' : x1 ≠ x1 - corr f x0 x1 := fun e => hgo (by
    have : corr f x0 x1 = 0 := by linarith
    rw [this, abs_zero]; exact tol_pos.le)
  exact ends_B hc hs hr ha1 ha2 (lt_of_le_of_ne hq1 hgo') h1 hq2

/-- Both right, decreasing. -/
theorem ends_A {a : ℝ} (haS : a ∈ S) (ha : 0 ≤ f a) (N : ℕ) {x0 x1 : ℝ} (ha1 : a ≤ x1) (ha0 : x0 ∈ S) (hlt : x1 < x0)
    (h1 : f x1 ≤ 0) (hN : x1 - a ≤ N * tol) : Ends f x0 x1 := by
  induction N generalizing x0 x1 with
  | zero =>
    refine ends_of_next fun hgo => ?_
    exfalso
    have hl := hs (mem_between hc haS ha0 ha1 hlt.le) ha0 hlt
    obtain ⟨hr0, hr1, -⟩ := chord_left hc haS ha ha1 ha0 hlt h1 hl (chord hl.ne).symm
    rw [not_le, abs_of_nonneg (by linarith)] at hgo
    have := tol_pos
    push_cast at hN
    linarith
  | succ N ih =>
    refine ends_of_next fun hgo => ?_
    have hm := mem_between hc haS ha0 ha1 hlt.le
    have hl := hs hm ha0 hlt
    obtain ⟨hr0, hr1, hr2⟩ := chord_left hc haS ha ha1 ha0 hlt h1 hl (chord hl.ne).symm
    rw [not_le, abs_of_nonneg (by linarith)] at hgo
    have := tol_pos
    push_cast at hN
    exact ih hr0 hm (by linarith) hr2 (by linarith)

/-- Start with both iterates right of the zero. -/
theorem ends_right {a : ℝ} (haS : a ∈ S) (ha : 0 ≤ f a) {x0 x1 : ℝ} (ha0 : a ≤ x0) (ha1 : x1 ∈ S) (hlt : x0 < x1)
    (h0 : f x0 ≤ 0) : Ends f x0 x1 := by
  refine ends_of_next fun hgo => ?_
  have hm := mem_between hc haS ha1 ha0 hlt.le
  have hl := hs hm ha1 hlt
  obtain ⟨hr0, hr1, hr2⟩ := chord_left hc haS ha ha0 ha1 hlt h0 hl (chord hl.ne')
  generalize x1 - corr f x0 x1 = x2 at *
  refine ends_A hc hs haS ha ⌈(x2 - a) / tol⌉₊ hr0 ha1 (by linarith) hr2 ?_
  rw [← div_le_iff₀ tol_pos]
  exact Nat.le_ceil _

include hr in
theorem ends_start {a : ℝ} (haS : a ∈ S) (ha : 0 ≤ f a) {x0 x1 : ℝ} (ha0 : a ≤ x0) (ha1 : x1 ∈ S) (hlt : x0 < x1) :
    Ends f x0 x1 := by
  have hm := mem_between hc haS ha1 ha0 hlt.le
  rcases le_or_gt 0 (f x1) with h1 | h1
  · exact ends_D hc hs hr hm ha1 hlt h1
  rcases le_or_gt 0 (f x0) with h0 | h0
  · exact ends_B hc hs hr hm ha1 hlt h0 h1.le
  exact ends_right hc hs haS ha ha0 ha1 hlt h0.le

end

/-! ## The loop over all pixels -/

theorem writeTemps_not_mem {es : List Iterate} {θ : ℕ → ℝ} {i : ℕ} (h : ∀ e ∈ es, e.idx ≠ i) :
    writeTemps es θ i = θ i := by
  induction es generalizing θ with
  | nil => rfl
  | cons e es ih =>
    rw [writeTemps, List.foldl_cons]
    have := ih (θ := Function.update θ e.idx e.x1) fun e' he' => h e' (List.mem_cons_of_mem _ he')
    rw [writeTemps] at this
    rw [this, Function.update_of_ne (h e List.mem_cons_self).symm]

theorem writeTemps_mem {es : List Iterate} {θ : ℕ → ℝ} (hn : (es.map Iterate.idx).Nodup) {e : Iterate}
    (he : e ∈ es) : writeTemps es θ e.idx = e.x1 := by
  induction es generalizing θ with
  | nil => simp at he
  | cons e' es ih =>
    rw [List.map_cons, List.nodup_cons] at hn
    rw [writeTemps, List.foldl_cons]
    rcases List.mem_cons.1 he with rfl | h
    · have := writeTemps_not_mem (es := es) (θ := Function.update θ e.idx e.x1) (i := e.idx)
        fun e'' he'' heq => hn.1 (heq ▸ List.mem_map_of_mem he'')
      rw [writeTemps] at this
      rw [this, Function.update_self]
    · exact ih hn.2 h

/-- Loop invariant. -/
structure Good (bal : ℕ → ℝ → ℝ) (s : Loop) : Prop where
  nodup : (s.es.map Iterate.idx).Nodup
  y0 : ∀ e ∈ s.es, e.y0 = bal e.idx e.x0
  y1 : ∀ e ∈ s.es, e.y1 = bal e.idx e.x1
  temp : ∀ e ∈ s.es, s.temp e.idx = e.x1

theorem Good.d {bal : ℕ → ℝ → ℝ} {s : Loop} (h : Good bal s) {e : Iterate} (he : e ∈ s.es) :
    e.d = corr (bal e.idx) e.x0 e.x1 := by
  rw [Iterate.d, h.y0 e he, h.y1 e he, corr]

theorem good_start (bal : ℕ → ℝ → ℝ) {idxs : List ℕ} (hn : idxs.Nodup) (θ : ℕ → ℝ) :
    Good bal (Loop.start bal idxs θ) := by
  have hm : ((idxs.map fun i => (⟨i, T0 - 10, T0, bal i (T0 - 10), bal i T0⟩ : Iterate)).map Iterate.idx).Nodup := by
    simpa [List.map_map, Function.comp_def] using hn
  refine ⟨hm, ?_, ?_, fun e he => writeTemps_mem hm he⟩
  · intro e he
    simp only [Loop.start, List.mem_map] at he
    obtain ⟨i, -, rfl⟩ := he; rfl
  · intro e he
    simp only [Loop.start, List.mem_map] at he
    obtain ⟨i, -, rfl⟩ := he; rfl

theorem good_next {bal : ℕ → ℝ → ℝ} {s s' : Loop} (h : Good bal s) (hr : s.round bal = some s') : Good bal s' := by
  simp only [Loop.round] at hr
  split_ifs at hr with hgo
  simp only [Option.some.injEq] at hr
  subst hr
  have hm : (((s.es.filter fun e => decide e.Goes).map (Iterate.next bal)).map Iterate.idx).Nodup := by
    rw [List.map_map]
    have : Iterate.idx ∘ Iterate.next bal = Iterate.idx := by funext e; rfl
    rw [this]
    exact h.nodup.sublist (List.filter_sublist.map _)
  refine ⟨hm, ?_, ?_, fun e he => writeTemps_mem hm he⟩
  · intro e he
    simp only [List.mem_map, List.mem_filter] at he
    obtain ⟨e', ⟨he', -⟩, rfl⟩ := he
    exact h.y1 e' he'
  · intro e he
    simp only [List.mem_map, List.mem_filter] at he
    obtain ⟨e', -, rfl⟩ := he
    rfl

theorem goes_iff (e : Iterate) : decide e.Goes = true ↔ ¬ |e.d| ≤ tol := by
  rw [decide_eq_true_iff, Iterate.Goes, not_le]

theorem round_none {bal : ℕ → ℝ → ℝ} {s : Loop} (h : Good bal s) :
    s.round bal = none ↔ ∀ e ∈ s.es, |corr (bal e.idx) e.x0 e.x1| ≤ tol := by
  simp only [Loop.round]
  split_ifs with hgo
  · rw [List.filter_eq_nil_iff] at hgo
    refine ⟨fun _ e he => ?_, fun _ => rfl⟩
    have := hgo e he
    rw [← h.d he]
    rw [goes_iff] at this
    exact not_not.1 this
  · simp only [reduceCtorEq, false_iff]
    intro hall
    apply hgo
    rw [List.filter_eq_nil_iff]
    intro e he
    have := hall e he
    rw [← h.d he] at this
    rw [goes_iff]
    exact not_not.2 this

/-- Refinement: the loop over all pixels performs the iteration of each pixel. -/
theorem run_refines {bal : ℕ → ℝ → ℝ} (n : ℕ) {s : Loop} (h : Good bal s) :
    (∀ e ∈ s.es, (s.run bal n).1.temp e.idx = (pixRun (bal e.idx) n e.x0 e.x1).2.1) ∧
    (∀ i, (∀ e ∈ s.es, e.idx ≠ i) → (s.run bal n).1.temp i = s.temp i) ∧
    ((s.run bal n).2 = true ↔ ∀ e ∈ s.es, (pixRun (bal e.idx) n e.x0 e.x1).2.2 = true) := by
  induction n generalizing s with
  | zero =>
    refine ⟨fun e he => ?_, fun i _ => rfl, ?_⟩
    · simpa [Loop.run, pixRun] using h.temp e he
    · simp only [Loop.run, pixRun, decide_eq_true_eq]
      exact round_none h
  | succ n ih =>
    rcases hr : s.round bal with _ | s'
    · have hall := (round_none h).1 hr
      have e0 : s.run bal (n + 1) = (s, true) := by simp only [Loop.run, hr]
      rw [e0]
      refine ⟨fun e he => ?_, fun i _ => rfl, ?_⟩
      · rw [pixRun_stop (hall e he)]; exact h.temp e he
      · simp only [true_iff]
        intro e he; rw [pixRun_stop (hall e he)]
    · have e0 : s.run bal (n + 1) = s'.run bal n := by simp only [Loop.run, hr]
      rw [e0]
      have h' := good_next h hr
      obtain ⟨i1, i2, i3⟩ := ih h'
      have hes : s'.es = (s.es.filter fun e => decide e.Goes).map (Iterate.next bal) ∧
          s'.temp = writeTemps s'.es s.temp := by
        simp only [Loop.round] at hr
        split_ifs at hr
        simp only [Option.some.injEq] at hr
        subst hr; exact ⟨rfl, rfl⟩
      have hmem : ∀ e ∈ s.es, ¬ |corr (bal e.idx) e.x0 e.x1| ≤ tol → e.next bal ∈ s'.es := by
        intro e he hg
        rw [hes.1]
        refine List.mem_map_of_mem (List.mem_filter.2 ⟨he, ?_⟩)
        rw [← h.d he] at hg
        exact (goes_iff e).2 hg
      have hnot : ∀ e ∈ s.es, |corr (bal e.idx) e.x0 e.x1| ≤ tol → ∀ e' ∈ s'.es, e'.idx ≠ e.idx := by
        intro e he hg e' he' heq
        rw [hes.1] at he'
        simp only [List.mem_map, List.mem_filter] at he'
        obtain ⟨e'', ⟨he'', hg''⟩, rfl⟩ := he'
        have : e'' = e := by
          have hinj := List.inj_on_of_nodup_map h.nodup
          exact hinj he'' he heq
        subst this
        rw [← h.d he''] at hg
        exact (goes_iff e'').1 hg'' hg
      refine ⟨fun e he => ?_, fun i hi => ?_, ?_⟩
      · by_cases hg : |corr (bal e.idx) e.x0 e.x1| ≤ tol
        · rw [i2 e.idx (hnot e he hg), hes.2, writeTemps_not_mem (hnot e he hg), pixRun_stop hg]
          exact h.temp e he
        · have := i1 _ (hmem e he hg)
          rw [pixRun_go hg]
          simpa [Iterate.next, h.d he] using this
      · have hno : ∀ e' ∈ s'.es, e'.idx ≠ i := by
          intro e' he'
          rw [hes.1] at he'
          simp only [List.mem_map, List.mem_filter] at he'
          obtain ⟨e'', ⟨he'', -⟩, rfl⟩ := he'
          exact hi e'' he''
        rw [i2 i hno, hes.2, writeTemps_not_mem hno]
      · rw [i3]
        constructor
        · intro hall e he
          by_cases hg : |corr (bal e.idx) e.x0 e.x1| ≤ tol
          · rw [pixRun_stop hg]
          · have := hall _ (hmem e he hg)
            rw [pixRun_go hg]
            simpa [Iterate.next, h.d he] using this
        · intro hall e' he'
          rw [hes.1] at he'
          simp only [List.mem_map, List.mem_filter] at he'
          obtain ⟨e, ⟨he, hg⟩, rfl⟩ := he'
          have hg' : ¬ |corr (bal e.idx) e.x0 e.x1| ≤ tol := by
            rw [← h.d he]
            exact (goes_iff e).1 hg
          have := hall e he
          rw [pixRun_go hg'] at this
          simpa [Iterate.next, h.d he] using this

end Verif.SurfaceTemp
