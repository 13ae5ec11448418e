import Verif.Props.Rounded
import Mathlib.Tactic.Positivity
import Mathlib.Data.Rat.Floor

/-!
# C137: floating point formats, and melt that leaves a remainder
-/

set_option linter.unusedSectionVars false

namespace Verif.Rounded

variable {K : Type*} [Field K] [LinearOrder K] [IsStrictOrderedRing K] [FloorRing K]

/-- Rounding to integers: monotone, keeps integers, error at most `δ`. -/
structure IntRounding (δ : K) (r : K → ℤ) : Prop where
  mono : Monotone r
  int : ∀ n : ℤ, r (n : K) = n
  err : ∀ x, |(r x : K) - x| ≤ δ

theorem log_eq {x : K} {k : ℤ} (h1 : (2 : K) ^ k ≤ x) (h2 : x < 2 ^ (k + 1)) : Int.log 2 x = k := by
  have hx : 0 < x := lt_of_lt_of_le (by positivity) h1
  have a : k ≤ Int.log 2 x := (Int.zpow_le_iff_le_log (b := 2) (by norm_num) hx).mp (by simpa using h1)
  have b : Int.log 2 x < k + 1 := (Int.lt_zpow_iff_log_lt (b := 2) (by norm_num) hx).mp (by simpa using h2)
  omega

theorem log_le {x : K} (hx : 0 < x) : (2 : K) ^ Int.log 2 x ≤ x := by
  simpa using Int.zpow_log_le_self (b := 2) (by norm_num) hx

theorem lt_log (x : K) : x < (2 : K) ^ (Int.log 2 x + 1) := by
  simpa using Int.lt_zpow_succ_log_self (b := 2) (by norm_num) x

/-- A number between two powers of two and its multiple of the unit in the last place. -/
theorem fltPos_eq (r : K → ℤ) {p : ℕ} {x y : K} {e : ℤ} (hx : x = y * 2 ^ e) (h1 : (2 : K) ^ ((p : ℤ) - 1) ≤ y)
    (h2 : y < 2 ^ (p : ℤ)) : fltPos r p x = r y * 2 ^ e := by
  have h2e : (0 : K) < 2 ^ e := by positivity
  have hl : Int.log 2 x = p - 1 + e := by
    apply log_eq
    · rw [zpow_add₀ (by norm_num), hx]
      exact mul_le_mul_of_nonneg_right h1 h2e.le
    · rw [show (p : ℤ) - 1 + e + 1 = p + e by ring, zpow_add₀ (by norm_num), hx]
      exact mul_lt_mul_of_pos_right h2 h2e
  rw [fltPos, hl, show (p : ℤ) - 1 + e - p + 1 = e by ring, hx, mul_div_assoc, div_self h2e.ne', mul_one]

/-- Every positive number has such a form. -/
theorem normal {p : ℕ} {x : K} (hx : 0 < x) : ∃ (y : K) (e : ℤ), x = y * 2 ^ e ∧ (2 : K) ^ ((p : ℤ) - 1) ≤ y ∧
    y < 2 ^ (p : ℤ) ∧ e = Int.log 2 x - p + 1 := by
  refine ⟨x / 2 ^ (Int.log 2 x - p + 1), Int.log 2 x - p + 1, ?_, ?_, ?_, rfl⟩
  · rw [div_mul_cancel₀]
    positivity
  · rw [le_div_iff₀ (by positivity), ← zpow_add₀ (by norm_num)]
    rw [show (p : ℤ) - 1 + (Int.log 2 x - p + 1) = Int.log 2 x by ring]
    exact log_le hx
  · rw [div_lt_iff₀ (by positivity), ← zpow_add₀ (by norm_num)]
    rw [show (p : ℤ) + (Int.log 2 x - p + 1) = Int.log 2 x + 1 by ring]
    exact lt_log x

theorem int_pow (p : ℕ) (hp : 1 ≤ p) : ∃ n : ℤ, (2 : K) ^ ((p : ℤ) - 1) = n ∧ (2 : K) ^ (p : ℤ) = ((2 * n : ℤ) : K) ∧ 0 < n := by
  refine ⟨2 ^ (p - 1), ?_, ?_, by positivity⟩
  · push_cast
    rw [← zpow_natCast]
    congr 1
    omega
  · push_cast
    rw [← zpow_natCast, ← zpow_one_add₀ (by norm_num)]
    congr 1
    omega

section

variable {δ : K} {r : K → ℤ} (hr : IntRounding δ r) {p : ℕ} (hp : 1 ≤ p)
include hr hp

/-- The rounded significand stays between the powers of two. -/
theorem signif {y : K} (h1 : (2 : K) ^ ((p : ℤ) - 1) ≤ y) (h2 : y < 2 ^ (p : ℤ)) :
    (2 : K) ^ ((p : ℤ) - 1) ≤ r y ∧ (r y : K) ≤ 2 ^ (p : ℤ) := by
  obtain ⟨n, hn, hn2, -⟩ := int_pow (K := K) p hp
  rw [hn] at h1 ⊢
  rw [hn2] at h2 ⊢
  constructor
  · have := hr.mono h1
    rw [hr.int] at this
    exact_mod_cast this
  · have := hr.mono h2.le
    rw [hr.int] at this
    exact_mod_cast this

theorem fltPos_pos {x : K} (hx : 0 < x) : 0 < fltPos r p x := by
  obtain ⟨y, e, hxy, h1, h2, -⟩ := normal (p := p) hx
  rw [fltPos_eq r hxy h1 h2]
  have := (signif hr hp h1 h2).1
  have : (0 : K) < r y := lt_of_lt_of_le (by positivity) this
  positivity

theorem fltPos_mono {x x' : K} (hx : 0 < x) (hxx : x ≤ x') : fltPos r p x ≤ fltPos r p x' := by
  obtain ⟨y, e, hxy, h1, h2, he⟩ := normal (p := p) hx
  obtain ⟨y', e', hxy', h1', h2', he'⟩ := normal (p := p) (hx.trans_le hxx)
  rw [fltPos_eq r hxy h1 h2, fltPos_eq r hxy' h1' h2']
  have hle : e ≤ e' := by
    have := Int.log_mono_right (b := 2) hx hxx
    omega
  rcases eq_or_lt_of_le hle with rfl | hlt
  · have : y ≤ y' := by
      rw [hxy, hxy'] at hxx
      exact le_of_mul_le_mul_right hxx (by positivity)
    have := hr.mono this
    exact mul_le_mul_of_nonneg_right (by exact_mod_cast this) (by positivity)
  · calc (r y : K) * 2 ^ e ≤ 2 ^ (p : ℤ) * 2 ^ e := mul_le_mul_of_nonneg_right (signif hr hp h1 h2).2 (by positivity)
      _ = 2 ^ ((p : ℤ) - 1) * 2 ^ (e + 1) := by
        rw [← zpow_add₀ (by norm_num), ← zpow_add₀ (by norm_num)]
        congr 1
        ring
      _ ≤ 2 ^ ((p : ℤ) - 1) * 2 ^ e' := by
        refine mul_le_mul_of_nonneg_left ?_ (by positivity)
        exact zpow_le_zpow_right₀ (by norm_num) (by omega)
      _ ≤ r y' * 2 ^ e' := mul_le_mul_of_nonneg_right (signif hr hp h1' h2').1 (by positivity)

theorem fltPos_idem {x : K} (hx : 0 < x) : fltPos r p (fltPos r p x) = fltPos r p x := by
  obtain ⟨y, e, hxy, h1, h2, he⟩ := normal (p := p) hx
  rw [fltPos_eq r hxy h1 h2]
  obtain ⟨s1, s2⟩ := signif hr hp h1 h2
  rcases eq_or_lt_of_le s2 with hs | hs
  · obtain ⟨n, hn, hn2, -⟩ := int_pow (K := K) p hp
    rw [fltPos_eq r (y := (n : K)) (e := e + 1) ?_ hn.le ?_, hr.int, hs, hn2]
    · rw [zpow_add₀ (by norm_num)]
      push_cast
      ring
    · rw [hs, hn2, zpow_add₀ (by norm_num)]
      push_cast
      ring
    · rw [← hn]
      exact zpow_lt_zpow_right₀ (by norm_num) (by omega)
  · rw [fltPos_eq r rfl s1 hs, hr.int]

theorem fltPos_rel {x : K} (hx : 0 < x) : |fltPos r p x - x| ≤ δ * 2 ^ (1 - (p : ℤ)) * x := by
  obtain ⟨y, e, hxy, h1, h2, he⟩ := normal (p := p) hx
  have hδ : 0 ≤ δ := (abs_nonneg _).trans (hr.err 0)
  rw [fltPos_eq r hxy h1 h2]
  calc |(r y : K) * 2 ^ e - x| = |(r y : K) - y| * 2 ^ e := by
        rw [hxy, ← sub_mul, abs_mul, abs_of_pos (show (0 : K) < 2 ^ e by positivity)]
    _ ≤ δ * 2 ^ e := mul_le_mul_of_nonneg_right (hr.err y) (by positivity)
    _ = δ * 2 ^ (1 - (p : ℤ)) * (2 ^ ((p : ℤ) - 1) * 2 ^ e) := by
      rw [mul_assoc, ← mul_assoc ((2 : K) ^ (1 - (p : ℤ))), ← zpow_add₀ (by norm_num)]
      rw [show 1 - (p : ℤ) + (p - 1) = 0 by ring, zpow_zero, one_mul]
    _ ≤ δ * 2 ^ (1 - (p : ℤ)) * (y * 2 ^ e) := by
      refine mul_le_mul_of_nonneg_left (mul_le_mul_of_nonneg_right h1 (by positivity)) (by positivity)
    _ = _ := by rw [hxy]

theorem fltPos_one : fltPos r p (1 : K) = 1 := by
  obtain ⟨n, hn, hn2, hn0⟩ := int_pow (K := K) p hp
  rw [fltPos_eq r (y := (n : K)) (e := 1 - p) ?_ hn.le ?_, hr.int, ← hn, ← zpow_add₀ (by norm_num)]
  · rw [show (p : ℤ) - 1 + (1 - p) = 0 by ring, zpow_zero]
  · rw [← hn, ← zpow_add₀ (by norm_num), show (p : ℤ) - 1 + (1 - p) = 0 by ring, zpow_zero]
  · rw [← hn]
    exact zpow_lt_zpow_right₀ (by norm_num) (by omega)

/-- **C137.** Floating point numbers with `p` binary digits: the assumptions on rounding hold for every rounding direction,
with relative error `δ 2^(1-p)` (`δ = 1/2` to nearest, 1 otherwise). -/
theorem C137_format : IsRounding (δ * 2 ^ (1 - (p : ℤ))) (flt r p) where
  mono := by
    intro x x' hxx
    unfold flt
    by_cases h1 : 0 < x
    · rw [if_pos h1, if_pos (h1.trans_le hxx)]
      exact fltPos_mono hr hp h1 hxx
    · rw [if_neg h1]
      by_cases h2 : x < 0
      · rw [if_pos h2]
        have hneg := fltPos_pos hr hp (x := -x) (by linarith)
        by_cases h3 : 0 < x'
        · rw [if_pos h3]
          linarith [fltPos_pos hr hp h3]
        · rw [if_neg h3]
          by_cases h4 : x' < 0
          · rw [if_pos h4]
            exact neg_le_neg (fltPos_mono hr hp (by linarith) (by linarith))
          · rw [if_neg h4]
            linarith
      · rw [if_neg h2]
        by_cases h3 : 0 < x'
        · rw [if_pos h3]
          exact (fltPos_pos hr hp h3).le
        · rw [if_neg h3, if_neg (by linarith)]
  one := by rw [flt, if_pos one_pos]; exact fltPos_one hr hp
  idem := by
    intro x
    rcases lt_trichotomy x 0 with h | h | h
    · have hy := fltPos_pos hr hp (x := -x) (by linarith)
      have e1 : flt r p x = -fltPos r p (-x) := by rw [flt, if_neg (by linarith), if_pos h]
      rw [e1, flt, if_neg (by linarith), if_pos (by linarith), neg_neg, fltPos_idem hr hp (by linarith)]
    · simp [flt, h]
    · have hy := fltPos_pos hr hp h
      have e1 : flt r p x = fltPos r p x := by rw [flt, if_pos h]
      rw [e1, flt, if_pos hy, fltPos_idem hr hp h]
  rel := by
    intro x
    rcases lt_trichotomy x 0 with h | h | h
    · rw [flt, if_neg (by linarith), if_pos h, abs_of_neg h]
      have := fltPos_rel hr hp (x := -x) (by linarith)
      calc |-fltPos r p (-x) - x| = |fltPos r p (-x) - -x| := by rw [← abs_neg]; congr 1; ring
        _ ≤ _ := this
    · simp [flt, h]
    · rw [flt, if_pos h, abs_of_pos h]
      exact fltPos_rel hr hp h

end

/-- Rounding to nearest of a number given by its significand. -/
theorem flt_eq {r : K → ℤ} (hr : IntRounding (1 / 2 : K) r) {p : ℕ} (hp : 1 ≤ p) {x y : K} {e n : ℤ} (hx : x = y * 2 ^ e)
    (h1 : (2 : K) ^ ((p : ℤ) - 1) ≤ y) (h2 : y < 2 ^ (p : ℤ)) (hn : |y - n| < 1 / 2) : flt r p x = n * 2 ^ e := by
  have hpos : 0 < x := by
    rw [hx]
    have : 0 < y := lt_of_lt_of_le (by positivity) h1
    positivity
  rw [flt, if_pos hpos, fltPos_eq r hx h1 h2]
  have : r y = n := by
    have a := hr.err y
    have b : |(r y : K) - n| < 1 := by
      calc |(r y : K) - n| = |(r y - y) + (y - n)| := by congr 1; ring
        _ ≤ |(r y : K) - y| + |y - n| := abs_add_le _ _
        _ < 1 := by linarith
    have c : |(r y - n : ℤ)| < 1 := by
      have : ((|r y - n| : ℤ) : K) < 1 := by push_cast; exact b
      exact_mod_cast this
    have := Int.abs_lt_one_iff.mp c
    omega
  rw [this]

/-- Melt of everything in exact arithmetic. -/
theorem melt_exact : ∀ (p : Pix K), Good p → ∀ d, iceTotal p ≤ d → ∀ L ∈ melt id d p, L.ice = 0 := by
  intro p
  induction p with
  | nil => intro _ d _ L hL; simp [melt] at hL
  | cons M p ih =>
    intro hp d hd L hL
    have hM := hp M (by simp)
    have ht := hp.tail.iceTotal
    rw [iceTotal_cons] at hd
    have hlayer : (meltLayer id d M).2.ice = 0 ∧ iceTotal p ≤ (meltLayer id d M).1 := by
      unfold meltLayer
      split_ifs with h
      · simp only [id]
        rw [min_eq_right (by linarith)]
        exact ⟨sub_self _, by linarith⟩
      · rw [not_and_or, not_lt, not_lt] at h
        rcases h with h | h
        · exact ⟨by dsimp only; linarith [hM.1], by dsimp only; linarith [hM.1]⟩
        · exact ⟨by dsimp only; linarith [hM.1], by dsimp only; linarith [hM.1]⟩
    simp only [melt, List.mem_cons] at hL
    rcases hL with rfl | hL
    · exact hlayer.1
    · exact ih hp.tail _ hlayer.2 L hL

/-- **C137.** Melt of everything leaves nothing in exact arithmetic, but not with rounding to nearest: with `p ≥ 4` binary
digits and at any scale there is a pack of new and old snow whose melt, the sum of the ice of the layers, leaves ice of one
unit in the last place of the lower layer. -/
theorem C137_residue_false (r : K → ℤ) (hr : IntRounding (1 / 2 : K) r) (p : ℕ) (hp : 4 ≤ p) (s : ℤ) :
    ∃ a b : K, 0 < a ∧ a < b ∧ b < 8 * a ∧ flt r p a = a ∧ flt r p b = b ∧
      (∀ L ∈ melt id (iceSum id [⟨a, 0⟩, ⟨b, 0⟩, ⟨0, 0⟩, ⟨0, 0⟩]) [⟨a, 0⟩, ⟨b, 0⟩, ⟨0, 0⟩, ⟨0, 0⟩], L.ice = 0) ∧
      ((melt (flt r p) (iceSum (flt r p) [⟨a, 0⟩, ⟨b, 0⟩, ⟨0, 0⟩, ⟨0, 0⟩]) [⟨a, 0⟩, ⟨b, 0⟩, ⟨0, 0⟩, ⟨0, 0⟩]).map W.ice) =
        [0, 2 ^ s, 0, 0] := by
  obtain ⟨P, hP⟩ : ∃ P : ℤ, P = 2 ^ (p - 4) := ⟨_, rfl⟩
  have hP1 : 1 ≤ P := by rw [hP]; exact one_le_pow₀ (by norm_num)
  have hPK : (1 : K) ≤ P := by exact_mod_cast hP1
  have h16 : (2 : K) ^ (p : ℤ) = 16 * P := by
    rw [hP]
    push_cast
    rw [← zpow_natCast, show (16 : K) = 2 ^ (4 : ℤ) by norm_num, ← zpow_add₀ (by norm_num)]
    congr 1
    omega
  have h8 : (2 : K) ^ ((p : ℤ) - 1) = 8 * P := by
    rw [zpow_sub₀ (by norm_num), h16]
    norm_num
    ring
  have hS : (0 : K) < 2 ^ s := by positivity
  obtain ⟨S, hSS⟩ : ∃ S : K, 2 ^ s = S := ⟨_, rfl⟩
  have hs1 : (2 : K) ^ (s + 1) = 2 * S := by rw [zpow_add₀ (by norm_num), hSS]; norm_num; ring
  have hs2 : (2 : K) ^ (s - 2) = S / 4 := by rw [zpow_sub₀ (by norm_num), hSS]; norm_num
  rw [hSS] at hS ⊢
  have f0 : flt r p (0 : K) = 0 := by simp [flt]
  have fa : flt r p ((2 * P + 7 / 4) * S) = (2 * P + 7 / 4) * S := by
    rw [flt_eq hr (by omega) (y := 8 * P + 7) (e := s - 2) (n := 8 * P + 7) ?_ ?_ ?_ ?_, hs2]
    · push_cast; ring
    · rw [hs2]; ring
    · rw [h8]; linarith
    · rw [h16]; linarith
    · push_cast; norm_num
  have fb : flt r p ((14 * P - 1) * S) = (14 * P - 1) * S := by
    rw [flt_eq hr (by omega) (y := 14 * P - 1) (e := s) (n := 14 * P - 1) ?_ ?_ ?_ ?_, hSS]
    · push_cast; ring
    · rw [hSS]
    · rw [h8]; linarith
    · rw [h16]; linarith
    · push_cast; norm_num
  have fsum : flt r p ((2 * P + 7 / 4) * S + (14 * P - 1) * S) = 16 * P * S := by
    rw [flt_eq hr (by omega) (y := 8 * P + 3 / 8) (e := s + 1) (n := 8 * P) ?_ ?_ ?_ ?_, hs1]
    · push_cast; ring
    · rw [hs1]; ring
    · rw [h8]; linarith
    · rw [h16]; linarith
    · push_cast
      rw [show (8 * (P : K) + 3 / 8 - 8 * P) = 3 / 8 by ring, abs_of_pos (by norm_num)]
      norm_num
  have fd : flt r p (16 * P * S) = 16 * P * S := by
    rw [flt_eq hr (by omega) (y := 8 * P) (e := s + 1) (n := 8 * P) ?_ ?_ ?_ ?_, hs1]
    · push_cast; ring
    · rw [hs1]; ring
    · rw [h8]
    · rw [h16]; linarith
    · push_cast; norm_num
  have frest : flt r p (16 * P * S - (2 * P + 7 / 4) * S) = (14 * P - 2) * S := by
    rw [flt_eq hr (by omega) (y := 14 * P - 7 / 4) (e := s) (n := 14 * P - 2) ?_ ?_ ?_ ?_, hSS]
    · push_cast; ring
    · rw [hSS]; ring
    · rw [h8]; linarith
    · rw [h16]; linarith
    · push_cast
      rw [show (14 * (P : K) - 7 / 4 - (14 * P - 2)) = 1 / 4 by ring, abs_of_pos (by norm_num)]
      norm_num
  have fS : flt r p S = S := by
    have e1 : (8 * (P : K)) * 2 ^ (s - p + 1) = S := by
      rw [← h8, ← zpow_add₀ (by norm_num), ← hSS]
      congr 1
      ring
    rw [flt_eq hr (by omega) (y := 8 * P) (e := s - p + 1) (n := 8 * P) e1.symm ?_ ?_ ?_]
    · push_cast; exact e1
    · rw [h8]
    · rw [h16]; linarith
    · push_cast; norm_num
  have ha : 0 < (2 * (P : K) + 7 / 4) * S := mul_pos (by linarith) hS
  have hb : 0 < (14 * (P : K) - 1) * S := mul_pos (by linarith) hS
  refine ⟨(2 * P + 7 / 4) * S, (14 * P - 1) * S, ha, ?_, ?_, fa, fb, ?_, ?_⟩
  · exact mul_lt_mul_of_pos_right (by linarith) hS
  · nlinarith
  · apply melt_exact
    · intro L hL
      simp only [List.mem_cons, List.not_mem_nil, or_false] at hL
      rcases hL with rfl | rfl | rfl | rfl <;> simp [ha.le, hb.le]
    · simp [iceSum, iceTotal]
  · have hd : iceSum (flt r p) [⟨(2 * P + 7 / 4) * S, 0⟩, ⟨(14 * P - 1) * S, 0⟩, ⟨0, 0⟩, ⟨0, 0⟩] = 16 * P * S := by
      simp only [iceSum, List.foldl_cons, List.foldl_nil, zero_add, add_zero, fa, fsum, fd]
    rw [hd]
    have m1 : min (16 * (P : K) * S) ((2 * P + 7 / 4) * S) = (2 * P + 7 / 4) * S :=
      min_eq_right (mul_le_mul_of_nonneg_right (by linarith) hS.le)
    have m2 : min ((14 * (P : K) - 2) * S) ((14 * P - 1) * S) = (14 * P - 2) * S :=
      min_eq_left (mul_le_mul_of_nonneg_right (by linarith) hS.le)
    have p1 : 0 < 16 * (P : K) * S := mul_pos (by linarith) hS
    have p2 : 0 < (14 * (P : K) - 2) * S := mul_pos (by linarith) hS
    have l1 : ∀ l : K, meltLayer (flt r p) (16 * P * S) ⟨(2 * P + 7 / 4) * S, l⟩ =
        ((14 * P - 2) * S, ⟨0, flt r p (l + (2 * P + 7 / 4) * S)⟩) := by
      intro l
      rw [meltLayer, if_pos ⟨p1, ha⟩]
      simp only [m1, frest, sub_self, f0]
    have l2 : ∀ l : K, meltLayer (flt r p) ((14 * P - 2) * S) ⟨(14 * P - 1) * S, l⟩ =
        (0, ⟨S, flt r p (l + (14 * P - 2) * S)⟩) := by
      intro l
      rw [meltLayer, if_pos ⟨p2, hb⟩]
      simp only [m2, sub_self, f0]
      rw [show (14 * (P : K) - 1) * S - (14 * P - 2) * S = S by ring, fS]
    have l3 : meltLayer (flt r p) (0 : K) ⟨0, 0⟩ = (0, ⟨0, 0⟩) := by simp [meltLayer]
    simp only [melt, l1, l2, l3, List.map_cons, List.map_nil]

/-! ## Examples -/

theorem nearest : IntRounding (1 / 2 : ℚ) round where
  mono := by
    intro x y h
    rw [round_eq, round_eq]
    exact Int.floor_le_floor (by linarith)
  int := round_intCast
  err := fun x => by rw [abs_sub_comm]; exact abs_sub_round x

-- C137_format: double precision, rounding to nearest
example : IsRounding (1 / 2 * 2 ^ (1 - (53 : ℤ)) : ℚ) (flt round 53) := C137_format nearest (by norm_num)

-- C137_signs, C137_balance: a step with snowfall, melt and rain on snow in double precision
example : ∃ e : In ℚ, e.Ok ∧ |total (run (flt round 53) [e] [⟨10, 1⟩, ⟨20, 0⟩, ⟨0, 0⟩, ⟨0, 0⟩]).2 +
    losses (run (flt round 53) [e] [⟨10, 1⟩, ⟨20, 0⟩, ⟨0, 0⟩, ⟨0, 0⟩]).1 -
    (31 + gains [e] (run (flt round 53) [e] [⟨10, 1⟩, ⟨20, 0⟩, ⟨0, 0⟩, ⟨0, 0⟩]).1)| ≤
    ((1 + 1 / 2 * 2 ^ (1 - (53 : ℤ))) ^ 27 - 1) *
      (31 + gains [e] (run (flt round 53) [e] [⟨10, 1⟩, ⟨20, 0⟩, ⟨0, 0⟩, ⟨0, 0⟩]).1) := by
  refine ⟨⟨1 / 3, 1 / 7, 2, [0, 1], 1 / 9, [1, 2], false, false, false⟩, ?_, ?_⟩
  · simp [In.Ok]
  · have := C137_balance (C137_format nearest (p := 53) (by norm_num)) (by norm_num)
      [⟨1 / 3, 1 / 7, 2, [0, 1], 1 / 9, [1, 2], false, false, false⟩] [⟨10, 1⟩, ⟨20, 0⟩, ⟨0, 0⟩, ⟨0, 0⟩] (by simp [In.Ok])
      (by norm_num) rfl
    simp only [List.map_cons, List.map_nil, List.sum_cons, List.sum_nil] at this
    norm_num at this ⊢
    simpa [gains, losses, total] using this

-- C137_residue_false: double precision, 16 and 112 kg m-2 up to the last places
example : ∃ a b : ℚ, a < b ∧ b < 8 * a ∧
    ((melt (flt round 53) (iceSum (flt round 53) [⟨a, 0⟩, ⟨b, 0⟩, ⟨0, 0⟩, ⟨0, 0⟩]) [⟨a, 0⟩, ⟨b, 0⟩, ⟨0, 0⟩, ⟨0, 0⟩]).map W.ice) =
      [0, 2 ^ (-46 : ℤ), 0, 0] := by
  obtain ⟨a, b, -, h1, h2, -, -, -, h3⟩ := C137_residue_false round nearest 53 (by norm_num) (-46)
  exact ⟨a, b, h1, h2, h3⟩

end Verif.Rounded
