import Verif.Model.Freq
import Mathlib.Data.Nat.Digits.Lemmas
import Mathlib.Tactic

/-!
# C92: frequency strings
-/

namespace Verif.Freq

theorem idx_digit (d : ℕ) (h : d < 10) : digitChars.idxOf (digitChars.getD d '0') = d := by
  interval_cases d <;> rfl

theorem digit_mem (d : ℕ) (h : d < 10) : digitChars.getD d '0' ∈ digitChars := by
  interval_cases d <;> simp [digitChars]

theorem showNat_ne (n : ℕ) : showNat n ≠ [] := by
  unfold showNat
  split_ifs with h
  · simp
  · simp [Nat.digits_eq_nil_iff_eq_zero, h]

theorem showNat_mem (n : ℕ) : ∀ c ∈ showNat n, c ∈ digitChars := by
  unfold showNat
  split_ifs with h
  · simp [digitChars]
  · intro c hc
    obtain ⟨d, hd, rfl⟩ := List.mem_map.mp hc
    exact digit_mem d (Nat.digits_lt_base (by norm_num) (List.mem_reverse.mp hd))

/-- Numbers are read as they are printed. -/
theorem parse_show (n : ℕ) : parseNat (showNat n) = some n := by
  unfold parseNat
  rw [if_pos ⟨showNat_ne n, showNat_mem n⟩]
  unfold showNat
  split_ifs with h
  · rw [h]; simp [digitChars, Nat.ofDigits]
  · rw [List.map_map]
    have : ((Nat.digits 10 n).reverse).map ((fun c => digitChars.idxOf c) ∘
        fun d => digitChars.getD d '0') = (Nat.digits 10 n).reverse := by
      conv_rhs => rw [← List.map_id (Nat.digits 10 n).reverse]
      apply List.map_congr_left
      intro d hd
      exact idx_digit d (Nat.digits_lt_base (by norm_num) (List.mem_reverse.mp hd))
    rw [this, List.reverse_reverse, Nat.ofDigits_digits]

theorem parseInt_digits (s : List Char) (h : ∀ c ∈ s, c ∈ digitChars) :
    parseInt s = (parseNat s).map fun n : ℕ => (n : ℤ) := by
  match s with
  | [] => rfl
  | c :: s =>
    have hc := h c (by simp)
    unfold parseInt
    split
    · rename_i s' heq
      injection heq with h1 h2
      subst h1
      exact absurd hc (by decide)
    · rename_i s' heq
      injection heq with h1 h2
      subst h1
      exact absurd hc (by decide)
    · rfl

theorem showInt_nat (n : ℕ) : showInt (n : ℤ) = showNat n := by
  unfold showInt
  rw [if_neg (by omega), Int.natAbs_natCast]

theorem not_special (s : List Char) (c : Char) (h : c ≠ 'E') :
    s ++ [c] ≠ ['M', 'E'] ∧ s ++ [c] ≠ ['Y', 'E'] := by
  constructor <;> intro he <;> have := congrArg List.getLast? he <;> simp at this <;> exact h this

/-- **C92.** `n` days are 24 `n` hours. -/
theorem C92_days (n : ℕ) (c : Char) (hc : c = 'D' ∨ c = 'd') :
    toOffset (showNat n ++ [c]) = .pandas (showNat (24 * n) ++ ['h']) := by
  unfold toOffset replaced
  rw [List.getLast?_concat]
  simp only [List.dropLast_concat]
  rw [if_pos hc, if_neg (showNat_ne n), parseInt_digits _ (showNat_mem n), parse_show]
  simp only [Option.map_some]
  have e : (24 : ℤ) * (n : ℤ) = ((24 * n : ℕ) : ℤ) := by push_cast; ring
  rw [e, showInt_nat]
  obtain ⟨h1, h2⟩ := not_special (showNat (24 * n)) 'h' (by decide)
  rw [if_neg h1, if_neg h2]

/-- **C92.** A signed number of days: `-n` days are `-24 n` hours, a plus sign is dropped. -/
theorem C92_signed_days (n : ℕ) (hn : 0 < n) (c : Char) (hc : c = 'D' ∨ c = 'd') :
    toOffset ('-' :: showNat n ++ [c]) = .pandas ('-' :: showNat (24 * n) ++ ['h']) ∧
    toOffset ('+' :: showNat n ++ [c]) = .pandas (showNat (24 * n) ++ ['h']) := by
  constructor
  · unfold toOffset replaced
    rw [List.getLast?_concat]
    simp only [List.dropLast_concat]
    rw [if_pos hc, if_neg (by simp)]
    simp only [parseInt, parse_show, Option.map_some]
    have e : showInt (24 * -(n : ℤ)) = '-' :: showNat (24 * n) := by
      unfold showInt
      rw [if_pos (by omega), show (24 * -(n : ℤ)).natAbs = 24 * n by omega]
    rw [e]
    obtain ⟨h1, h2⟩ := not_special ('-' :: showNat (24 * n)) 'h' (by decide)
    rw [if_neg h1, if_neg h2]
  · unfold toOffset replaced
    rw [List.getLast?_concat]
    simp only [List.dropLast_concat]
    rw [if_pos hc, if_neg (by simp)]
    simp only [parseInt, parse_show, Option.map_some]
    have e : (24 : ℤ) * (n : ℤ) = ((24 * n : ℕ) : ℤ) := by push_cast; ring
    rw [e, showInt_nat]
    obtain ⟨h1, h2⟩ := not_special (showNat (24 * n)) 'h' (by decide)
    rw [if_neg h1, if_neg h2]

/-- **C92.** A day is 24 hours. -/
theorem C92_day (c : Char) (hc : c = 'D' ∨ c = 'd') : toOffset [c] = .pandas ['2', '4', 'h'] := by
  have h24 : showInt (24 * 1) ++ ['h'] = ['2', '4', 'h'] := by
    simp [showInt, showNat, digitChars]
  unfold toOffset replaced
  simp only [List.getLast?_singleton, List.dropLast_singleton]
  rw [if_pos hc, if_pos trivial, h24]
  rfl

/-- **C92.** The deprecated alias for hours. -/
theorem C92_hours (p : List Char) : toOffset (p ++ ['H']) = .pandas (p ++ ['h']) ∧
    toOffset (p ++ ['h']) = .pandas (p ++ ['h']) := by
  obtain ⟨h1, h2⟩ := not_special p 'h' (by decide)
  constructor <;>
  · unfold toOffset replaced
    rw [List.getLast?_concat]
    simp [h1, h2]

/-- **C92.** The deprecated aliases for month and year ends have the meaning of the new ones. -/
theorem C92_ends (p : List Char) :
    toOffset (p ++ ['M']) = toOffset (p ++ ['M', 'E']) ∧
    toOffset (p ++ ['Y']) = toOffset (p ++ ['Y', 'E']) := by
  have e1 : p ++ ['M', 'E'] = (p ++ ['M']) ++ ['E'] := by simp
  have e2 : p ++ ['Y', 'E'] = (p ++ ['Y']) ++ ['E'] := by simp
  constructor
  · unfold toOffset replaced
    rw [e1, List.getLast?_concat, List.getLast?_concat]
    simp
  · unfold toOffset replaced
    rw [e2, List.getLast?_concat, List.getLast?_concat]
    simp

/-- **C92.** Month and year ends without multiplier are created directly. -/
theorem C92_direct : toOffset ['M', 'E'] = .monthEnd ∧ toOffset ['M'] = .monthEnd ∧
    toOffset ['Y', 'E'] = .yearEnd ∧ toOffset ['Y'] = .yearEnd := by
  refine ⟨?_, ?_, ?_, ?_⟩ <;> rfl

/-- **C92.** All other strings reach pandas unchanged, if they do not end in one of the letters of the aliases. -/
theorem C92_unchanged (p : List Char) (c : Char) (h : c ∉ ['D', 'd', 'H', 'M', 'Y'])
    (h1 : p ++ [c] ≠ ['M', 'E']) (h2 : p ++ [c] ≠ ['Y', 'E']) :
    toOffset (p ++ [c]) = .pandas (p ++ [c]) := by
  simp only [List.mem_cons, List.not_mem_nil, or_false, not_or] at h
  obtain ⟨a1, a2, a3, a4, a5⟩ := h
  unfold toOffset replaced
  rw [List.getLast?_concat]
  simp only
  rw [if_neg (by rintro (h | h) <;> contradiction), if_neg a3, if_neg a4, if_neg a5]
  simp only
  rw [if_neg h1, if_neg h2]

/-- Frequencies of pandas that are anchored to a day of the week or a month: a prefix such as `W`, `YS`, `QE`,
`2W`, and the anchor. -/
inductive Anchored : List Char → Prop
  | week (p a : List Char) (h : a ∈ ["MON", "TUE", "WED", "THU", "FRI", "SAT", "SUN"].map String.toList) :
      Anchored (p ++ ['W', '-'] ++ a)
  | month (p a : List Char)
      (h : a ∈ ["JAN", "FEB", "MAR", "APR", "MAY", "JUN", "JUL", "AUG", "SEP", "OCT", "NOV",
        "DEC"].map String.toList) :
      Anchored (p ++ ['-'] ++ a)

/-- **C92.** Frequencies anchored to Wednesday or May are changed: weeks ending on Wednesday raise, years starting
in May become an unknown frequency. -/
theorem C92_anchored_false : ¬ ∀ s, Anchored s → toOffset s = .pandas s := by
  intro h
  have := h "W-WED".toList (Anchored.week [] "WED".toList (by simp))
  revert this
  decide

/-- **C92.** The outcome for these frequencies. -/
theorem C92_anchored_witness (p : List Char) :
    toOffset (p ++ "-MAY".toList) = .pandas (p ++ "-MAYE".toList) ∧
    toOffset (p ++ "W-WED".toList) = .error := by
  constructor
  · have e : p ++ "-MAY".toList = (p ++ "-MA".toList) ++ ['Y'] := by simp
    rw [e, (C92_ends _).2]
    have e2 : (p ++ "-MA".toList) ++ ['Y', 'E'] = (p ++ "-MAY".toList) ++ ['E'] := by simp
    have e3 : p ++ "-MAYE".toList = (p ++ "-MAY".toList) ++ ['E'] := by simp
    rw [e2, e3]
    refine C92_unchanged _ 'E' (by decide) ?_ ?_ <;>
    · intro he
      have := congrArg List.length he
      simp at this
  · have e : p ++ "W-WED".toList = (p ++ "W-WE".toList) ++ ['D'] := by simp
    have hp : ∀ (q : List Char) (c : Char), c ∉ digitChars → parseNat (q ++ [c]) = none := by
      intro q c hc
      unfold parseNat
      rw [if_neg]
      rintro ⟨-, h⟩
      exact hc (h c (by simp))
    have hE : 'E' ∉ digitChars := by decide
    have hi : parseInt ((p ++ "W-W".toList) ++ ['E']) = none := by
      match p with
      | [] => rfl
      | c :: q =>
        have e : (c :: q ++ "W-W".toList) ++ ['E'] = c :: ((q ++ "W-W".toList) ++ ['E']) := by simp
        have hn := hp (q ++ "W-W".toList) 'E' hE
        have hn' := hp (c :: (q ++ "W-W".toList)) 'E' hE
        rw [e]
        unfold parseInt
        split
        · rename_i s' heq
          injection heq with h1 h2
          rw [← h2, hn]; rfl
        · rename_i s' heq
          injection heq with h1 h2
          rw [← h2, hn]; rfl
        · rw [show c :: ((q ++ "W-W".toList) ++ ['E']) = (c :: (q ++ "W-W".toList)) ++ ['E'] by simp,
            hn']; rfl
    unfold toOffset replaced
    rw [e, List.getLast?_concat]
    simp only [List.dropLast_concat]
    rw [if_pos (Or.inl trivial), if_neg (by simp),
      show p ++ "W-WE".toList = (p ++ "W-W".toList) ++ ['E'] by simp, hi]
    rfl

/-- **C92, partial.** All other anchors are left alone. Full statement: all anchors. -/
theorem C92_anchored_partial (s : List Char) (h : Anchored s)
    (hw : ¬ ∃ p, s = p ++ "W-WED".toList) (hm : ¬ ∃ p, s = p ++ "-MAY".toList) :
    toOffset s = .pandas s := by
  have key : ∀ (p : List Char) (a b c : Char), c ∉ ['D', 'd', 'H', 'M', 'Y'] → c ≠ 'E' →
      toOffset (p ++ [a, b, c]) = .pandas (p ++ [a, b, c]) := by
    intro p a b c hc hE
    have e : p ++ [a, b, c] = (p ++ [a, b]) ++ [c] := by simp
    rw [e]
    exact C92_unchanged _ c hc (not_special _ c hE).1 (not_special _ c hE).2
  have keyE : ∀ (p : List Char) (a b : Char), 
      toOffset (p ++ [a, b, 'E']) = .pandas (p ++ [a, b, 'E']) := by
    intro p a b
    have e : p ++ [a, b, 'E'] = (p ++ [a, b]) ++ ['E'] := by simp
    rw [e]
    refine C92_unchanged _ 'E' (by decide) ?_ ?_ <;>
    · intro he
      have := congrArg List.length he
      simp at this
  cases h with
  | week p a h =>
    simp only [List.map_cons, List.map_nil, List.mem_cons, List.not_mem_nil, or_false] at h
    rcases h with rfl | rfl | rfl | rfl | rfl | rfl | rfl
    · exact key (p ++ ['W', '-']) 'M' 'O' 'N' (by decide) (by decide)
    · exact keyE (p ++ ['W', '-']) 'T' 'U'
    · exact absurd ⟨p, by simp⟩ hw
    · exact key (p ++ ['W', '-']) 'T' 'H' 'U' (by decide) (by decide)
    · exact key (p ++ ['W', '-']) 'F' 'R' 'I' (by decide) (by decide)
    · exact key (p ++ ['W', '-']) 'S' 'A' 'T' (by decide) (by decide)
    · exact key (p ++ ['W', '-']) 'S' 'U' 'N' (by decide) (by decide)
  | month p a h =>
    simp only [List.map_cons, List.map_nil, List.mem_cons, List.not_mem_nil, or_false] at h
    rcases h with rfl | rfl | rfl | rfl | rfl | rfl | rfl | rfl | rfl | rfl | rfl | rfl
    · exact key (p ++ ['-']) 'J' 'A' 'N' (by decide) (by decide)
    · exact key (p ++ ['-']) 'F' 'E' 'B' (by decide) (by decide)
    · exact key (p ++ ['-']) 'M' 'A' 'R' (by decide) (by decide)
    · exact key (p ++ ['-']) 'A' 'P' 'R' (by decide) (by decide)
    · exact absurd ⟨p, by simp⟩ hm
    · exact key (p ++ ['-']) 'J' 'U' 'N' (by decide) (by decide)
    · exact key (p ++ ['-']) 'J' 'U' 'L' (by decide) (by decide)
    · exact key (p ++ ['-']) 'A' 'U' 'G' (by decide) (by decide)
    · exact key (p ++ ['-']) 'S' 'E' 'P' (by decide) (by decide)
    · exact key (p ++ ['-']) 'O' 'C' 'T' (by decide) (by decide)
    · exact key (p ++ ['-']) 'N' 'O' 'V' (by decide) (by decide)
    · exact key (p ++ ['-']) 'D' 'E' 'C' (by decide) (by decide)

end Verif.Freq
