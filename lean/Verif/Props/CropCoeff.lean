import Verif.Model.CropCoeff
import Mathlib.Tactic.Linarith
import Mathlib.Tactic.Positivity
import Mathlib.Tactic.FieldSimp
import Mathlib.Tactic.Ring
import Mathlib.Tactic.NormNum
import Mathlib.Tactic.SplitIfs

/-!
# C41, C42: crop coefficient curve and leaf area index
-/

set_option linter.unusedSectionVars false

namespace Verif.CropCoeff

variable {K : Type*} [Field K] [LinearOrder K] [IsStrictOrderedRing K]

/-- Specification: the crop coefficient curve of FAO-56 for a sequence of growth cycles. -/
def curve (c : Coeffs K) : List (ℕ × ℕ × ℕ × ℕ) → ℤ → K
  | [], _ => c.min
  | (i, d, m, l) :: rest, day =>
    if day ≤ 0 then c.min
    else if day ≤ i then c.ini
    else if day ≤ i + d then c.ini + ((day - i : ℤ) : K) / d * (c.mid - c.ini)
    else if day ≤ i + d + m then c.mid
    else if day ≤ i + d + m + l then c.mid + ((day - (i + d + m) : ℤ) : K) / l * (c.fin - c.mid)
    else curve c rest (day - (i + d + m + l))

/-- Stage lengths of a sequence of cycles. -/
def stages (cs : List (ℕ × ℕ × ℕ × ℕ)) : List ℕ := cs.flatMap fun c => [c.1, c.2.1, c.2.2.1, c.2.2.2]

theorem cumsum_shift (t acc : ℕ) (ls : List ℕ) :
    cumsum (t + acc) ls = (cumsum acc ls).map (t + ·) := by
  induction ls generalizing acc with
  | nil => rfl
  | cons l ls ih =>
    simp only [cumsum, List.map_cons]
    rw [Nat.add_assoc, ih]

theorem cumsum_length (acc : ℕ) (ls : List ℕ) : (cumsum acc ls).length = ls.length := by
  induction ls generalizing acc with
  | nil => rfl
  | cons l ls ih => simp [cumsum, ih]

theorem searchsorted_shift (t : ℕ) (a : List ℕ) (day : ℤ) :
    searchsorted (a.map (t + ·)) day = searchsorted a (day - t) := by
  unfold searchsorted
  induction a with
  | nil => rfl
  | cons x a ih =>
    simp only [List.map_cons, List.takeWhile_cons]
    have : decide (((t + x : ℕ) : ℤ) < day) = decide ((x : ℤ) < day - t) := by
      rw [decide_eq_decide]; push_cast; omega
    rw [this]
    split <;> simp [ih]

theorem searchsorted_cons_lt (x : ℕ) (a : List ℕ) (day : ℤ) (h : (x : ℤ) < day) :
    searchsorted (x :: a) day = searchsorted a day + 1 := by
  simp [searchsorted, h]

theorem searchsorted_cons_ge (x : ℕ) (a : List ℕ) (day : ℤ) (h : day ≤ (x : ℤ)) :
    searchsorted (x :: a) day = 0 := by
  simp [searchsorted, h]

theorem coeffAt_curve (c : Coeffs K) (cs : List (ℕ × ℕ × ℕ × ℕ)) (day : ℤ) :
    coeffAt c (stages cs) (cumsum 0 (stages cs)) (searchsorted (0 :: cumsum 0 (stages cs)) day) day =
      some (curve c cs day) := by
  induction cs generalizing day with
  | nil =>
    rcases le_or_gt day 0 with h | h
    · have hn : ¬ 0 < day := not_lt.mpr h
      simp [stages, cumsum, searchsorted, coeffAt, curve, hn]
    · simp [stages, cumsum, searchsorted, coeffAt, curve, h]
  | cons g cs ih =>
    obtain ⟨i, d, m, l⟩ := g
    have hst : stages ((i, d, m, l) :: cs) = i :: d :: m :: l :: stages cs := by
      simp [stages]
    rw [hst]
    simp only [cumsum, Nat.zero_add]
    have hlen : (i :: (i + d) :: (i + d + m) :: (i + d + m + l) ::
        cumsum (i + d + m + l) (stages cs)).length = (stages cs).length + 4 := by
      simp [cumsum_length]
    rcases le_or_gt day 0 with h0 | h0
    · rw [searchsorted_cons_ge _ _ _ (by simpa using h0)]
      simp [coeffAt, curve, h0]
    · rw [searchsorted_cons_lt 0 _ _ (by simpa using h0)]
      rcases le_or_gt day i with h1 | h1
      · rw [searchsorted_cons_ge _ _ _ h1]
        simp [coeffAt, curve, not_le.mpr h0, h1]
      · rw [searchsorted_cons_lt _ _ _ h1]
        rcases le_or_gt day (i + d) with h2 | h2
        · rw [searchsorted_cons_ge _ _ _ (by push_cast; exact h2)]
          have hd : d ≠ 0 := by rintro rfl; simp at h2; omega
          simp [coeffAt, curve, not_le.mpr h0, not_le.mpr h1, h2, interp, hd]
        · rw [searchsorted_cons_lt _ _ _ (by push_cast; exact h2)]
          rcases le_or_gt day (i + d + m) with h3 | h3
          · rw [searchsorted_cons_ge _ _ _ (by push_cast; exact h3)]
            simp [coeffAt, curve, not_le.mpr h0, not_le.mpr h1, not_le.mpr h2, h3]
          · rw [searchsorted_cons_lt _ _ _ (by push_cast; exact h3)]
            rcases le_or_gt day (i + d + m + l) with h4 | h4
            · rw [searchsorted_cons_ge _ _ _ (by push_cast; exact h4)]
              have hl : l ≠ 0 := by rintro rfl; simp at h4; omega
              simp [coeffAt, curve, not_le.mpr h0, not_le.mpr h1, not_le.mpr h2, not_le.mpr h3, h4,
                interp, hl]
            · have e1 : (i + d + m + l) :: cumsum (i + d + m + l) (stages cs) =
                  (0 :: cumsum 0 (stages cs)).map ((i + d + m + l) + ·) := by
                rw [List.map_cons, Nat.add_zero, ← cumsum_shift, Nat.add_zero]
              have e2 : searchsorted ((i + d + m + l) :: cumsum (i + d + m + l) (stages cs)) day =
                  searchsorted (0 :: cumsum 0 (stages cs)) (day - ((i + d + m + l : ℕ) : ℤ)) := by
                rw [e1, searchsorted_shift]
              have ih' := ih (day - ((i + d + m + l : ℕ) : ℤ))
              obtain ⟨j, hj⟩ : ∃ j, searchsorted (0 :: cumsum 0 (stages cs))
                (day - ((i + d + m + l : ℕ) : ℤ)) = j := ⟨_, rfl⟩
              rw [e2, hj]
              rw [hj] at ih'
              have hj1 : 1 ≤ j := by
                rw [← hj, searchsorted_cons_lt 0 _ _ (by push_cast; omega)]; omega
              have hc : curve c ((i, d, m, l) :: cs) day =
                  curve c cs (day - ((i + d + m + l : ℕ) : ℤ)) := by
                rw [curve, if_neg (not_le.mpr h0), if_neg (not_le.mpr h1), if_neg (not_le.mpr h2),
                  if_neg (not_le.mpr h3), if_neg (not_le.mpr h4)]
                push_cast
                rfl
              rw [hc, ← ih']
              unfold coeffAt
              rw [hlen, cumsum_length]
              have hmod : (j + 1 + 1 + 1 + 1 - 1) % 4 = (j - 1) % 4 := by omega
              rw [hmod]
              have hl1 : (i :: d :: m :: l :: stages cs).getD (j + 1 + 1 + 1 + 1 - 1) 0 =
                  (stages cs).getD (j - 1) 0 := by
                obtain ⟨k, rfl⟩ : ∃ k, j = k + 1 := ⟨j - 1, by omega⟩
                simp
              rw [hl1]
              by_cases hend : j = (stages cs).length + 1
              · rw [if_pos (by omega), if_pos (by omega)]
              · have hA : ¬ (j + 1 + 1 + 1 + 1 = 0 ∨ j + 1 + 1 + 1 + 1 = (stages cs).length + 4 + 1) := by
                  omega
                have hB : ¬ (j = 0 ∨ j = (stages cs).length + 1) := by omega
                rw [if_neg hA, if_neg hB]
                by_cases p0 : (j - 1) % 4 = 0
                · rw [if_pos p0, if_pos p0]
                · have hj2 : 2 ≤ j := by omega
                  have hint : ∀ a b : K, interp day ((i :: (i + d) :: (i + d + m) ::
                      (i + d + m + l) :: cumsum (i + d + m + l) (stages cs)).getD
                        (j + 1 + 1 + 1 + 1 - 2) 0) ((stages cs).getD (j - 1) 0) a b =
                      interp (day - ((i + d + m + l : ℕ) : ℤ))
                        ((cumsum 0 (stages cs)).getD (j - 2) 0) ((stages cs).getD (j - 1) 0) a b := by
                    intro a b
                    obtain ⟨k, rfl⟩ : ∃ k, j = k + 2 := ⟨j - 2, by omega⟩
                    have hk : k < (cumsum 0 (stages cs)).length := by
                      rw [cumsum_length]
                      have : searchsorted (0 :: cumsum 0 (stages cs))
                          (day - ((i + d + m + l : ℕ) : ℤ)) ≤ (0 :: cumsum 0 (stages cs)).length :=
                        List.IsPrefix.length_le (List.takeWhile_prefix _)
                      rw [hj, List.length_cons, cumsum_length] at this
                      omega
                    have hg : (i :: (i + d) :: (i + d + m) :: (i + d + m + l) ::
                        cumsum (i + d + m + l) (stages cs)).getD (k + 2 + 1 + 1 + 1 + 1 - 2) 0 =
                        (i + d + m + l) + (cumsum 0 (stages cs)).getD k 0 := by
                      have : k + 2 + 1 + 1 + 1 + 1 - 2 = k + 4 := by omega
                      rw [this]
                      simp only [List.getD_cons_succ]
                      rw [show i + d + m + l = (i + d + m + l) + 0 from rfl, cumsum_shift]
                      rw [List.getD_eq_getElem?_getD, List.getD_eq_getElem?_getD, List.getElem?_map,
                        List.getElem?_eq_getElem hk]
                      rfl
                    rw [hg]
                    simp only [Nat.add_sub_cancel]
                    unfold interp
                    have : day - ((i + d + m + l + (cumsum 0 (stages cs)).getD k 0 : ℕ) : ℤ) =
                        day - ((i + d + m + l : ℕ) : ℤ) - ((cumsum 0 (stages cs)).getD k 0 : ℕ) := by
                      push_cast; ring
                    rw [this]
                  rw [if_neg p0, if_neg p0, hint, hint]

theorem interleave_cycles (cs : List (ℕ × ℕ × ℕ × ℕ)) :
    interleave (cs.map fun c => c.1) (cs.map fun c => c.2.1) (cs.map fun c => c.2.2.1)
      (cs.map fun c => c.2.2.2) = stages cs := by
  induction cs with
  | nil => rfl
  | cons c cs ih => simp [interleave, stages, ih, List.flatMap_cons]

/-- **C41.** For every sequence of growth cycles with any stage lengths (also zero) and every day the
code computes the value of the crop coefficient curve; no division by zero occurs. -/
theorem C41_curve (c : Coeffs K) (cs : List (ℕ × ℕ × ℕ × ℕ)) (day : ℤ) :
    cropCoefficient day (cs.map fun c => c.1) (cs.map fun c => c.2.1) (cs.map fun c => c.2.2.1)
      (cs.map fun c => c.2.2.2) c = some (some (curve c cs day)) := by
  simp only [cropCoefficient]
  rw [if_neg (by simp), interleave_cycles, coeffAt_curve]

/-- **C41.** Stage length lists of unequal sizes are rejected, others are not. -/
theorem C41_rejected (day : ℤ) (i d m l : List ℕ) (c : Coeffs K) :
    cropCoefficient day i d m l c = none ↔
      ¬ (i.length = d.length ∧ d.length = m.length ∧ m.length = l.length) := by
  unfold cropCoefficient
  split_ifs with h <;> simp_all

/-- Specification: total length of the cycles. -/
def total (cs : List (ℕ × ℕ × ℕ × ℕ)) : ℕ := (stages cs).sum

/-- Specification: `x` lies between two of the three values of the growing season. -/
def Within (c : Coeffs K) (x : K) : Prop :=
  min c.ini (min c.mid c.fin) ≤ x ∧ x ≤ max c.ini (max c.mid c.fin)

theorem interp_between (a b : K) (n : ℤ) (l : ℕ) (h0 : 0 ≤ n) (h1 : n ≤ l) (hl : 0 < l) :
    min a b ≤ a + (n : K) / l * (b - a) ∧ a + (n : K) / l * (b - a) ≤ max a b := by
  have hlp : (0 : K) < l := by exact_mod_cast hl
  have hn : (0 : K) ≤ n := by exact_mod_cast h0
  have hnl : (n : K) ≤ l := by exact_mod_cast h1
  obtain ⟨f, hf⟩ : ∃ f : K, (n : K) / l = f := ⟨_, rfl⟩
  have f0 : 0 ≤ f := hf ▸ div_nonneg hn hlp.le
  have f1 : f ≤ 1 := by rw [← hf, div_le_one hlp]; exact hnl
  rw [hf]
  rcases le_total a b with h | h
  · rw [min_eq_left h, max_eq_right h]
    have := mul_nonneg f0 (sub_nonneg.mpr h)
    have := mul_nonneg (sub_nonneg.mpr f1) (sub_nonneg.mpr h)
    constructor <;> nlinarith
  · rw [min_eq_right h, max_eq_left h]
    have := mul_nonneg f0 (sub_nonneg.mpr h)
    have := mul_nonneg (sub_nonneg.mpr f1) (sub_nonneg.mpr h)
    constructor <;> nlinarith

/-- **C41.** Outside the growing period (days 1 to the total length) the coefficient is the
off-season value, inside it lies between the three season values. -/
theorem C41_range (c : Coeffs K) (cs : List (ℕ × ℕ × ℕ × ℕ)) (day : ℤ) :
    (day ≤ 0 ∨ total cs < day → curve c cs day = c.min) ∧
    (1 ≤ day → day ≤ total cs → Within c (curve c cs day)) := by
  induction cs generalizing day with
  | nil =>
    refine ⟨fun _ => rfl, fun h1 h2 => ?_⟩
    simp [total, stages] at h2
    omega
  | cons g cs ih =>
    obtain ⟨i, d, m, l⟩ := g
    have ht : (total ((i, d, m, l) :: cs) : ℤ) = i + d + m + l + total cs := by
      simp [total, stages]
      ring
    have hini : Within c c.ini := ⟨min_le_left _ _, le_max_left _ _⟩
    have hmid : Within c c.mid := ⟨(min_le_right _ _).trans (min_le_left _ _),
      (le_max_left _ _).trans (le_max_right _ _)⟩
    have hfin : Within c c.fin := ⟨(min_le_right _ _).trans (min_le_right _ _),
      (le_max_right _ _).trans (le_max_right _ _)⟩
    have mixed : ∀ a b x : K, Within c a → Within c b → min a b ≤ x → x ≤ max a b → Within c x :=
      fun a b x ha hb h1 h2 => ⟨(le_min ha.1 hb.1).trans h1, h2.trans (max_le ha.2 hb.2)⟩
    rw [curve]
    constructor
    · intro h
      rw [ht] at h
      rcases h with h | h
      · rw [if_pos h]
      · rw [if_neg (by omega), if_neg (by omega), if_neg (by omega), if_neg (by omega),
          if_neg (by omega)]
        exact (ih _).1 (Or.inr (by omega))
    · intro h1 h2
      rw [ht] at h2
      rw [if_neg (by omega)]
      split_ifs with c1 c2 c3 c4
      · exact hini
      · have := interp_between c.ini c.mid (day - i) d (by omega) (by omega) (by omega)
        exact mixed _ _ _ hini hmid this.1 this.2
      · exact hmid
      · have := interp_between c.mid c.fin (day - (i + d + m)) l (by omega) (by omega) (by omega)
        exact mixed _ _ _ hmid hfin this.1 this.2
      · exact (ih _).2 (by omega) (by omega)

/-- **C41.** The mid-season value is reached on the last day of the development stage (if there is
one), the end value on the last day of the late stage, the initial value holds in the initial
stage. -/
theorem C41_hits (c : Coeffs K) (i d m l : ℕ) (cs : List (ℕ × ℕ × ℕ × ℕ)) :
    (0 < d → curve c ((i, d, m, l) :: cs) (i + d) = c.mid) ∧
    (0 < l → curve c ((i, d, m, l) :: cs) (i + d + m + l) = c.fin) ∧
    (∀ day : ℤ, 1 ≤ day → day ≤ i → curve c ((i, d, m, l) :: cs) day = c.ini) ∧
    (∀ day : ℤ, i + d < day → day ≤ i + d + m → curve c ((i, d, m, l) :: cs) day = c.mid) := by
  refine ⟨fun hd => ?_, fun hl => ?_, fun day h1 h2 => ?_, fun day h1 h2 => ?_⟩
  · rw [curve, if_neg (by omega), if_neg (by omega), if_pos le_rfl]
    have : ((((i : ℤ) + d - i : ℤ)) : K) = d := by push_cast; ring
    rw [this, div_self (by exact_mod_cast hd.ne')]
    ring
  · rw [curve, if_neg (by omega), if_neg (by omega), if_neg (by omega), if_neg (by omega),
      if_pos le_rfl]
    have : ((((i : ℤ) + d + m + l - (i + d + m) : ℤ)) : K) = l := by push_cast; ring
    rw [this, div_self (by exact_mod_cast hl.ne')]
    ring
  · rw [curve, if_neg (by omega), if_pos h2]
  · rw [curve, if_neg (by omega), if_neg (by omega), if_neg (by omega), if_pos h2]

/-- **C41.** The plant height lies in [0, maximum] if no coefficient exceeds the mid-season one. -/
theorem C41_height (c : Coeffs K) (cs : List (ℕ × ℕ × ℕ × ℕ)) (day : ℤ) (maxH : K) (hH : 0 ≤ maxH)
    (hm : 0 < c.mid) (hi : 0 ≤ c.ini ∧ c.ini ≤ c.mid) (he : 0 ≤ c.fin ∧ c.fin ≤ c.mid)
    (hn : 0 ≤ c.min ∧ c.min ≤ c.mid) :
    ∃ h, plantHeight day (cs.map fun c => c.1) (cs.map fun c => c.2.1) (cs.map fun c => c.2.2.1)
      (cs.map fun c => c.2.2.2) c maxH = some (some h) ∧ 0 ≤ h ∧ h ≤ maxH := by
  unfold plantHeight
  rw [C41_curve]
  refine ⟨_, rfl, ?_, ?_⟩
  · have hk : 0 ≤ curve c cs day := by
      obtain ⟨r1, r2⟩ := C41_range c cs day
      rcases lt_or_ge day 1 with h | h
      · rw [r1 (Or.inl (by omega))]; exact hn.1
      · rcases le_or_gt day (total cs) with h' | h'
        · exact le_trans (le_min hi.1 (le_min hm.le he.1)) (r2 h h').1
        · rw [r1 (Or.inr h')]; exact hn.1
    exact le_max_of_le_left (mul_nonneg (div_nonneg hk hm.le) hH)
  · have hk : curve c cs day ≤ c.mid := by
      obtain ⟨r1, r2⟩ := C41_range c cs day
      rcases lt_or_ge day 1 with h | h
      · rw [r1 (Or.inl (by omega))]; exact hn.2
      · rcases le_or_gt day (total cs) with h' | h'
        · exact (r2 h h').2.trans (max_le hi.2 (max_le le_rfl he.2))
        · rw [r1 (Or.inr h')]; exact hn.2
    have frac : ∀ x : K, x ≤ c.mid → x / c.mid * maxH ≤ maxH := by
      intro x hx
      exact mul_le_of_le_one_left hH (by rw [div_le_one hm]; exact hx)
    refine max_le (frac _ hk) ?_
    unfold minHeight
    split_ifs
    · exact hH
    · exact frac _ hn.2
    · exact frac _ hi.2
    · exact le_rfl

/-- Specification: plant height over a sequence of growth cycles: the off-season height, the height
of the initial stage, linear growth to the maximum, the maximum until the end of the cycle. -/
def heightCurve (c : Coeffs K) (maxH : K) : List (ℕ × ℕ × ℕ × ℕ) → ℤ → K
  | [], _ => c.min / c.mid * maxH
  | (i, d, m, l) :: rest, day =>
    if day ≤ 0 then c.min / c.mid * maxH
    else if day ≤ i then max c.ini c.min / c.mid * maxH
    else if day ≤ i + d then (c.ini + ((day - i : ℤ) : K) / d * (c.mid - c.ini)) / c.mid * maxH
    else if day ≤ i + d + m + l then maxH
    else heightCurve c maxH rest (day - (i + d + m + l))

theorem height_at (c : Coeffs K) (cs : List (ℕ × ℕ × ℕ × ℕ)) (day : ℤ) (maxH : K) (hH : 0 ≤ maxH)
    (hm : 0 < c.mid) (hi : 0 ≤ c.ini ∧ c.ini ≤ c.mid) (he : c.fin ≤ c.mid) (hn : 0 ≤ c.min) :
    max (curve c cs day / c.mid * maxH) (minHeight c (stages cs).length
      (searchsorted (0 :: cumsum 0 (stages cs)) day) maxH) = heightCurve c maxH cs day := by
  have frac : ∀ x y : K, x ≤ y → x / c.mid * maxH ≤ y / c.mid * maxH := fun x y h =>
    mul_le_mul_of_nonneg_right (div_le_div_of_nonneg_right h hm.le) hH
  have top : c.mid / c.mid * maxH = maxH := by rw [div_self hm.ne', one_mul]
  have low : max (c.min / c.mid * maxH) 0 = c.min / c.mid * maxH :=
    max_eq_left (mul_nonneg (div_nonneg hn hm.le) hH)
  induction cs generalizing day with
  | nil =>
    rcases le_or_gt day 0 with h | h
    · have hn : ¬ 0 < day := not_lt.mpr h
      simp [stages, cumsum, searchsorted, minHeight, curve, heightCurve, hn, low]
    · simp [stages, cumsum, searchsorted, minHeight, curve, heightCurve, h, low]
  | cons g cs ih =>
    obtain ⟨i, d, m, l⟩ := g
    have hst : stages ((i, d, m, l) :: cs) = i :: d :: m :: l :: stages cs := by
      simp [stages]
    rw [hst]
    simp only [cumsum, Nat.zero_add]
    rcases le_or_gt day 0 with h0 | h0
    · rw [searchsorted_cons_ge _ _ _ (by simpa using h0)]
      simp [minHeight, curve, heightCurve, h0, low]
    · rw [searchsorted_cons_lt 0 _ _ (by simpa using h0)]
      rcases le_or_gt day i with h1 | h1
      · rw [searchsorted_cons_ge _ _ _ h1]
        rw [curve, heightCurve, if_neg (not_le.mpr h0), if_neg (not_le.mpr h0), if_pos h1, if_pos h1]
        rw [minHeight, if_neg (by simp), if_pos (by simp)]
        rcases le_total c.ini c.min with h | h
        · rw [max_eq_right (frac _ _ h), max_eq_right h]
        · rw [max_eq_left (frac _ _ h), max_eq_left h]
      · rw [searchsorted_cons_lt _ _ _ h1]
        rcases le_or_gt day (i + d) with h2 | h2
        · rw [searchsorted_cons_ge _ _ _ (by push_cast; exact h2)]
          have hd : 0 < d := by omega
          rw [curve, heightCurve, if_neg (not_le.mpr h0), if_neg (not_le.mpr h0),
            if_neg (not_le.mpr h1), if_neg (not_le.mpr h1), if_pos h2, if_pos h2]
          rw [minHeight, if_neg (by simp), if_neg (by simp), if_pos (by simp)]
          refine max_eq_left (frac _ _ ?_)
          have := (interp_between c.ini c.mid (day - i) d (by omega) (by omega) hd).1
          rwa [min_eq_left hi.2] at this
        · rw [searchsorted_cons_lt _ _ _ (by push_cast; exact h2)]
          rcases le_or_gt day (i + d + m) with h3 | h3
          · rw [searchsorted_cons_ge _ _ _ (by push_cast; exact h3)]
            rw [curve, heightCurve, if_neg (not_le.mpr h0), if_neg (not_le.mpr h0),
              if_neg (not_le.mpr h1), if_neg (not_le.mpr h1), if_neg (not_le.mpr h2),
              if_neg (not_le.mpr h2), if_pos h3, if_pos (by omega)]
            rw [minHeight, if_neg (by simp), if_neg (by simp), if_neg (by simp), top, max_self]
          · rw [searchsorted_cons_lt _ _ _ (by push_cast; exact h3)]
            rcases le_or_gt day (i + d + m + l) with h4 | h4
            · rw [searchsorted_cons_ge _ _ _ (by push_cast; exact h4)]
              have hl : 0 < l := by omega
              rw [curve, heightCurve, if_neg (not_le.mpr h0), if_neg (not_le.mpr h0),
                if_neg (not_le.mpr h1), if_neg (not_le.mpr h1), if_neg (not_le.mpr h2),
                if_neg (not_le.mpr h2), if_neg (not_le.mpr h3), if_pos h4, if_pos h4]
              rw [minHeight, if_neg (by simp), if_neg (by simp), if_neg (by simp)]
              have := (interp_between c.mid c.fin (day - (i + d + m)) l (by omega) (by omega) hl).2
              rw [max_eq_left he] at this
              exact max_eq_right ((frac _ _ this).trans_eq top)
            · have e1 : (i + d + m + l) :: cumsum (i + d + m + l) (stages cs) =
                  (0 :: cumsum 0 (stages cs)).map ((i + d + m + l) + ·) := by
                rw [List.map_cons, Nat.add_zero, ← cumsum_shift, Nat.add_zero]
              have e2 : searchsorted ((i + d + m + l) :: cumsum (i + d + m + l) (stages cs)) day =
                  searchsorted (0 :: cumsum 0 (stages cs)) (day - ((i + d + m + l : ℕ) : ℤ)) := by
                rw [e1, searchsorted_shift]
              have ih' := ih (day - ((i + d + m + l : ℕ) : ℤ))
              obtain ⟨j, hj⟩ : ∃ j, searchsorted (0 :: cumsum 0 (stages cs))
                (day - ((i + d + m + l : ℕ) : ℤ)) = j := ⟨_, rfl⟩
              rw [e2, hj]
              rw [hj] at ih'
              have hj1 : 1 ≤ j := by
                rw [← hj, searchsorted_cons_lt 0 _ _ (by push_cast; omega)]; omega
              rw [curve, heightCurve, if_neg (not_le.mpr h0), if_neg (not_le.mpr h0),
                if_neg (not_le.mpr h1), if_neg (not_le.mpr h1), if_neg (not_le.mpr h2),
                if_neg (not_le.mpr h2), if_neg (not_le.mpr h3), if_neg (not_le.mpr h4),
                if_neg (not_le.mpr h4)]
              push_cast at ih'
              rw [← ih']
              congr 1
              unfold minHeight
              have hmod : (j + 1 + 1 + 1 + 1 - 1) % 4 = (j - 1) % 4 := by omega
              rw [hmod]
              simp only [List.length_cons]
              by_cases hend : j = (stages cs).length + 1
              · rw [if_pos (by omega), if_pos (by omega)]
              · have hA : ¬ (j + 1 + 1 + 1 + 1 = 0 ∨
                    j + 1 + 1 + 1 + 1 = (stages cs).length + 1 + 1 + 1 + 1 + 1) := by omega
                have hB : ¬ (j = 0 ∨ j = (stages cs).length + 1) := by omega
                rw [if_neg hA, if_neg hB]

/-- **C41.** On every day the plant height is the value of the height curve. -/
theorem C41_height_curve (c : Coeffs K) (cs : List (ℕ × ℕ × ℕ × ℕ)) (day : ℤ) (maxH : K)
    (hH : 0 ≤ maxH) (hm : 0 < c.mid) (hi : 0 ≤ c.ini ∧ c.ini ≤ c.mid) (he : c.fin ≤ c.mid)
    (hn : 0 ≤ c.min) :
    plantHeight day (cs.map fun c => c.1) (cs.map fun c => c.2.1) (cs.map fun c => c.2.2.1)
      (cs.map fun c => c.2.2.2) c maxH = some (some (heightCurve c maxH cs day)) := by
  unfold plantHeight
  rw [C41_curve]
  simp only
  rw [interleave_cycles, cumsum_length, height_at c cs day maxH hH hm hi he hn]

/-- **C41.** The documented assumption: from the first to the last day of a growth cycle the plant
height does not decrease, if the off-season coefficient is not above the initial one. -/
theorem C41_height_grows (c : Coeffs K) (i d m l : ℕ) (cs : List (ℕ × ℕ × ℕ × ℕ)) (maxH : K)
    (hH : 0 ≤ maxH) (hm : 0 < c.mid) (hi : c.ini ≤ c.mid) (hn : c.min ≤ c.ini)
    (a b : ℤ) (ha : 1 ≤ a) (hab : a ≤ b) (hb : b ≤ i + d + m + l) :
    heightCurve c maxH ((i, d, m, l) :: cs) a ≤ heightCurve c maxH ((i, d, m, l) :: cs) b := by
  have frac : ∀ x y : K, x ≤ y → x / c.mid * maxH ≤ y / c.mid * maxH := fun x y h =>
    mul_le_mul_of_nonneg_right (div_le_div_of_nonneg_right h hm.le) hH
  have top : c.mid / c.mid * maxH = maxH := by rw [div_self hm.ne', one_mul]
  have lin : ∀ x y : ℤ, 0 < d → x ≤ y → c.ini + ((x : ℤ) : K) / d * (c.mid - c.ini) ≤
      c.ini + ((y : ℤ) : K) / d * (c.mid - c.ini) := by
    intro x y hd hxy
    have hdp : (0 : K) < d := by exact_mod_cast hd
    have : (x : K) / d ≤ (y : K) / d := div_le_div_of_nonneg_right (by exact_mod_cast hxy) hdp.le
    have := mul_le_mul_of_nonneg_right this (sub_nonneg.mpr hi)
    linarith
  have mid : ∀ x : ℤ, 0 < d → x ≤ d → c.ini + ((x : ℤ) : K) / d * (c.mid - c.ini) ≤ c.mid := by
    intro x hd hx
    have := lin x d hd hx
    have hdp : (d : K) ≠ 0 := by exact_mod_cast hd.ne'
    rw [Int.cast_natCast, div_self hdp] at this
    linarith
  have bot : ∀ x : ℤ, 0 < d → 0 ≤ x → c.ini ≤ c.ini + ((x : ℤ) : K) / d * (c.mid - c.ini) := by
    intro x hd hx
    have := lin 0 x hd hx
    simpa using this
  rw [heightCurve, heightCurve, if_neg (by omega : ¬ a ≤ 0), if_neg (by omega : ¬ b ≤ 0)]
  rw [max_eq_left hn]
  rcases le_or_gt a i with a1 | a1
  · rw [if_pos a1]
    rcases le_or_gt b i with b1 | b1
    · rw [if_pos b1]
    · rw [if_neg (not_le.mpr b1)]
      split_ifs with b2
      · exact frac _ _ (bot _ (by omega) (by omega))
      · exact (frac _ _ hi).trans_eq top
  · rw [if_neg (not_le.mpr a1), if_neg (by omega : ¬ b ≤ (i : ℤ))]
    rcases le_or_gt a (i + d) with a2 | a2
    · rw [if_pos a2]
      split_ifs with b2
      · exact frac _ _ (lin _ _ (by omega) (by omega))
      · exact (frac _ _ (mid _ (by omega) (by omega))).trans_eq top
    · rw [if_neg (not_le.mpr a2), if_pos (by omega : a ≤ (i : ℤ) + d + m + l),
        if_neg (by omega : ¬ b ≤ (i : ℤ) + d), if_pos hb]

/-- **C41.** Otherwise the plant shrinks when its development starts: an off-season coefficient above
the initial one holds the height up only during the initial stage. -/
theorem C41_height_grows_witness : heightCurve (⟨2/10, 1, 5/10, 4/10⟩ : Coeffs ℚ) 1 [(10, 20, 30, 20)] 11 <
    heightCurve (⟨2/10, 1, 5/10, 4/10⟩ : Coeffs ℚ) 1 [(10, 20, 30, 20)] 10 := by
  norm_num [heightCurve]

example : heightCurve (⟨3/10, 12/10, 6/10, 15/100⟩ : Coeffs ℚ) 2 [(20, 30, 40, 20), (5, 10, 0, 10)] 35 =
    125/100 := by norm_num [heightCurve]

/-- **C41.** The growing season starts on the planting date and lasts as many days as its stages have in total. -/
theorem C41_dates (c : Coeffs K) (cs : List (ℕ × ℕ × ℕ × ℕ)) (doy plant : ℤ) :
    (doy < plant ∨ plant + total cs ≤ doy → curve c cs (growingPeriodDay doy plant) = c.min) ∧
    (plant ≤ doy → doy < plant + total cs → Within c (curve c cs (growingPeriodDay doy plant))) := by
  unfold growingPeriodDay
  exact ⟨fun h => (C41_range c cs _).1 (by omega), fun h1 h2 => (C41_range c cs _).2 (by omega) (by omega)⟩

/-- **C41.** A growing season that reaches into the next year is cut off: planted on day 300 with
120 days, the coefficient on 10 January (day 76 of the season) is the off-season value. -/
theorem C41_year_end_witness (c : Coeffs K) (cs : List (ℕ × ℕ × ℕ × ℕ)) (doy plant : ℤ)
    (h : doy < plant) : curve c cs (growingPeriodDay doy plant) = c.min :=
  (C41_range c cs _).1 (Or.inl (by unfold growingPeriodDay; omega))

example : curve (⟨3/10, 12/10, 6/10, 15/100⟩ : Coeffs ℚ) [(20, 30, 40, 20), (5, 10, 0, 10)] 35 =
    75/100 := by norm_num [curve]

/-! ## C42 -/

/-- **C42.** The leaf area index lies between its minimum and maximum on every day. -/
theorem C42_lai_range (day : ℤ) (lo hi : K) (h : lo ≤ hi) (i d m l : ℕ) :
    ∃ x, lai day lo hi (.single i d m l) = some (some x) ∧ lo ≤ x ∧ x ≤ hi := by
  have e := C41_curve (⟨lo, hi, lo, lo⟩ : Coeffs K) [(0, i + d, m, l)] day
  refine ⟨_, e, ?_⟩
  obtain ⟨r1, r2⟩ := C41_range (⟨lo, hi, lo, lo⟩ : Coeffs K) [(0, i + d, m, l)] day
  rcases lt_or_ge day 1 with h1 | h1
  · rw [r1 (Or.inl (by omega))]; exact ⟨le_rfl, h⟩
  · rcases le_or_gt day (total [(0, i + d, m, l)]) with h' | h'
    · obtain ⟨a, b⟩ := r2 h1 h'
      simp only at a b
      exact ⟨(le_min le_rfl (le_min h le_rfl)).trans a, b.trans (max_le h (max_le le_rfl h))⟩
    · rw [r1 (Or.inr h')]; exact ⟨le_rfl, h⟩

/-- **C42.** Maximum leaf area during the whole mid-season, minimum outside the season. -/
theorem C42_lai_season (lo hi : K) (i d m l : ℕ) (day : ℤ) :
    (i + d < day → day ≤ i + d + m → lai day lo hi (.single i d m l) = some (some hi)) ∧
    (day ≤ 0 ∨ i + d + m + l < day → lai day lo hi (.single i d m l) = some (some lo)) := by
  have e := C41_curve (⟨lo, hi, lo, lo⟩ : Coeffs K) [(0, i + d, m, l)] day
  have hh := C41_hits (⟨lo, hi, lo, lo⟩ : Coeffs K) 0 (i + d) m l []
  constructor
  · intro h1 h2
    refine e.trans ?_
    rw [hh.2.2.2 day (by push_cast; omega) (by push_cast; omega)]
  · intro h
    refine e.trans ?_
    rw [(C41_range _ _ day).1 ?_]
    rcases h with h | h
    · exact Or.inl h
    · right
      simp [total, stages]
      omega

/-- **C42.** The leaf area index is at its maximum during the mid-season counted from the planting date, and above
its minimum already on the planting date if it grows within the season. -/
theorem C42_dates (lo hi : K) (hlt : lo < hi) (i d m l : ℕ) (doy plant : ℤ) :
    (plant + i + d ≤ doy → doy < plant + i + d + m →
      lai (growingPeriodDay doy plant) lo hi (.single i d m l) = some (some hi)) ∧
    (0 < i + d → ∃ x, lai (growingPeriodDay plant plant) lo hi (.single i d m l) = some (some x) ∧ lo < x) ∧
    (doy < plant → lai (growingPeriodDay doy plant) lo hi (.single i d m l) = some (some lo)) := by
  refine ⟨fun h1 h2 => (C42_lai_season lo hi i d m l _).1 (by unfold growingPeriodDay; omega)
    (by unfold growingPeriodDay; omega), fun h => ?_, fun h => (C42_lai_season lo hi i d m l _).2
    (Or.inl (by unfold growingPeriodDay; omega))⟩
  have e := C41_curve (⟨lo, hi, lo, lo⟩ : Coeffs K) [(0, i + d, m, l)] (growingPeriodDay plant plant)
  refine ⟨_, e, ?_⟩
  have hg : growingPeriodDay plant plant = 1 := by unfold growingPeriodDay; omega
  have hp : (0 : K) < ((i + d : ℕ) : K) := by exact_mod_cast h
  rw [hg, curve, if_neg (by omega), if_neg (by omega), if_pos (by omega)]
  have : 0 < (hi - lo) := by linarith
  simp only [Nat.cast_zero, sub_zero, Int.cast_one]
  have := mul_pos (div_pos one_pos hp) this
  linarith

/-- **C42.** For stage lengths given as a list of sub-cycles the calculation always fails. -/
theorem C42_subcycles_false (day : ℤ) (lo hi : K) (l : List (ℕ × ℕ × ℕ × ℕ)) :
    lai day lo hi (.cycles l) = none := by
  unfold lai
  rw [C41_rejected]
  rintro ⟨h1, h2, -⟩
  simp at h1 h2
  omega

example : lai 25 (1 : ℚ) 5 (.single 10 20 30 20) = some (some (13/3)) := by
  norm_num [lai, cropCoefficient, interleave, cumsum, searchsorted, coeffAt, interp, List.takeWhile]

end Verif.CropCoeff
