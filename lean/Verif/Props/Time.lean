import Verif.Model.Time
import Mathlib.Tactic.IntervalCases
import Mathlib.Data.List.Range
import Mathlib.Algebra.Order.Group.Int

/-!
# C03, C04: time axis and first/last-of-period flags
-/

namespace Verif.Time

/-! ## C03 -/

/-- The loop of `date_range` in closed form. -/
theorem dateRange_eq (s e dt : ℤ) (hdt : 0 < dt) (k : ℕ) (h1 : s + k * dt ≤ e)
    (h2 : e < s + (k + 1) * dt) :
    dateRange s e dt = (List.range (k + 1)).map fun i : ℕ => s + i * dt := by
  induction k generalizing s with
  | zero =>
    rw [dateRange, dif_pos ⟨hdt, by simpa using h1⟩, dateRange, dif_neg]
    · simp
    · rintro ⟨-, h⟩; simp at h2; linarith
  | succ k ih =>
    have hse : s ≤ e := by
      have : (0 : ℤ) ≤ (k + 1 : ℕ) * dt := by positivity
      linarith
    rw [dateRange, dif_pos ⟨hdt, hse⟩, ih (s + dt) (by push_cast at h1; linarith)
      (by push_cast at h2; linarith), List.range_succ_eq_map (n := k + 1), List.map_cons, List.map_map]
    refine congrArg₂ _ (by simp) (List.map_congr_left fun x _ => ?_)
    simp only [Function.comp_apply, Nat.succ_eq_add_one]; push_cast; ring

theorem steps_exist (s e dt : ℤ) (hdt : 0 < dt) (hse : s ≤ e) :
    ∃ k : ℕ, s + k * dt ≤ e ∧ e < s + (k + 1) * dt := by
  have hq : 0 ≤ (e - s) / dt := Int.ediv_nonneg (by linarith) hdt.le
  refine ⟨((e - s) / dt).toNat, ?_, ?_⟩
  · rw [Int.toNat_of_nonneg hq]
    have := Int.ediv_mul_le (e - s) hdt.ne'
    linarith
  · rw [Int.toNat_of_nonneg hq]
    have := Int.lt_ediv_add_one_mul_self (e - s) hdt
    linarith

theorem getLast_range (s dt : ℤ) (k : ℕ) :
    ((List.range (k + 1)).map fun i : ℕ => s + i * dt).getLast? = some (s + k * dt) := by
  rw [List.range_succ, List.map_append, List.map_singleton, List.getLast?_append]; simp

/-- **C03.** The date checks accept a configuration exactly if the end date is the start date plus a
whole number of time steps (and not before it); the dates of the run are then exactly `start,
start + dt, ..., end`. -/
theorem C03_accepted_iff (s e dt : ℤ) (hdt : 0 < dt) (dates : List ℤ) :
    checkDates s e dt = .accepted dates ↔
      ∃ k : ℕ, e = s + k * dt ∧ dates = (List.range (k + 1)).map fun i : ℕ => s + i * dt := by
  simp only [checkDates]
  constructor
  · intro h
    split_ifs at h with h1 h2
    obtain ⟨k, a, b⟩ := steps_exist s e dt hdt (not_lt.mp h1)
    rw [dateRange_eq s e dt hdt k a b, getLast_range] at h2
    simp only [Check.accepted.injEq] at h
    refine ⟨k, (Option.some.inj h2).symm, ?_⟩
    rw [← h, dateRange_eq s e dt hdt k a b]
  · rintro ⟨k, rfl, rfl⟩
    have hk : (0 : ℤ) ≤ k * dt := by positivity
    rw [if_neg (by linarith), dateRange_eq s _ dt hdt k (le_refl _) (by linarith), getLast_range]
    simp

/-- **C03.** A start after the end is rejected as such; otherwise a rejected configuration is one
whose end is not reached by whole time steps. -/
theorem C03_rejected (s e dt : ℤ) (hdt : 0 < dt) :
    (checkDates s e dt = .startAfterEnd ↔ e < s) ∧
    (checkDates s e dt = .incompatible ↔ s ≤ e ∧ ¬dt ∣ e - s) := by
  constructor
  · simp only [checkDates]
    split_ifs with h1 h2 <;> simp [h1]
  · constructor
    · intro h
      have h' := h
      simp only [checkDates] at h
      split_ifs at h with h1 h2
      refine ⟨not_lt.mp h1, ?_⟩
      rintro ⟨k, hk⟩
      have hk0 : 0 ≤ k := by
        by_contra hneg
        have : dt * k < 0 := mul_neg_of_pos_of_neg hdt (not_le.mp hneg)
        linarith [not_lt.mp h1]
      have := (C03_accepted_iff s e dt hdt _).mpr
        ⟨k.toNat, by rw [Int.toNat_of_nonneg hk0]; linarith, rfl⟩
      rw [h'] at this
      cases this
    · rintro ⟨h1, h2⟩
      simp only [checkDates]
      rw [if_neg (not_lt.mpr h1)]
      obtain ⟨k, a, b⟩ := steps_exist s e dt hdt h1
      rw [dateRange_eq s e dt hdt k a b, getLast_range]
      simp only [Option.some.injEq]
      rw [if_neg]
      intro h
      exact h2 ⟨k, by linarith⟩

theorem length_filter_interval (lo m N : ℕ) (hN : lo + m ≤ N) :
    ((List.range N).filter fun i => decide (lo ≤ i ∧ i < lo + m)).length = m := by
  obtain ⟨r, rfl⟩ := Nat.exists_eq_add_of_le hN
  rw [List.range_add, List.range_add, List.filter_append, List.filter_append]
  have h1 : (List.range lo).filter (fun i => decide (lo ≤ i ∧ i < lo + m)) = [] := by
    rw [List.filter_eq_nil_iff]
    intro x hx
    have := List.mem_range.mp hx
    simp only [decide_eq_true_eq]; omega
  have h2 : ((List.range m).map (lo + ·)).filter (fun i => decide (lo ≤ i ∧ i < lo + m))
      = (List.range m).map (lo + ·) := by
    rw [List.filter_eq_self]
    intro x hx
    obtain ⟨i, hi, rfl⟩ := List.mem_map.mp hx
    have := List.mem_range.mp hi
    simp only [decide_eq_true_eq]; omega
  have h3 : ((List.range r).map (lo + m + ·)).filter (fun i => decide (lo ≤ i ∧ i < lo + m))
      = [] := by
    rw [List.filter_eq_nil_iff]
    intro x hx
    obtain ⟨i, hi, rfl⟩ := List.mem_map.mp hx
    simp only [decide_eq_true_eq]; omega
  rw [h1, h2, h3]
  simp

/-- **C03.** Whole days: if the time step divides a day, the start is a midnight and the end is
given as a date not before it, the configuration is accepted and every day from start to end has
exactly `DAY / dt` time steps (and the run has no others). -/
theorem C03_whole_days (a b dt : ℤ) (hab : a ≤ b) (hdt : 0 < dt) (hdvd : dt ∣ DAY) :
    ∃ dates, checkDates (a * DAY) (parseEndDate true (b * DAY) dt) dt = .accepted dates ∧
      (∀ t ∈ dates, a ≤ t / DAY ∧ t / DAY ≤ b) ∧
      ∀ d, a ≤ d → d ≤ b →
        ((dates.filter fun t => t / DAY = d).length : ℤ) = DAY / dt := by
  obtain ⟨q, hq⟩ := hdvd
  have hD : (0 : ℤ) < DAY := by norm_num [DAY]
  have hq0 : 0 < q := by
    by_contra h
    have : dt * q ≤ 0 := mul_nonpos_of_nonneg_of_nonpos hdt.le (not_lt.mp h)
    linarith
  have hend : parseEndDate true (b * DAY) dt = b * DAY + (DAY - dt) := by
    unfold parseEndDate
    split_ifs with h
    · rfl
    · have hle : DAY ≤ dt := by
        by_contra hn
        exact h ⟨rfl, not_le.mp hn⟩
      have : dt ≤ DAY := by rw [hq]; nlinarith
      have : dt = DAY := le_antisymm this hle
      rw [this]; ring
  -- number of steps minus one
  obtain ⟨n, hn⟩ : ∃ n : ℕ, (n : ℤ) = (b - a + 1) * q - 1 := by
    refine ⟨((b - a + 1) * q - 1).toNat, Int.toNat_of_nonneg ?_⟩
    nlinarith
  have hdates := (C03_accepted_iff (a * DAY) (b * DAY + (DAY - dt)) dt hdt _).mpr
    ⟨n, by rw [hn, hq]; ring, rfl⟩
  refine ⟨_, by rw [hend]; exact hdates, ?_, ?_⟩
  · intro t ht
    obtain ⟨i, hi, rfl⟩ := List.mem_map.mp ht
    have hi' : i ≤ n := by have := List.mem_range.mp hi; omega
    have hi'' : (i : ℤ) ≤ n := by exact_mod_cast hi'
    have h0 : (0 : ℤ) ≤ i * dt := by positivity
    constructor
    · rw [Int.le_ediv_iff_mul_le hD]; linarith
    · rw [← Int.lt_add_one_iff, Int.ediv_lt_iff_lt_mul hD]
      have h1 : (i : ℤ) * dt ≤ ((b - a + 1) * q - 1) * dt :=
        mul_le_mul_of_nonneg_right (by rw [← hn]; exact hi'') hdt.le
      have h2 : ((b - a + 1) * q - 1) * dt = (b - a + 1) * DAY - dt := by rw [hq]; ring
      linarith
  · intro d hd1 hd2
    have hdiv : DAY / dt = q := by rw [hq]; exact Int.mul_ediv_cancel_left q hdt.ne'
    rw [hdiv]
    -- index `i` falls into day `d` iff `(d - a) q ≤ i < (d - a + 1) q`
    obtain ⟨lo, hlo⟩ : ∃ lo : ℕ, (lo : ℤ) = (d - a) * q :=
      ⟨((d - a) * q).toNat, Int.toNat_of_nonneg (by nlinarith)⟩
    obtain ⟨m, hm⟩ : ∃ m : ℕ, (m : ℤ) = q := ⟨q.toNat, Int.toNat_of_nonneg hq0.le⟩
    have hiff : ∀ i : ℕ, ((a * DAY + i * dt) / DAY = d) ↔ lo ≤ i ∧ i < lo + m := by
      intro i
      have e1 : ((a * DAY + (i : ℤ) * dt) / DAY = d) ↔
          d * DAY ≤ a * DAY + i * dt ∧ a * DAY + i * dt < (d + 1) * DAY := by
        constructor
        · intro h
          refine ⟨?_, ?_⟩
          · rw [← Int.le_ediv_iff_mul_le hD]; omega
          · rw [← Int.ediv_lt_iff_lt_mul hD]; omega
        · rintro ⟨h1, h2⟩
          rw [← Int.le_ediv_iff_mul_le hD] at h1
          rw [← Int.ediv_lt_iff_lt_mul hD] at h2
          omega
      rw [e1]
      have e2 : d * DAY ≤ a * DAY + i * dt ↔ (lo : ℤ) ≤ i := by
        rw [hlo]
        constructor
        · intro h
          have : ((d - a) * q) * dt ≤ i * dt := by
            have : ((d - a) * q) * dt = (d - a) * DAY := by rw [hq]; ring
            linarith
          exact le_of_mul_le_mul_right this hdt
        · intro h
          have := mul_le_mul_of_nonneg_right h hdt.le
          have h2 : ((d - a) * q) * dt = (d - a) * DAY := by rw [hq]; ring
          linarith
      have e3 : a * DAY + i * dt < (d + 1) * DAY ↔ (i : ℤ) < lo + m := by
        rw [hlo, hm]
        constructor
        · intro h
          have : (i : ℤ) * dt < ((d - a) * q + q) * dt := by
            have : ((d - a) * q + q) * dt = (d - a + 1) * DAY := by rw [hq]; ring
            linarith
          exact lt_of_mul_lt_mul_right this hdt.le
        · intro h
          have := mul_lt_mul_of_pos_right h hdt
          have h2 : ((d - a) * q + q) * dt = (d - a + 1) * DAY := by rw [hq]; ring
          linarith
      rw [e2, e3]
      norm_cast
    have hfit : lo + m ≤ n + 1 := by
      have : (lo : ℤ) + m ≤ n + 1 := by
        rw [hlo, hm, hn]
        nlinarith
      exact_mod_cast this
    rw [List.filter_map, List.length_map]
    have hcount := fun N hN => length_filter_interval lo m N hN
    have hc := hcount (n + 1) hfit
    rw [← hm]
    congr 1
    rw [← hc]
    congr 1
    apply List.filter_congr
    intro i _
    simp only [Function.comp_apply]
    rw [Bool.eq_iff_iff]
    simp only [decide_eq_true_eq]
    exact hiff i

example : (10800 : ℤ) ∣ DAY := by norm_num [DAY]

/-- A step that does not divide a day: five-hourly steps over one day given by dates only are
rejected. -/
theorem C03_nondividing_witness :
    checkDates 0 (parseEndDate true 0 18000) 18000 = .incompatible := by
  refine (C03_rejected _ _ _ (by norm_num)).2.mpr ⟨by norm_num [parseEndDate, DAY], ?_⟩
  norm_num [parseEndDate, DAY]

/-! ## C04 -/

/-- Absolute month number. -/
def Date.monthNo (d : Date) : ℕ := 12 * d.year + (d.month - 1)

/-- Length of the month with absolute number `M`. -/
def lenNo (M : ℕ) : ℕ := monthLen (M / 12) (M % 12 + 1)

/-- Days before the month `k` months after the start. -/
def startDay (M0 : ℕ) : ℕ → ℕ
  | 0 => 0
  | k + 1 => startDay M0 k + lenNo (M0 + k)

theorem lenNo_ge (M : ℕ) : 28 ≤ lenNo M := by
  unfold lenNo monthLen
  split <;> (try split_ifs) <;> omega

/-- Lower bound of the month length by month of the year. -/
def lowLen (r : ℕ) : ℕ := monthLen 1 (r + 1)

theorem lowLen_le (M : ℕ) : lowLen (M % 12) ≤ lenNo M := by
  unfold lowLen lenNo
  have : M % 12 < 12 := Nat.mod_lt _ (by norm_num)
  obtain ⟨r, hr⟩ : ∃ r, M % 12 = r := ⟨_, rfl⟩
  rw [hr] at this ⊢
  interval_cases r <;> simp [monthLen]
  have h1 : leap 1 = false := by decide
  rw [h1]
  split_ifs <;> simp_all

theorem lenNo_le (M : ℕ) : lenNo M ≤ 31 := by
  unfold lenNo monthLen
  split <;> (try split_ifs) <;> omega

/-- Every date is the `day`-th day of its month, and valid. -/
theorem civil_spec (y0 n : ℕ) :
    ∃ k, (civil y0 n).monthNo = 12 * y0 + k ∧ n + 1 = startDay (12 * y0) k + (civil y0 n).day ∧
      1 ≤ (civil y0 n).day ∧ (civil y0 n).day ≤ lenNo (12 * y0 + k) ∧
      1 ≤ (civil y0 n).month ∧ (civil y0 n).month ≤ 12 := by
  induction n with
  | zero =>
    refine ⟨0, rfl, by simp [startDay, civil], le_refl _, ?_, le_refl _, by simp [civil]⟩
    have := lenNo_ge (12 * y0 + 0)
    simp only [civil]; omega
  | succ n ih =>
    obtain ⟨k, h1, h2, h3, h4, h5, h6⟩ := ih
    obtain ⟨d, hd⟩ : ∃ d, civil y0 n = d := ⟨_, rfl⟩
    have hc : civil y0 (n + 1) = d.next := by rw [← hd]; rfl
    rw [hd] at h1 h2 h3 h4 h5 h6
    have hlen : lenNo (12 * y0 + k) = monthLen d.year d.month := by
      unfold lenNo
      rw [← h1]
      unfold Date.monthNo
      have e1 : (12 * d.year + (d.month - 1)) / 12 = d.year := by omega
      have e2 : (12 * d.year + (d.month - 1)) % 12 + 1 = d.month := by omega
      rw [e1, e2]
    rw [hc]
    unfold Date.next
    split_ifs with ha hb
    · exact ⟨k, h1, by simp only; omega, by simp only; omega, by rw [hlen]; simp only; omega, h5, h6⟩
    · refine ⟨k + 1, ?_, ?_, le_refl _, ?_, by simp only; omega, by simp only; omega⟩
      · simp only [Date.monthNo] at h1 ⊢; omega
      · simp only [startDay]; omega
      · have := lenNo_ge (12 * y0 + (k + 1)); simp only; omega
    · refine ⟨k + 1, ?_, ?_, le_refl _, ?_, le_refl _, by simp only; omega⟩
      · simp only [Date.monthNo] at h1 ⊢; omega
      · simp only [startDay]; omega
      · have := lenNo_ge (12 * y0 + (k + 1)); simp only; omega

theorem startDay_mono (M0 : ℕ) {j k : ℕ} (h : j ≤ k) : startDay M0 j ≤ startDay M0 k := by
  induction k with
  | zero => have : j = 0 := by omega
            rw [this]
  | succ k ih =>
    rcases Nat.lt_or_ge j (k + 1) with h' | h'
    · have := ih (by omega); simp only [startDay]; omega
    · have : j = k + 1 := by omega
      rw [this]

theorem startDay_year (M0 k : ℕ) : startDay M0 k + lenNo (M0 + k) + 334 ≤ startDay M0 (k + 12) := by
  have e : startDay M0 (k + 12) = startDay M0 k + lenNo (M0 + k) + (lenNo (M0 + k + 1)
      + lenNo (M0 + k + 2) + lenNo (M0 + k + 3) + lenNo (M0 + k + 4) + lenNo (M0 + k + 5)
      + lenNo (M0 + k + 6) + lenNo (M0 + k + 7) + lenNo (M0 + k + 8) + lenNo (M0 + k + 9)
      + lenNo (M0 + k + 10) + lenNo (M0 + k + 11)) := by
    simp only [startDay, Nat.add_assoc, Nat.reduceAdd]
  rw [e]
  obtain ⟨M, hM⟩ : ∃ M, M0 + k = M := ⟨_, rfl⟩
  rw [hM]
  have low : ∀ i, lowLen ((M % 12 + i) % 12) ≤ lenNo (M + i) := by
    intro i
    have h := lowLen_le (M + i)
    have : (M + i) % 12 = (M % 12 + i) % 12 := by omega
    rwa [this] at h
  have hr : M % 12 < 12 := Nat.mod_lt _ (by norm_num)
  have l1 := low 1
  have l2 := low 2
  have l3 := low 3
  have l4 := low 4
  have l5 := low 5
  have l6 := low 6
  have l7 := low 7
  have l8 := low 8
  have l9 := low 9
  have l10 := low 10
  have l11 := low 11
  obtain ⟨r, hr'⟩ : ∃ r, M % 12 = r := ⟨_, rfl⟩
  rw [hr'] at hr l1 l2 l3 l4 l5 l6 l7 l8 l9 l10 l11
  interval_cases r <;> simp [lowLen, monthLen, leap] at * <;> omega

/-- Later days are in the same or a later month. -/
theorem monthNo_mono (y0 : ℕ) {a b : ℕ} (h : a ≤ b) :
    (civil y0 a).monthNo ≤ (civil y0 b).monthNo := by
  obtain ⟨k, h1, h2, h3, h4, -⟩ := civil_spec y0 a
  obtain ⟨l, g1, g2, g3, g4, -⟩ := civil_spec y0 b
  rw [h1, g1]
  by_contra hn
  have hlk : l + 1 ≤ k := by omega
  have := startDay_mono (12 * y0) hlk
  simp only [startDay] at this
  omega

theorem year_eq (d : Date) (h1 : 1 ≤ d.month) (h2 : d.month ≤ 12) : d.year = d.monthNo / 12 := by
  unfold Date.monthNo; omega

theorem month_eq (d : Date) (h1 : 1 ≤ d.month) (h2 : d.month ≤ 12) :
    d.month = d.monthNo % 12 + 1 := by
  unfold Date.monthNo; omega

/-- Equal day-of-month numbers on different days are at least 28 days apart. -/
theorem day_apart (y0 : ℕ) {a b : ℕ} (h : a < b) (hd : (civil y0 a).day = (civil y0 b).day) :
    a + 28 ≤ b := by
  obtain ⟨k, h1, h2, h3, h4, -⟩ := civil_spec y0 a
  obtain ⟨l, g1, g2, g3, g4, -⟩ := civil_spec y0 b
  have hkl : k + 1 ≤ l := by
    by_contra hn
    have := startDay_mono (12 * y0) (show l ≤ k by omega)
    omega
  have := startDay_mono (12 * y0) hkl
  have := lenNo_ge (12 * y0 + k)
  simp only [startDay] at *
  omega

/-- Equal month numbers in different months are at least 335 days apart. -/
theorem month_apart (y0 : ℕ) {a b : ℕ} (h : a ≤ b)
    (hne : (civil y0 a).monthNo ≠ (civil y0 b).monthNo)
    (hm : (civil y0 a).month = (civil y0 b).month) : a + 335 ≤ b := by
  have hmono := monthNo_mono y0 h
  obtain ⟨k, h1, h2, h3, h4, h5, h6⟩ := civil_spec y0 a
  obtain ⟨l, g1, g2, g3, g4, g5, g6⟩ := civil_spec y0 b
  rw [month_eq _ h5 h6, month_eq _ g5 g6] at hm
  have hkl : k + 12 ≤ l := by omega
  have := startDay_mono (12 * y0) hkl
  have := startDay_year (12 * y0) k
  omega

/-- Specification: calendar periods of an instant, as numbers that never fall with time. -/
inductive Period
  | day
  | month
  | year

/-- The number of the period an instant lies in. -/
def Period.no (P : Period) (y0 t : ℕ) : ℕ :=
  match P with
  | .day => t / 86400
  | .month => (dateOf y0 t).monthNo
  | .year => (dateOf y0 t).year

theorem Period.mono (P : Period) (y0 : ℕ) {t u : ℕ} (h : t ≤ u) : P.no y0 t ≤ P.no y0 u := by
  have hd : t / 86400 ≤ u / 86400 := Nat.div_le_div_right h
  cases P with
  | day => exact hd
  | month => exact monthNo_mono y0 hd
  | year =>
    have := monthNo_mono y0 hd
    obtain ⟨-, -, -, -, -, h5, h6⟩ := civil_spec y0 (t / 86400)
    obtain ⟨-, -, -, -, -, g5, g6⟩ := civil_spec y0 (u / 86400)
    simp only [Period.no, dateOf]
    rw [year_eq _ h5 h6, year_eq _ g5 g6]
    exact Nat.div_le_div_right this

/-- The longest time step, in days, for which comparing the numbers alone is right. -/
def Period.maxStep : Period → Option ℕ
  | .day => some 27
  | .month => some 334
  | .year => none

/-- The number compared by the code. -/
def Period.shown (P : Period) (d : Date) : ℕ :=
  match P with
  | .day => d.day
  | .month => d.month
  | .year => d.year

/-- Comparing the shown numbers of two instants at most `maxStep` days apart decides whether they
lie in the same period. -/
theorem shown_iff (P : Period) (y0 : ℕ) {t u : ℕ} (h : t ≤ u)
    (hs : ∀ d, P.maxStep = some d → u - t ≤ d * 86400) :
    P.shown (dateOf y0 t) ≠ P.shown (dateOf y0 u) ↔ P.no y0 t ≠ P.no y0 u := by
  have hd : t / 86400 ≤ u / 86400 := Nat.div_le_div_right h
  cases P with
  | year => exact Iff.rfl
  | day =>
    have hs' := hs 27 rfl
    have hle : u / 86400 ≤ t / 86400 + 27 := by omega
    simp only [Period.shown, Period.no, dateOf]
    constructor
    · intro hne heq; rw [heq] at hne; exact hne rfl
    · intro hne heq
      have := day_apart y0 (lt_of_le_of_ne hd hne) heq
      omega
  | month =>
    have hs' := hs 334 rfl
    have hle : u / 86400 ≤ t / 86400 + 334 := by omega
    simp only [Period.shown, Period.no, dateOf]
    constructor
    · intro hne heq
      obtain ⟨-, -, -, -, -, h5, h6⟩ := civil_spec y0 (t / 86400)
      obtain ⟨-, -, -, -, -, g5, g6⟩ := civil_spec y0 (u / 86400)
      rw [month_eq _ h5 h6, month_eq _ g5 g6, heq] at hne
      exact hne rfl
    · intro hne heq
      have := month_apart y0 hd hne heq
      omega

/-- The flags by period. -/
def Flags.strictFirst (f : Flags) : Period → Bool
  | .day => f.strictFirstDay
  | .month => f.strictFirstMonth
  | .year => f.strictFirstYear
def Flags.first (f : Flags) : Period → Bool
  | .day => f.firstDay
  | .month => f.firstMonth
  | .year => f.firstYear
def Flags.strictLast (f : Flags) : Period → Bool
  | .day => f.strictLastDay
  | .month => f.strictLastMonth
  | .year => f.strictLastYear
def Flags.last (f : Flags) : Period → Bool
  | .day => f.lastDay
  | .month => f.lastMonth
  | .year => f.lastYear

/-- **C04.** `strict_first_of_*` is true exactly if every possible earlier time step `t - k dt` lies
in another calendar period, `strict_last_of_*` exactly if every possible later one does. -/
theorem C04_strict_flags (P : Period) (y0 dt t i n : ℕ) (hdt : 0 < dt) (ht : dt ≤ t)
    (hs : ∀ d, P.maxStep = some d → dt ≤ d * 86400) :
    ((flags y0 dt t i n).strictFirst P = true ↔
      ∀ k, 1 ≤ k → k * dt ≤ t → P.no y0 (t - k * dt) ≠ P.no y0 t) ∧
    ((flags y0 dt t i n).strictLast P = true ↔
      ∀ k, 1 ≤ k → P.no y0 (t + k * dt) ≠ P.no y0 t) := by
  have e1 : (flags y0 dt t i n).strictFirst P = true ↔ P.no y0 (t - dt) ≠ P.no y0 t := by
    rw [← shown_iff P y0 (Nat.sub_le t dt) (fun d hd => by have := hs d hd; omega)]
    cases P <;> simp [Flags.strictFirst, flags, Period.shown]
  have e2 : (flags y0 dt t i n).strictLast P = true ↔ P.no y0 t ≠ P.no y0 (t + dt) := by
    rw [← shown_iff P y0 (Nat.le_add_right t dt) (fun d hd => by have := hs d hd; omega)]
    cases P <;> simp only [Flags.strictLast, flags, Period.shown, decide_eq_true_eq] <;>
      exact ne_comm
  rw [e1, e2]
  constructor
  · constructor
    · intro h k hk hkt heq
      have h1 : t - k * dt ≤ t - dt := by
        have : dt ≤ k * dt := Nat.le_mul_of_pos_left dt hk
        omega
      have := P.mono y0 h1
      have := P.mono y0 (Nat.sub_le t dt)
      omega
    · intro h
      have := h 1 (le_refl _) (by omega)
      rwa [Nat.one_mul] at this
  · constructor
    · intro h k hk heq
      have h1 : t + dt ≤ t + k * dt := by
        have : dt ≤ k * dt := Nat.le_mul_of_pos_left dt hk
        omega
      have := P.mono y0 h1
      have := P.mono y0 (Nat.le_add_right t dt)
      omega
    · intro h heq
      have := h 1 (le_refl _)
      rw [Nat.one_mul] at this
      exact this heq.symm

/-- **C04.** For a run with dates `s, s + dt, ...` (`n` of them), `first_of_*` is true at date `i`
exactly if no earlier date of the run lies in the same calendar period, `last_of_*` exactly if no
later one does. -/
theorem C04_run_flags (P : Period) (y0 dt s i n : ℕ) (hdt : 0 < dt) (hst : dt ≤ s) (hi : i < n)
    (hs : ∀ d, P.maxStep = some d → dt ≤ d * 86400) :
    ((flags y0 dt (s + i * dt) i n).first P = true ↔
      ∀ j, j < i → P.no y0 (s + j * dt) ≠ P.no y0 (s + i * dt)) ∧
    ((flags y0 dt (s + i * dt) i n).last P = true ↔
      ∀ j, i < j → j < n → P.no y0 (s + j * dt) ≠ P.no y0 (s + i * dt)) := by
  have hle : dt ≤ s + i * dt := by omega
  obtain ⟨h1, h2⟩ := C04_strict_flags P y0 dt (s + i * dt) i n hdt hle hs
  have e1 : (flags y0 dt (s + i * dt) i n).first P = true ↔
      ((flags y0 dt (s + i * dt) i n).strictFirst P = true ∨ i = 0) := by
    cases P <;> simp [Flags.first, Flags.strictFirst, flags]
  have e2 : (flags y0 dt (s + i * dt) i n).last P = true ↔
      ((flags y0 dt (s + i * dt) i n).strictLast P = true ∨ i + 1 = n) := by
    cases P <;> simp [Flags.last, Flags.strictLast, flags]
  rw [e1, e2, h1, h2]
  constructor
  · constructor
    · rintro (h | rfl) j hj
      · have hk := h (i - j) (by omega) (by
          have : (i - j) * dt ≤ i * dt := Nat.mul_le_mul_right dt (by omega)
          omega)
        have e : s + i * dt - (i - j) * dt = s + j * dt := by
          have : i * dt = j * dt + (i - j) * dt := by rw [← Nat.add_mul]; congr 1; omega
          omega
        rwa [e] at hk
      · omega
    · intro h
      rcases Nat.eq_zero_or_pos i with h0 | h0
      · exact Or.inr h0
      · left
        intro k hk _ heq
        have h3 := h (i - 1) (by omega)
        have e : i * dt = (i - 1) * dt + dt := by
          conv_lhs => rw [show i = (i - 1) + 1 by omega]
          rw [Nat.add_mul, Nat.one_mul]
        have h4 : s + i * dt - k * dt ≤ s + (i - 1) * dt := by
          have : dt ≤ k * dt := Nat.le_mul_of_pos_left dt hk
          omega
        have h5 := P.mono y0 h4
        have h6 := P.mono y0 (show s + (i - 1) * dt ≤ s + i * dt by omega)
        omega
  · constructor
    · rintro (h | h) j hj hjn
      · have hk := h (j - i) (by omega)
        have e : s + i * dt + (j - i) * dt = s + j * dt := by
          have : j * dt = i * dt + (j - i) * dt := by rw [← Nat.add_mul]; congr 1; omega
          omega
        rwa [e] at hk
      · omega
    · intro h
      rcases Nat.lt_or_ge (i + 1) n with h0 | h0
      · left
        intro k hk heq
        have h3 := h (i + 1) (by omega) h0
        have h4 : s + (i + 1) * dt ≤ s + i * dt + k * dt := by
          have : dt ≤ k * dt := Nat.le_mul_of_pos_left dt hk
          rw [Nat.add_mul, Nat.one_mul]; omega
        have h5 := P.mono y0 h4
        have h6 := P.mono y0 (show s + i * dt ≤ s + (i + 1) * dt by
          rw [Nat.add_mul, Nat.one_mul]; omega)
        omega
      · right; omega

/-- Three-hourly steps satisfy the hypotheses for every period. -/
example (P : Period) : ∀ d, P.maxStep = some d → 10800 ≤ d * 86400 := by
  cases P <;> simp [Period.maxStep]

/-- With a step of 31 days, 1 February 2021 is not flagged as the first time step of its day,
although the preceding one is on 1 January. -/
theorem C04_long_step_day_witness :
    (flags 2021 (31 * 86400) (31 * 86400) 1 5).strictFirst .day = false ∧
      Period.no .day 2021 0 ≠ Period.no .day 2021 (31 * 86400) := by
  decide +kernel

/-- With a step of 335 days, 1 January 2022 is not flagged as the first time step of its month,
although the preceding one is on 31 January 2021. -/
theorem C04_long_step_month_witness :
    (flags 2021 (335 * 86400) (365 * 86400) 1 5).strictFirst .month = false ∧
      Period.no .month 2021 (30 * 86400) ≠ Period.no .month 2021 (365 * 86400) := by
  decide +kernel

end Verif.Time
