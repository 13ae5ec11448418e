import Verif.Props.Resample
import Mathlib.Tactic.Linarith
import Mathlib.Tactic.Ring

/-!
# C133: data at the model time step keep their dates
-/

namespace Verif.Resample

set_option linter.unusedSectionVars false

variable {K : Type*} [Field K] [LinearOrder K] [IsStrictOrderedRing K]

/-- Specification: a file without gaps with time step `f` and dates aligned with `start`. -/
structure Regular (start f : ℤ) (recs : Series K) : Prop where
  /-- in the order of the dates, no date twice -/
  sorted : recs.Pairwise fun a b => a.1 < b.1
  /-- aligned -/
  grid : ∀ r ∈ recs, f ∣ r.1 - start
  /-- no gaps -/
  full : ∀ r ∈ recs, ∀ r' ∈ recs, ∀ l, r.1 ≤ l → l ≤ r'.1 → f ∣ l - start → ∃ v, (l, v) ∈ recs

/-- Specification: the records of the period. -/
def period (start stop : ℤ) (recs : Series K) : Series K :=
  recs.filter fun r => decide (start ≤ r.1 ∧ r.1 ≤ stop)

theorem Regular.filter {start f : ℤ} {recs : Series K} (h : Regular start f recs) (lo hi : ℤ) :
    Regular start f (recs.filter fun r => decide (lo ≤ r.1 ∧ r.1 ≤ hi)) := by
  refine ⟨h.sorted.filter _, fun r hr => h.grid r (List.mem_filter.mp hr).1, ?_⟩
  intro r hr r' hr' l h1 h2 h3
  obtain ⟨a1, a2⟩ := List.mem_filter.mp hr
  obtain ⟨b1, b2⟩ := List.mem_filter.mp hr'
  simp only [decide_eq_true_eq] at a2 b2
  obtain ⟨v, hv⟩ := h.full r a1 r' b1 l h1 h2 h3
  exact ⟨v, List.mem_filter.mpr ⟨hv, by simp only [decide_eq_true_eq]; omega⟩⟩

theorem Regular.eq {start f : ℤ} {recs : Series K} (h : Regular start f recs) {r s : ℤ × Option K}
    (hr : r ∈ recs) (hs : s ∈ recs) (he : r.1 = s.1) : r = s := by
  have key : ∀ (l : Series K), l.Pairwise (fun a b => a.1 < b.1) → r ∈ l → s ∈ l → r = s := by
    intro l
    induction l with
    | nil => intro _ h; simp at h
    | cons a l ih =>
      intro hp h1 h2
      rw [List.pairwise_cons] at hp
      rcases List.mem_cons.mp h1 with e1 | m1 <;> rcases List.mem_cons.mp h2 with e2 | m2
      · rw [e1, e2]
      · have := hp.1 _ m2
        rw [e1] at he
        omega
      · have := hp.1 _ m1
        rw [e2] at he
        omega
      · exact ih hp.2 m1 m2
  exact key recs h.sorted hr hs

theorem filter_single {recs : Series K} (hs : recs.Pairwise fun a b => a.1 < b.1)
    (p : ℤ × Option K → Bool) (r : ℤ × Option K) (hr : r ∈ recs) (hp : p r = true)
    (hu : ∀ s ∈ recs, p s = true → s = r) : recs.filter p = [r] := by
  induction recs with
  | nil => simp at hr
  | cons a l ih =>
    rw [List.pairwise_cons] at hs
    rcases List.mem_cons.mp hr with rfl | hr'
    · rw [List.filter_cons_of_pos hp]
      congr 1
      rw [List.filter_eq_nil_iff]
      intro s hs' hps
      have := hu s (List.mem_cons_of_mem _ hs') hps
      have h2 := hs.1 s hs'
      rw [this] at h2
      exact lt_irrefl _ h2
    · rw [List.filter_cons_of_neg, ih hs.2 hr' fun s hs' => hu s (List.mem_cons_of_mem _ hs')]
      intro hpa
      have := hu a (by simp) hpa
      have h2 := hs.1 r hr'
      rw [this] at h2
      exact lt_irrefl _ h2

/-- The bin ending at a record holds this record only. -/
theorem Regular.within {start f : ℤ} (hf : 0 < f) {recs : Series K} (h : Regular start f recs) (l : ℤ)
    (v : Option K) (hl : (l, v) ∈ recs) : Resample.within (l - f) l recs = [v] := by
  unfold Resample.within
  rw [filter_single h.sorted _ (l, v) hl (by simp; omega)]
  · simp
  · intro s hs hp
    simp only [decide_eq_true_eq] at hp
    obtain ⟨i, hi⟩ := h.grid s hs
    obtain ⟨j, hj⟩ := h.grid _ hl
    simp only at hj
    apply h.eq hs hl
    simp only
    have : i = j := by
      by_contra hne
      rcases lt_or_gt_of_ne hne with a | a <;> nlinarith
    subst this
    omega

theorem head_le {recs : Series K} (hs : recs.Pairwise fun a b => a.1 < b.1) {a : ℤ × Option K}
    (ha : recs.head? = some a) : a ∈ recs ∧ ∀ r ∈ recs, a.1 ≤ r.1 := by
  cases recs with
  | nil => simp at ha
  | cons x l =>
    simp only [List.head?_cons, Option.some.injEq] at ha
    subst ha
    rw [List.pairwise_cons] at hs
    refine ⟨by simp, fun r hr => ?_⟩
    rcases List.mem_cons.mp hr with rfl | hr
    · exact le_rfl
    · exact (hs.1 r hr).le

theorem le_last {recs : Series K} (hs : recs.Pairwise fun a b => a.1 < b.1) {b : ℤ × Option K}
    (hb : recs.getLast? = some b) : b ∈ recs ∧ ∀ r ∈ recs, r.1 ≤ b.1 := by
  induction recs with
  | nil => simp at hb
  | cons x l ih =>
    rw [List.pairwise_cons] at hs
    cases l with
    | nil =>
      simp only [List.getLast?_singleton, Option.some.injEq] at hb
      subst hb
      simp
    | cons y l =>
      rw [List.getLast?_cons_cons] at hb
      obtain ⟨h1, h2⟩ := ih hs.2 hb
      refine ⟨List.mem_cons_of_mem _ h1, fun r hr => ?_⟩
      rcases List.mem_cons.mp hr with rfl | hr
      · exact (hs.1 b h1).le
      · exact h2 r hr

theorem sorted_ext : ∀ (l m : List ℤ), l.Pairwise (· < ·) → m.Pairwise (· < ·) →
    (∀ x, x ∈ l ↔ x ∈ m) → l = m := by
  intro l
  induction l with
  | nil =>
    intro m _ _ h
    cases m with
    | nil => rfl
    | cons y m => exact absurd ((h y).mpr (by simp)) (by simp)
  | cons x l ih =>
    intro m hl hm h
    cases m with
    | nil => exact absurd ((h x).mp (by simp)) (by simp)
    | cons y m =>
      rw [List.pairwise_cons] at hl hm
      have hxy : x = y := by
        have a := (h x).mp (by simp)
        have b := (h y).mpr (by simp)
        rcases List.mem_cons.mp a with a | a
        · exact a
        · rcases List.mem_cons.mp b with b | b
          · exact b.symm
          · have := hm.1 x a
            have := hl.1 y b
            omega
      subst hxy
      congr 1
      apply ih m hl.2 hm.2
      intro z
      constructor
      · intro hz
        rcases List.mem_cons.mp ((h z).mp (List.mem_cons_of_mem _ hz)) with e | e
        · exact absurd (hl.1 z hz) (by omega)
        · exact e
      · intro hz
        rcases List.mem_cons.mp ((h z).mpr (List.mem_cons_of_mem _ hz)) with e | e
        · exact absurd (hm.1 z hz) (by omega)
        · exact e

theorem grid_sorted (a f : ℤ) (hf : 0 < f) (n : ℕ) :
    ((List.range n).map fun k : ℕ => a + (k : ℤ) * f).Pairwise (· < ·) := by
  rw [List.pairwise_map]
  apply List.Pairwise.imp _ (List.pairwise_lt_range)
  intro i j hij
  have : (i : ℤ) < j := by exact_mod_cast hij
  nlinarith

theorem mem_grid (a f : ℤ) (hf : 0 < f) (b l : ℤ) :
    (l ∈ (List.range (((b - a) / f).toNat + 1)).map fun k : ℕ => a + (k : ℤ) * f) ∧ a ≤ b ↔
      f ∣ l - a ∧ a ≤ l ∧ l ≤ b := by
  constructor
  · rintro ⟨h, hab⟩
    obtain ⟨k, hk, rfl⟩ := List.mem_map.mp h
    have hk' := List.mem_range.mp hk
    have h0 : 0 ≤ (b - a) / f := Int.ediv_nonneg (by omega) hf.le
    have hle : (k : ℤ) ≤ (b - a) / f := by omega
    have := Int.ediv_mul_le (b - a) hf.ne'
    refine ⟨⟨k, by ring⟩, by nlinarith [Int.natCast_nonneg k], by nlinarith⟩
  · rintro ⟨⟨k, hk⟩, h1, h2⟩
    refine ⟨List.mem_map.mpr ⟨k.toNat, List.mem_range.mpr ?_, ?_⟩, by omega⟩
    · have h0 : 0 ≤ k := by
        by_contra hn
        push Not at hn
        nlinarith
      have : k ≤ (b - a) / f := by
        rw [Int.le_ediv_iff_mul_le hf]
        nlinarith
      omega
    · have h0 : 0 ≤ k := by
        by_contra hn
        push Not at hn
        nlinarith
      rw [Int.toNat_of_nonneg h0]
      have : k * f = f * k := by ring
      omega

theorem dates_sorted {start f : ℤ} {recs : Series K} (h : Regular start f recs) (stop : ℤ) :
    ((period start stop recs).map Prod.fst).Pairwise (· < ·) := by
  rw [List.pairwise_map]
  exact h.sorted.filter _

theorem mem_dates {recs : Series K} (start stop l : ℤ) :
    l ∈ (period start stop recs).map Prod.fst ↔ (∃ v, (l, v) ∈ recs) ∧ start ≤ l ∧ l ≤ stop := by
  unfold period
  simp only [List.mem_map, List.mem_filter, decide_eq_true_eq, Prod.exists, exists_and_right,
    exists_eq_right]

/-- The dates without aggregation. -/
theorem resIndex_instant {start f : ℤ} (hf : 0 < f) {recs : Series K} (h : Regular start f recs)
    (d : Bool) (stop : ℤ) {a b : ℤ × Option K} (ha : recs.head? = some a) (hb : recs.getLast? = some b) :
    resIndex d false start stop f a.1 b.1 = (period start stop recs).map Prod.fst := by
  obtain ⟨ha1, ha2⟩ := head_le h.sorted ha
  obtain ⟨hb1, hb2⟩ := le_last h.sorted hb
  unfold resIndex
  simp only [Bool.false_eq_true, if_false]
  by_cases hss : stop < start
  · rw [if_pos hss]
    symm
    rw [List.map_eq_nil_iff]
    unfold period
    rw [List.filter_eq_nil_iff]
    intro r _
    simp only [decide_eq_true_eq]
    omega
  · rw [if_neg hss]
    apply sorted_ext _ _ ((grid_sorted start f hf _).filter _) (dates_sorted h stop)
    intro l
    rw [mem_dates, List.mem_filter, decide_eq_true_eq]
    constructor
    · rintro ⟨h1, h2, h3⟩
      obtain ⟨g1, g2, g3⟩ := (mem_grid start f hf stop l).mp ⟨h1, by omega⟩
      exact ⟨h.full a ha1 b hb1 l h2 h3 g1, g2, g3⟩
    · rintro ⟨⟨v, hv⟩, h1, h2⟩
      exact ⟨((mem_grid start f hf stop l).mpr ⟨h.grid _ hv, h1, h2⟩).1, ha2 _ hv, hb2 _ hv⟩

theorem binLabel_grid (start f t : ℤ) (hf : 0 < f) (h : f ∣ t - start) :
    binLabel false start f t = t := by
  obtain ⟨k, hk⟩ := h
  have e : t = start + k * f := by
    have : k * f = f * k := by ring
    omega
  rw [e, binLabel_iff false start f _ k hf]
  simp only [Bool.false_eq_true, if_false]
  constructor <;> nlinarith

theorem mem_binLabels {start f : ℤ} (hf : 0 < f) {first last : ℤ} (h1 : f ∣ first - start)
    (h2 : f ∣ last - start) (hle : first ≤ last) (l : ℤ) :
    l ∈ binLabels false start f first last ↔ f ∣ l - start ∧ first ≤ l ∧ l ≤ last := by
  unfold binLabels
  simp only [binLabel_grid start f _ hf h1, binLabel_grid start f _ hf h2]
  have key := mem_grid first f hf last l
  constructor
  · intro h
    obtain ⟨g1, g2, g3⟩ := key.mp ⟨h, hle⟩
    exact ⟨by have := dvd_add g1 h1; simpa using this, g2, g3⟩
  · rintro ⟨g1, g2, g3⟩
    exact (key.mpr ⟨by have := dvd_sub g1 h1; simpa using this, g2, g3⟩).1

theorem binLabels_sorted (start f first last : ℤ) (hf : 0 < f) :
    (binLabels false start f first last).Pairwise (· < ·) := grid_sorted _ f hf _

/-- The dates of the bins. -/
theorem bins_period {start f : ℤ} (hf : 0 < f) {recs : Series K} (h : Regular start f recs)
    (stop : ℤ) {a b : ℤ × Option K} (ha : recs.head? = some a) (hb : recs.getLast? = some b) :
    ((binLabels false start f a.1 b.1).filter fun l => decide (start ≤ l ∧ l ≤ stop)) =
      (period start stop recs).map Prod.fst := by
  obtain ⟨ha1, ha2⟩ := head_le h.sorted ha
  obtain ⟨hb1, hb2⟩ := le_last h.sorted hb
  apply sorted_ext _ _ ((binLabels_sorted start f _ _ hf).filter _) (dates_sorted h stop)
  intro l
  rw [mem_dates, List.mem_filter, decide_eq_true_eq,
    mem_binLabels hf (h.grid a ha1) (h.grid b hb1) (ha2 b hb1)]
  constructor
  · rintro ⟨⟨g1, g2, g3⟩, h2⟩
    exact ⟨h.full a ha1 b hb1 l g2 g3 g1, h2⟩
  · rintro ⟨⟨v, hv⟩, h1⟩
    exact ⟨⟨h.grid _ hv, ha2 _ hv, hb2 _ hv⟩, h1⟩

/-- The dates below one day, with aggregation or without. -/
theorem resIndex_regular {start f : ℤ} (hf : 0 < f) {recs : Series K} (h : Regular start f recs)
    (aggregate : Bool) (stop : ℤ) {a b : ℤ × Option K} (ha : recs.head? = some a)
    (hb : recs.getLast? = some b) :
    resIndex false aggregate start stop f a.1 b.1 = (period start stop recs).map Prod.fst := by
  cases aggregate with
  | false => exact resIndex_instant hf h false stop ha hb
  | true =>
    unfold resIndex
    simp only [Bool.false_eq_true, if_true, if_false]
    rw [bins_period hf h stop ha hb]
    cases hp : (period start stop recs).map Prod.fst with
    | nil => rfl
    | cons l ls =>
      simp only
      rw [if_neg]
      have hl : l ∈ (period start stop recs).map Prod.fst := by rw [hp]; simp
      obtain ⟨⟨v, hv⟩, -⟩ := (mem_dates start stop l).mp hl
      exact not_lt.mpr ((head_le h.sorted ha).2 _ hv)

theorem all_dates {recs : Series K} (start stop : ℤ) :
    (((period start stop recs).map Prod.fst).all fun l => recs.any fun r => decide (r.1 = l)) = true := by
  rw [List.all_eq_true]
  intro l hl
  obtain ⟨⟨v, hv⟩, -⟩ := (mem_dates start stop l).mp hl
  exact List.any_eq_true.mpr ⟨(l, v), hv, by simp⟩

theorem map_dates {recs : Series K} (start stop : ℤ) (val : ℤ → Option K)
    (h : ∀ l v, (l, v) ∈ recs → val l = v) :
    ((period start stop recs).map Prod.fst).map (fun l => (l, val l)) = period start stop recs := by
  rw [List.map_map]
  conv_rhs => rw [← List.map_id (period start stop recs)]
  apply List.map_congr_left
  intro r hr
  simp only [Function.comp, id]
  rw [h r.1 r.2 (List.mem_filter.mp hr).1]

theorem ends {recs : Series K} (hne : recs ≠ []) :
    ∃ a b, recs.head? = some a ∧ recs.getLast? = some b := by
  cases recs with
  | nil => exact absurd rfl hne
  | cons a l => exact ⟨a, _, rfl, List.getLast?_eq_some_getLast (by simp)⟩

/-- Resampling a regular file below one day keeps the records of the period. -/
theorem resample_regular (agg : List (Option K) → Option K) (hagg : ∀ v, agg [v] = v) {start f : ℤ}
    (hf : 0 < f) (hd : f < 86400) {recs : Series K} (h : Regular start f recs) (aggregate : Bool)
    (stop : ℤ) (hp : aggregate = true → period start stop recs ≠ []) :
    resample agg start stop f aggregate recs = some (period start stop recs) := by
  by_cases hne : recs = []
  · subst hne
    simp [resample, period, show ¬ (86400 : ℤ) < f by omega]
  obtain ⟨a, b, ha, hb⟩ := ends hne
  have hdd : decide (f = 86400) = false := by simp; omega
  unfold resample
  rw [if_neg (by omega), ha, hb]
  simp only [hdd, Bool.false_eq_true, if_false]
  rw [resIndex_regular hf h aggregate stop ha hb, bins_period hf h stop ha hb, if_neg, if_pos (all_dates _ _)]
  · congr 1
    apply map_dates
    intro l v hv
    have hm := (mem_binLabels hf (h.grid a (head_le h.sorted ha).1) (h.grid b (le_last h.sorted hb).1)
      ((head_le h.sorted ha).2 b (le_last h.sorted hb).1) l).mpr
      ⟨h.grid _ hv, (head_le h.sorted ha).2 _ hv, (le_last h.sorted hb).2 _ hv⟩
    rw [if_pos hm]
    obtain ⟨k, hk⟩ := h.grid _ hv
    have e : l = start + k * f := by
      have : k * f = f * k := by ring
      simp only at hk
      omega
    rw [e, binned_within agg false start f k hf recs]
    simp only [Bool.false_eq_true, if_false]
    rw [← e, h.within hf l v hv, hagg]
  · rintro ⟨h1, h2⟩
    exact hp h1 (List.map_eq_nil_iff.mp h2)

theorem resampleInstant_regular {start f : ℤ} (hf : 0 < f) (hd : f ≤ 86400) {recs : Series K}
    (h : Regular start f recs) (stop : ℤ) :
    resampleInstant start stop f recs = some (period start stop recs) := by
  by_cases hne : recs = []
  · subst hne
    simp [resampleInstant, period, show ¬ (86400 : ℤ) < f by omega]
  obtain ⟨a, b, ha, hb⟩ := ends hne
  unfold resampleInstant
  rw [if_neg (by omega), ha, hb]
  simp only
  rw [resIndex_instant hf h _ stop ha hb, if_pos (all_dates _ _)]
  congr 1
  apply map_dates
  intro l v hv
  cases hfind : recs.find? fun r => decide (r.1 = l) with
  | none =>
    have := List.find?_eq_none.mp hfind (l, v) hv
    simp at this
  | some r =>
    have h1 := List.find?_some hfind
    simp only [decide_eq_true_eq] at h1
    have h2 := List.mem_of_find?_eq_some hfind
    rw [h.eq h2 hv h1]
    rfl

theorem period_period {recs : Series K} (start stop : ℤ) :
    (period start stop recs).filter (fun r => decide (start ≤ r.1 ∧ r.1 ≤ stop)) =
      period start stop recs := by
  unfold period
  rw [List.filter_filter]
  simp

theorem period_cut {recs : Series K} (start stop : ℤ) :
    period start stop (recs.filter fun r => decide (start - 86400 ≤ r.1 ∧ r.1 ≤ stop)) =
      period start stop recs := by
  unfold period
  rw [List.filter_filter]
  apply List.filter_congr
  intro r _
  rw [← Bool.decide_and, decide_eq_decide]
  omega

theorem sumStrict_single (v : Option K) : sumStrict [v] = v := by
  cases v <;> simp [sumStrict]

theorem maxSkip_single (v : Option K) : maxSkip [v] = v := by
  cases v <;> simp [maxSkip]

theorem meanSkip_single (v : Option K) : meanSkip [v] = v := by
  cases v <;> simp [meanSkip]

/-- **C133.** Below one day: the records of the period unchanged, for all variables, however the time
step is spelled, with aggregation or without. (With aggregation there has to be a record in the
period.) What is missing: daily data, `C133_daily_false`. -/
theorem C133_kept_partial (k : Kind) (same aggregate : Bool) (start stop f : ℤ) (hf : 0 < f)
    (hd : f < 86400) (recs : Series K) (h : Regular start f recs)
    (hp : aggregate = true → period start stop recs ≠ []) :
    prepare k same start stop f f aggregate recs = some (period start stop recs) := by
  have hsub : decide (f = 86400 ∧ f < 86400) = false := by simp; omega
  have hcut := h.filter (start - 86400) stop
  have key : ∀ agg : List (Option K) → Option K, (∀ v, agg [v] = v) →
      sliceResample agg start stop f f aggregate recs = some (period start stop recs) := by
    intro agg hagg
    unfold sliceResample
    simp only [hsub, Bool.or_false, Bool.false_eq_true, if_false]
    rw [resample_regular agg hagg hf hd hcut aggregate stop (by rw [period_cut]; exact hp), period_cut,
      Option.map_some, period_period]
  unfold prepare
  cases same with
  | true => simp [period]
  | false =>
    simp only [Bool.false_eq_true, if_false]
    cases k with
    | precip => exact key _ sumStrict_single
    | gust => exact key _ maxSkip_single
    | other =>
      simp only [hsub, Bool.or_false]
      cases aggregate with
      | true => exact key _ meanSkip_single
      | false =>
        simp only [Bool.false_eq_true, if_false]
        rw [resampleInstant_regular hf hd.le hcut stop, period_cut, Option.map_some, period_period]

/-- **C133.** Daily data with the time step spelled as pandas infers it ("D"), and the variables which are
not summed up or maximised with any spelling, if `aggregate_when_downsampling` is off. -/
theorem C133_daily_kept_partial (k : Kind) (same aggregate : Bool) (start stop : ℤ)
    (recs : Series K) (h : Regular start 86400 recs)
    (hs : same = true ∨ k = .other ∧ aggregate = false) :
    prepare k same start stop 86400 86400 aggregate recs = some (period start stop recs) := by
  unfold prepare
  cases same with
  | true => simp [period]
  | false =>
    rcases hs with hs | ⟨rfl, rfl⟩
    · simp at hs
    · simp only [Bool.false_eq_true, if_false, lt_irrefl, and_false, decide_false, Bool.or_self]
      rw [resampleInstant_regular (by norm_num) le_rfl (h.filter _ _) stop, period_cut, Option.map_some,
        period_period]

/-- **C133 fails for daily data** with another spelling ("1D", "24h"): every date of the period gets the
precipitation of the following day, and the last date none, while the other variables keep their
dates (`C133_daily_kept_partial`). The same holds for wind gusts. -/
theorem C133_daily_false (k : Kind) (hk : k ≠ .other) (start stop : ℤ) (recs : Series K)
    (h : Regular start 86400 recs) :
    ∃ out, prepare k false start stop 86400 86400 false recs = some out ∧
      out.map Prod.fst = (period start stop recs).map Prod.fst ∧
      ∀ l v, (l, v) ∈ out →
        (∀ w, (l + 86400, w) ∈ recs → l + 86400 ≤ stop → v = w) ∧
        ((∀ w, (l + 86400, w) ∈ recs → stop < l + 86400) → v = none) := by
  have key : ∀ agg : List (Option K) → Option K, (∀ v, agg [v] = v) →
      ∃ out, sliceResample agg start stop 86400 86400 false recs = some out ∧
      out.map Prod.fst = (period start stop recs).map Prod.fst ∧
      ∀ l v, (l, v) ∈ out →
        (∀ w, (l + 86400, w) ∈ recs → l + 86400 ≤ stop → v = w) ∧
        ((∀ w, (l + 86400, w) ∈ recs → stop < l + 86400) → v = none) := by
    intro agg hagg
    unfold sliceResample
    simp only [lt_irrefl, and_false, decide_false, Bool.or_self, Bool.false_eq_true, if_false]
    have hcut := h.filter (start - 86400) stop
    have hpc := period_cut (recs := recs) start stop
    have hmem : ∀ l w, (l, w) ∈ (recs.filter fun r => decide (start - 86400 ≤ r.1 ∧ r.1 ≤ stop)) ↔
        (l, w) ∈ recs ∧ start - 86400 ≤ l ∧ l ≤ stop := by
      intro l w
      rw [List.mem_filter, decide_eq_true_eq]
    obtain ⟨cut, hcuteq⟩ : ∃ c, (recs.filter fun r => decide (start - 86400 ≤ r.1 ∧ r.1 ≤ stop)) = c :=
      ⟨_, rfl⟩
    rw [hcuteq] at hcut hpc hmem ⊢
    by_cases hne : cut = []
    · subst hne
      refine ⟨[], by simp [resample], ?_, by simp⟩
      rw [← hpc]
      rfl
    obtain ⟨a, b, ha, hb⟩ := ends hne
    obtain ⟨ha1, ha2⟩ := head_le hcut.sorted ha
    obtain ⟨hb1, hb2⟩ := le_last hcut.sorted hb
    have hres : resample agg start stop 86400 false cut =
        some (((period start stop cut).map Prod.fst).map fun l =>
          (l, if l ∈ binLabels true a.1 86400 a.1 b.1 then binned agg true a.1 86400 cut l
            else none)) := by
      unfold resample
      rw [if_neg (by omega), ha, hb]
      simp only [decide_true, if_true, Bool.false_eq_true, false_and, if_false]
      rw [resIndex_instant (by norm_num) hcut true stop ha hb, if_pos (all_dates _ _)]
    rw [hres]
    refine ⟨_, rfl, ?_, ?_⟩
    · dsimp only
      rw [List.filter_eq_self.mpr, List.map_map, ← hpc]
      · simp [Function.comp_def]
      · intro r hr
        obtain ⟨l, hl, rfl⟩ := List.mem_map.mp hr
        simpa using ((mem_dates start stop l).mp hl).2
    · intro l v hv
      obtain ⟨l', hl', e⟩ := List.mem_map.mp (List.mem_filter.mp hv).1
      simp only [Prod.mk.injEq] at e
      obtain ⟨rfl, rfl⟩ := e
      obtain ⟨⟨u, hu⟩, hl1, hl2⟩ := (mem_dates start stop l').mp hl'
      have hgrid : ∀ r ∈ cut, (86400 : ℤ) ∣ r.1 - a.1 := by
        intro r hr
        have := dvd_sub (hcut.grid r hr) (hcut.grid a ha1)
        simpa using this
      obtain ⟨i, hi⟩ := hgrid _ hu
      simp only at hi
      have hlab : ∀ t : ℤ, (86400 : ℤ) ∣ t - a.1 → binLabel true a.1 86400 t = t - 86400 := by
        rintro t ⟨j, hj⟩
        have e : t - 86400 = a.1 + (j - 1) * 86400 := by omega
        rw [e, binLabel_iff true a.1 86400 t (j - 1) (by norm_num)]
        simp only [if_true]
        omega
      have hml : l' ∈ binLabels true a.1 86400 a.1 b.1 ↔ l' + 86400 ≤ b.1 := by
        unfold binLabels
        simp only [hlab a.1 (by simp), hlab b.1 (hgrid b hb1)]
        have key := mem_grid (a.1 - 86400) 86400 (by norm_num) (b.1 - 86400) l'
        have hab := ha2 b hb1
        have hal := ha2 _ hu
        simp only at hal
        constructor
        · intro hm
          obtain ⟨-, -, g3⟩ := key.mp ⟨hm, by omega⟩
          omega
        · intro hle
          refine (key.mpr ⟨?_, by omega, by omega⟩).1
          exact ⟨i + 1, by omega⟩
      constructor
      · intro w hw hws
        have hw' : (l' + 86400, w) ∈ cut := (hmem _ _).mpr ⟨hw, by omega, hws⟩
        have hle := hb2 _ hw'
        simp only at hle
        rw [if_pos (hml.mpr hle)]
        have e : l' = a.1 + i * 86400 := by omega
        rw [e, binned_within agg true a.1 86400 i (by norm_num) cut]
        simp only [if_true]
        rw [← e]
        have := hcut.within (by norm_num) (l' + 86400) w hw'
        rw [show l' + 86400 - 86400 = l' by omega] at this
        rw [this, hagg]
      · intro hnone
        rw [if_neg]
        intro hm
        have hle := hml.mp hm
        obtain ⟨w, hw⟩ := hcut.full _ hu b hb1 (l' + 86400) (by simp only; omega) hle (by
          obtain ⟨j, hj⟩ := hcut.grid _ hu
          simp only at hj
          exact ⟨j + 1, by omega⟩)
        obtain ⟨w1, -, w3⟩ := (hmem _ _).mp hw
        exact absurd (hnone w w1) (by omega)
  unfold prepare
  simp only [Bool.false_eq_true, if_false]
  cases k with
  | precip => exact key _ sumStrict_single
  | gust => exact key _ maxSkip_single
  | other => exact absurd rfl hk

/-- Four days of precipitation, of which the second and third are simulated. -/
def exDays : Series ℚ := [(0, some 1), (86400, some 2), (172800, some 3), (259200, some 4)]

example : Regular 86400 86400 exDays := by
  refine ⟨by simp [exDays], ?_, ?_⟩
  · intro r hr
    simp only [exDays, List.mem_cons, List.not_mem_nil, or_false] at hr
    rcases hr with rfl | rfl | rfl | rfl <;> decide
  · intro r hr r' hr' l h1 h2 h3
    simp only [exDays, List.mem_cons, List.not_mem_nil, or_false] at hr hr'
    have h4 : 0 ≤ l ∧ l ≤ 259200 := by
      rcases hr with rfl | rfl | rfl | rfl <;> rcases hr' with rfl | rfl | rfl | rfl <;>
        simp only at h1 h2 <;> omega
    obtain ⟨j, hj⟩ := h3
    have : j = -1 ∨ j = 0 ∨ j = 1 ∨ j = 2 := by omega
    rcases this with rfl | rfl | rfl | rfl
    · exact ⟨some 1, by simp [exDays]; omega⟩
    · exact ⟨some 2, by simp [exDays]; omega⟩
    · exact ⟨some 3, by simp [exDays]; omega⟩
    · exact ⟨some 4, by simp [exDays]; omega⟩

/-- Hourly data with a gap in the values, starting one hour before the run. -/
def exHours : Series ℚ := [(0, some 1), (3600, none), (7200, some 3)]

example : Regular 3600 3600 exHours ∧ period 3600 7200 exHours ≠ [] := by
  refine ⟨⟨by simp [exHours], ?_, ?_⟩, by decide +kernel⟩
  · intro r hr
    simp only [exHours, List.mem_cons, List.not_mem_nil, or_false] at hr
    rcases hr with rfl | rfl | rfl <;> decide
  · intro r hr r' hr' l h1 h2 h3
    simp only [exHours, List.mem_cons, List.not_mem_nil, or_false] at hr hr'
    have h4 : 0 ≤ l ∧ l ≤ 7200 := by
      rcases hr with rfl | rfl | rfl <;> rcases hr' with rfl | rfl | rfl <;>
        simp only at h1 h2 <;> omega
    obtain ⟨j, hj⟩ := h3
    have : j = -1 ∨ j = 0 ∨ j = 1 := by omega
    rcases this with rfl | rfl | rfl
    · exact ⟨some 1, by simp [exHours]; omega⟩
    · exact ⟨none, by simp [exHours]; omega⟩
    · exact ⟨some 3, by simp [exHours]; omega⟩

/-- Spelled "D": the values of the two days. Spelled "24h": the value of the following day, and none. With
aggregation the second day is missing from the data. -/
example : prepare .precip true 86400 172800 86400 86400 false exDays =
      some [(86400, some 2), (172800, some 3)] ∧
    prepare .precip false 86400 172800 86400 86400 false exDays =
      some [(86400, some 3), (172800, none)] ∧
    prepare .other false 86400 172800 86400 86400 false exDays =
      some [(86400, some 2), (172800, some 3)] ∧
    prepare .precip false 86400 172800 86400 86400 true exDays = some [(86400, some 3)] ∧
    prepare .other false 86400 172800 86400 86400 true exDays = some [(86400, some 3)] := by
  decide +kernel

end Verif.Resample
