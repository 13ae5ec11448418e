import Verif.Props.Resample
import Mathlib.Data.List.Perm.Basic
import Mathlib.Tactic.LinearCombination

/-!
# C140: the end of the simulation and resampled station data
-/

set_option linter.unusedSectionVars false

namespace Verif.Resample

variable {K : Type*} [Field K] [LinearOrder K]

/-! ## Resampled data -/

/-- Ordered by date. -/
def Ordered {α : Type*} (l : List (ℤ × α)) : Prop := l.Pairwise fun p q => p.1 < q.1

theorem ordered_ext {α : Type*} {l l' : List (ℤ × α)} (h : Ordered l) (h' : Ordered l')
    (hm : ∀ p, p ∈ l ↔ p ∈ l') : l = l' := by
  have nd : ∀ m : List (ℤ × α), Ordered m → m.Nodup := fun m hm =>
    hm.imp fun hlt e => by rw [e] at hlt; exact lt_irrefl _ hlt
  have hp := (List.perm_ext_iff_of_nodup (nd _ h) (nd _ h')).mpr hm
  refine hp.eq_of_pairwise ?_ h h'
  intro a b _ _ h1 h2
  exact absurd (lt_trans h1 h2) (lt_irrefl _)

theorem binLabels_increasing (daily : Bool) (origin f first last : ℤ) (hf : 0 < f) :
    (binLabels daily origin f first last).Pairwise (· < ·) := by
  simp only [binLabels]
  rw [List.pairwise_map]
  refine List.pairwise_lt_range.imp ?_
  intro a b h
  have : (a : ℤ) < b := by exact_mod_cast h
  nlinarith

theorem range_increasing (start f : ℤ) (n : ℕ) (hf : 0 < f) :
    ((List.range n).map fun k : ℕ => start + (k : ℤ) * f).Pairwise (· < ·) := by
  rw [List.pairwise_map]
  refine List.pairwise_lt_range.imp ?_
  intro a b h
  have : (a : ℤ) < b := by exact_mod_cast h
  nlinarith

theorem resIndex_increasing (daily aggregate : Bool) (start stop f first last : ℤ) (hf : 0 < f) :
    (resIndex daily aggregate start stop f first last).Pairwise (· < ·) := by
  simp only [resIndex]
  split
  · have h := (binLabels_increasing daily (if daily = true then first else start) f first last hf).filter
      (fun l => decide (start ≤ l ∧ l ≤ stop))
    split
    · exact List.Pairwise.nil
    · rename_i l ls e
      rw [e] at h
      split
      · exact h.tail
      · exact h
  · split
    · exact List.Pairwise.nil
    · exact (range_increasing start f _ hf).filter _

/-- The dates of the bins. -/
theorem mem_binLabels_iff (daily : Bool) (origin f first last l : ℤ) (hf : 0 < f) (hfl : first ≤ last) :
    l ∈ binLabels daily origin f first last ↔
      f ∣ l - origin ∧ binLabel daily origin f first ≤ l ∧ l ≤ binLabel daily origin f last := by
  have hm := cdiv_mono (first - origin) (last - origin) f hf (by linarith)
  have hdv : f ∣ binLabel daily origin f last - binLabel daily origin f first := by
    unfold binLabel
    split
    · exact ⟨cdiv (last - origin) f - cdiv (first - origin) f, by ring⟩
    · exact ⟨cdiv (last - origin) f - cdiv (first - origin) f, by ring⟩
  have hda : f ∣ binLabel daily origin f first - origin := by
    unfold binLabel
    split
    · exact ⟨cdiv (first - origin) f - 1, by ring⟩
    · exact ⟨cdiv (first - origin) f, by ring⟩
  have hle : binLabel daily origin f first ≤ binLabel daily origin f last := by
    unfold binLabel
    split <;> nlinarith
  obtain ⟨q, hq⟩ := hdv
  have hq0 : 0 ≤ q := by nlinarith
  simp only [binLabels, List.mem_map, List.mem_range]
  rw [hq, Int.mul_ediv_cancel_left _ hf.ne']
  constructor
  · rintro ⟨k, hk, rfl⟩
    have hk' : (k : ℤ) ≤ q := by omega
    refine ⟨?_, ?_, ?_⟩
    · obtain ⟨c, hc⟩ := hda
      exact ⟨c + k, by linear_combination hc⟩
    · have : (0 : ℤ) ≤ k := by positivity
      nlinarith
    · nlinarith
  · rintro ⟨h1, h2, h3⟩
    obtain ⟨c, hc⟩ := dvd_sub h1 hda
    have hc' : l - binLabel daily origin f first = f * c := by linear_combination hc
    have c0 : 0 ≤ c := by nlinarith
    have c1 : c ≤ q := by nlinarith
    refine ⟨c.toNat, by omega, ?_⟩
    rw [Int.toNat_of_nonneg c0]
    linear_combination -hc'

theorem mem_range_grid (start stop f l : ℤ) (hf : 0 < f) (hs : start ≤ stop) :
    l ∈ ((List.range (((stop - start) / f).toNat + 1)).map fun k : ℕ => start + (k : ℤ) * f) ↔
      f ∣ l - start ∧ start ≤ l ∧ l ≤ stop := by
  have h0 : 0 ≤ (stop - start) / f := Int.ediv_nonneg (by linarith) hf.le
  simp only [List.mem_map, List.mem_range]
  constructor
  · rintro ⟨k, hk, rfl⟩
    have hk' : (k : ℤ) ≤ (stop - start) / f := by omega
    have h1 := Int.ediv_mul_le (stop - start) hf.ne'
    refine ⟨⟨k, by ring⟩, ?_, ?_⟩
    · have : (0 : ℤ) ≤ k := by positivity
      nlinarith
    · nlinarith
  · rintro ⟨⟨c, hc⟩, h1, h2⟩
    have c0 : 0 ≤ c := by nlinarith
    have c1 : c ≤ (stop - start) / f := by
      rw [Int.le_ediv_iff_mul_le hf]
      linarith [mul_comm f c]
    refine ⟨c.toNat, by omega, ?_⟩
    rw [Int.toNat_of_nonneg c0]
    linear_combination -hc

theorem binLabel_sub (origin f t : ℤ) (hf : 0 < f) :
    t ≤ binLabel false origin f t ∧ ∀ l, f ∣ l - origin → t ≤ l → binLabel false origin f t ≤ l := by
  obtain ⟨h1, h2⟩ := cdiv_spec (t - origin) f hf
  simp only [binLabel, Bool.false_eq_true, if_false]
  refine ⟨by linarith, ?_⟩
  rintro l ⟨c, hc⟩ hl
  have : cdiv (t - origin) f - 1 < c := by
    by_contra hcon
    push Not at hcon
    nlinarith
  nlinarith

theorem binLabel_daily (origin f t : ℤ) (hf : 0 < f) :
    binLabel true origin f t < t ∧ ∀ l, f ∣ l - origin → (l ≤ binLabel true origin f t ↔ l < t) := by
  obtain ⟨h1, h2⟩ := cdiv_spec (t - origin) f hf
  simp only [binLabel, if_true]
  refine ⟨by linarith, ?_⟩
  rintro l ⟨c, hc⟩
  constructor
  · intro h
    linarith
  · intro h
    have : c < cdiv (t - origin) f := by
      by_contra hcon
      push Not at hcon
      nlinarith
    nlinarith

/-- Dates of the resampled data: those of the grid of the model, within the period, that are dates of records. -/
theorem mem_resIndex (aggregate : Bool) (start stop f first last l : ℤ) (hf : 0 < f) (h1 : first ≤ l) (h2 : l ≤ last) :
    l ∈ resIndex false aggregate start stop f first last ↔ f ∣ l - start ∧ start ≤ l ∧ l ≤ stop := by
  simp only [resIndex, Bool.false_eq_true, if_false]
  split
  · have hm := mem_binLabels_iff false start f first last l hf (h1.trans h2)
    have hb : f ∣ l - start → l ∈ binLabels false start f first last := fun hd =>
      hm.mpr ⟨hd, (binLabel_sub start f first hf).2 l hd h1, h2.trans (binLabel_sub start f last hf).1⟩
    have hfil : l ∈ (binLabels false start f first last).filter (fun l => decide (start ≤ l ∧ l ≤ stop)) ↔
        f ∣ l - start ∧ start ≤ l ∧ l ≤ stop := by
      rw [List.mem_filter, decide_eq_true_iff]
      exact ⟨fun h => ⟨(hm.mp h.1).1, h.2⟩, fun h => ⟨hb h.1, h.2⟩⟩
    rw [← hfil]
    split
    · rename_i e
      rw [e]
    · rename_i x xs e
      rw [e]
      split
      · rename_i hx
        rw [List.mem_cons]
        constructor
        · exact Or.inr
        · rintro (rfl | h)
          · omega
          · exact h
      · rfl
  · split
    · constructor
      · intro h
        cases h
      · rintro ⟨-, h3, h4⟩
        omega
    · rw [List.mem_filter, mem_range_grid start stop f l hf (by omega), decide_eq_true_iff]
      exact ⟨fun h => h.1, fun h => ⟨h, h1, h2⟩⟩

theorem mem_resIndex_daily (start stop first last l : ℤ) (h1 : first ≤ l) (h2 : l ≤ last) :
    l ∈ resIndex true true start stop 86400 first last ↔
      (86400 : ℤ) ∣ l - first ∧ start ≤ l ∧ l ≤ stop ∧ l < last := by
  simp only [resIndex, if_true]
  have hm := mem_binLabels_iff true first 86400 first last l (by norm_num) (h1.trans h2)
  have hfil : l ∈ (binLabels true first 86400 first last).filter (fun l => decide (start ≤ l ∧ l ≤ stop)) ↔
      (86400 : ℤ) ∣ l - first ∧ start ≤ l ∧ l ≤ stop ∧ l < last := by
    rw [List.mem_filter, decide_eq_true_iff, hm]
    constructor
    · rintro ⟨⟨a, b, c⟩, d, e⟩
      exact ⟨a, d, e, ((binLabel_daily first 86400 last (by norm_num)).2 l a).mp c⟩
    · rintro ⟨a, b, c, d⟩
      exact ⟨⟨a, ((binLabel_daily first 86400 first (by norm_num)).1.trans_le h1).le,
        ((binLabel_daily first 86400 last (by norm_num)).2 l a).mpr d⟩, b, c⟩
  rw [← hfil]
  split
  · rename_i e
    rw [e]
  · rename_i x xs e
    rw [e]
    split
    · rename_i hx
      rw [List.mem_cons]
      constructor
      · exact Or.inr
      · rintro (rfl | h)
        · omega
        · exact h
    · rfl

theorem ordered_first {α : Type*} {l : List (ℤ × α)} (h : Ordered l) {a r : ℤ × α} (ha : l.head? = some a) (hr : r ∈ l) :
    a.1 ≤ r.1 := by
  cases l with
  | nil => simp at ha
  | cons x xs =>
    simp only [List.head?_cons, Option.some.injEq] at ha
    subst ha
    rcases List.mem_cons.mp hr with rfl | hr
    · rfl
    · exact ((List.pairwise_cons.mp h).1 r hr).le

theorem ordered_last {α : Type*} {l : List (ℤ × α)} (h : Ordered l) {b r : ℤ × α} (hb : l.getLast? = some b) (hr : r ∈ l) :
    r.1 ≤ b.1 := by
  obtain ⟨ys, rfl⟩ := List.getLast?_eq_some_iff.mp hb
  unfold Ordered at h
  rw [List.pairwise_append] at h
  rcases List.mem_append.mp hr with hr | hr
  · exact (h.2.2 r hr b (by simp)).le
  · simp at hr
    rw [hr]

theorem resample_all (agg : List (Option K) → Option K) (start stop f : ℤ) (aggregate : Bool)
    (recs out : Series K) (a b : ℤ × Option K) (ha : recs.head? = some a) (hb : recs.getLast? = some b)
    (h : resample agg start stop f aggregate recs = some out) :
    ∀ l ∈ resIndex (decide (f = 86400)) aggregate start stop f a.1 b.1, ∃ r ∈ recs, r.1 = l := by
  unfold resample at h
  by_cases hf : 86400 < f
  · simp [hf] at h
  rw [if_neg hf, ha, hb] at h
  simp only at h
  by_cases hc : (resIndex (decide (f = 86400)) aggregate start stop f a.1 b.1).all fun l =>
      recs.any fun r => decide (r.1 = l)
  · intro l hl
    simpa using List.all_eq_true.mp hc l hl
  · rw [if_neg hc, ite_self] at h
    cases h

theorem resample_nil (agg : List (Option K) → Option K) (start stop f : ℤ) (aggregate : Bool)
    (out : Series K) (h : resample agg start stop f aggregate [] = some out) : out = [] := by
  unfold resample at h
  split_ifs at h
  simpa using h.symm

theorem char_sub [IsStrictOrderedRing K] {agg : List (Option K) → Option K} {start stop f : ℤ} {aggregate : Bool}
    {recs out : Series K} (hf : 0 < f) (hd : f < 86400) (ho : Ordered recs)
    (h : resample agg start stop f aggregate recs = some out) :
    Ordered out ∧ ∀ p, p ∈ out ↔ (f ∣ p.1 - start ∧ start ≤ p.1 ∧ p.1 ≤ stop) ∧ (∃ r ∈ recs, r.1 = p.1) ∧
      p.2 = agg (within (p.1 - f) p.1 recs) := by
  by_cases hne : recs = []
  · subst hne
    rw [resample_nil _ _ _ _ _ _ h]
    exact ⟨List.Pairwise.nil, by simp⟩
  have hval := C50_interval agg start stop f aggregate recs out hne hf hd h
  obtain ⟨a, b, ha, hb, -, rfl⟩ := resample_some agg start stop f aggregate recs out hne h
  have hall := resample_all _ _ _ _ _ _ _ a b ha hb h
  have hdd : decide (f = 86400) = false := by simp; omega
  rw [hdd] at hall hval ⊢
  constructor
  · unfold Ordered
    rw [List.pairwise_map]
    exact resIndex_increasing _ _ _ _ _ _ _ hf
  · rintro ⟨l, v⟩
    constructor
    · intro hm
      have hv := hval l v hm
      obtain ⟨x, hx, e⟩ := List.mem_map.mp hm
      obtain rfl : x = l := (Prod.mk.inj e).1
      obtain ⟨r, hr, hrl⟩ := hall x hx
      have g1 := ordered_first ho ha hr
      have g2 := ordered_last ho hb hr
      exact ⟨(mem_resIndex aggregate start stop f a.1 b.1 x hf (by omega) (by omega)).mp hx, ⟨r, hr, hrl⟩, hv.2⟩
    · rintro ⟨hg, ⟨r, hr, hrl⟩, hv⟩
      simp only at hrl hv hg
      have g1 := ordered_first ho ha hr
      have g2 := ordered_last ho hb hr
      have hx := (mem_resIndex aggregate start stop f a.1 b.1 l hf (by omega) (by omega)).mpr hg
      have hm := List.mem_map_of_mem (f := fun l =>
        (l, if l ∈ binLabels false (if false = true then a.1 else start) f a.1 b.1
          then binned agg false (if false = true then a.1 else start) f recs l else none)) hx
      have := (hval l _ hm).2
      rw [hv, ← this]
      exact hm

theorem char_daily [IsStrictOrderedRing K] {agg : List (Option K) → Option K} {start stop : ℤ}
    {recs out : Series K} (ho : Ordered recs)
    (h : resample agg start stop 86400 true recs = some out) :
    Ordered out ∧ ∀ p, p ∈ out ↔ ((∃ a, recs.head? = some a ∧ (86400 : ℤ) ∣ p.1 - a.1) ∧ start ≤ p.1 ∧ p.1 ≤ stop) ∧
      (∃ r ∈ recs, r.1 = p.1) ∧ (∃ r ∈ recs, p.1 < r.1) ∧ p.2 = agg (within p.1 (p.1 + 86400) recs) := by
  by_cases hne : recs = []
  · subst hne
    rw [resample_nil _ _ _ _ _ _ h]
    exact ⟨List.Pairwise.nil, by simp⟩
  have hval := C50_daily agg start stop recs out hne h
  obtain ⟨a, b, ha, hb, -, rfl⟩ := resample_some agg start stop 86400 true recs out hne h
  have hall := resample_all _ _ _ _ _ _ _ a b ha hb h
  have hbm : b ∈ recs := List.mem_of_getLast? hb
  have hdd : decide ((86400 : ℤ) = 86400) = true := by simp
  rw [hdd] at hall hval ⊢
  constructor
  · unfold Ordered
    rw [List.pairwise_map]
    exact resIndex_increasing _ _ _ _ _ _ _ (by norm_num)
  · rintro ⟨l, v⟩
    constructor
    · intro hm
      have hv := hval l v hm
      obtain ⟨x, hx, e⟩ := List.mem_map.mp hm
      obtain rfl : x = l := (Prod.mk.inj e).1
      obtain ⟨r, hr, hrl⟩ := hall x hx
      have g1 := ordered_first ho ha hr
      have g2 := ordered_last ho hb hr
      obtain ⟨q1, q2, q3, q4⟩ := (mem_resIndex_daily start stop a.1 b.1 x (by omega) (by omega)).mp hx
      exact ⟨⟨⟨a, ha, q1⟩, q2, q3⟩, ⟨r, hr, hrl⟩, ⟨b, hbm, q4⟩, hv.2.2.2⟩
    · rintro ⟨⟨⟨a', ha', q1⟩, q2, q3⟩, ⟨r, hr, hrl⟩, ⟨s, hs, hsl⟩, hv⟩
      rw [ha, Option.some.injEq] at ha'
      subst ha'
      simp only at hrl hv q1 q2 q3 hsl
      have g1 := ordered_first ho ha hr
      have g2 := ordered_last ho hb hr
      have g3 := ordered_last ho hb hs
      have hx := (mem_resIndex_daily start stop a.1 b.1 l (by omega) (by omega)).mpr ⟨q1, q2, q3, by omega⟩
      have hm := List.mem_map_of_mem (f := fun l =>
        (l, if l ∈ binLabels true (if true = true then a.1 else start) 86400 a.1 b.1
          then binned agg true (if true = true then a.1 else start) 86400 recs l else none)) hx
      have := (hval l _ hm).2.2.2
      rw [hv, ← this]
      exact hm

theorem find_ordered {α : Type*} {l : List (ℤ × α)} (h : Ordered l) {r : ℤ × α} (hr : r ∈ l) :
    l.find? (fun q => decide (q.1 = r.1)) = some r := by
  induction l with
  | nil => cases hr
  | cons x xs ih =>
    obtain ⟨h1, h2⟩ := List.pairwise_cons.mp h
    rw [List.find?_cons]
    rcases List.mem_cons.mp hr with rfl | hr
    · simp
    · have := h1 r hr
      have e : decide (x.1 = r.1) = false := by simp; omega
      rw [e]
      exact ih h2 hr

theorem char_instant {start stop f : ℤ} {recs out : Series K} (hf : 0 < f) (hd : f < 86400) (ho : Ordered recs)
    (h : resampleInstant start stop f recs = some out) :
    Ordered out ∧ ∀ p, p ∈ out ↔ (f ∣ p.1 - start ∧ start ≤ p.1 ∧ p.1 ≤ stop) ∧ p ∈ recs := by
  unfold resampleInstant at h
  rw [if_neg (by omega)] at h
  cases ha : recs.head? with
  | none =>
    have : recs = [] := by simpa using ha
    subst this
    simp at h
    subst h
    exact ⟨List.Pairwise.nil, by simp⟩
  | some a =>
    cases hb : recs.getLast? with
    | none =>
      have : recs = [] := by simpa using hb
      subst this
      simp at ha
    | some b =>
      rw [ha, hb] at h
      simp only at h
      split at h
      case isFalse => cases h
      rename_i hall
      rw [Option.some.injEq] at h
      subst h
      have hdd : decide (f = 86400) = false := by simp; omega
      rw [hdd] at hall ⊢
      have hall' : ∀ l ∈ resIndex false false start stop f a.1 b.1, ∃ r ∈ recs, r.1 = l := by
        intro l hl
        have := List.all_eq_true.mp hall l hl
        simpa using this
      constructor
      · unfold Ordered
        rw [List.pairwise_map]
        exact resIndex_increasing _ _ _ _ _ _ _ hf
      · rintro ⟨l, v⟩
        constructor
        · intro hm
          obtain ⟨x, hx, e⟩ := List.mem_map.mp hm
          obtain ⟨e1, e2⟩ := Prod.mk.inj e
          subst e1
          obtain ⟨r, hr, hrl⟩ := hall' x hx
          have g1 := ordered_first ho ha hr
          have g2 := ordered_last ho hb hr
          refine ⟨(mem_resIndex false start stop f a.1 b.1 x hf (by omega) (by omega)).mp hx, ?_⟩
          rw [← hrl, find_ordered ho hr, Option.bind_some] at e2
          rw [← hrl, ← e2]
          exact hr
        · rintro ⟨hg, hr⟩
          have g1 := ordered_first ho ha hr
          have g2 := ordered_last ho hb hr
          have hx := (mem_resIndex false start stop f a.1 b.1 l hf g1 g2).mpr hg
          refine List.mem_map.mpr ⟨l, hx, ?_⟩
          have := find_ordered ho hr
          simp only at this
          rw [this]
          rfl

theorem within_cut (recs : Series K) (a b lo hi : ℤ) (h1 : lo ≤ a) (h2 : b ≤ hi) :
    within a b (recs.filter fun r => decide (lo ≤ r.1 ∧ r.1 ≤ hi)) = within a b recs := by
  unfold within
  rw [List.filter_filter]
  congr 1
  apply List.filter_congr
  intro r _
  rw [Bool.eq_iff_iff, Bool.and_eq_true, decide_eq_true_iff, decide_eq_true_iff]
  omega

theorem head_cut {α : Type*} {l : List (ℤ × α)} (h : Ordered l) (lo hi : ℤ) {a : ℤ × α}
    (ha : (l.filter fun r => decide (lo ≤ r.1 ∧ r.1 ≤ hi)).head? = some a) :
    (l.filter fun r => decide (lo ≤ r.1)).head? = some a := by
  induction l with
  | nil => simp at ha
  | cons x xs ih =>
    obtain ⟨h1, h2⟩ := List.pairwise_cons.mp h
    rw [List.filter_cons] at ha ⊢
    by_cases c1 : lo ≤ x.1
    · by_cases c2 : x.1 ≤ hi
      · simpa [c1, c2] using ha
      · have : (xs.filter fun r => decide (lo ≤ r.1 ∧ r.1 ≤ hi)) = [] := by
          rw [List.filter_eq_nil_iff]
          intro r hr
          have := h1 r hr
          simp
          omega
        rw [this] at ha
        simp [c2] at ha
    · simp only [c1, false_and, decide_false, Bool.false_eq_true, if_false] at ha ⊢
      exact ih h2 ha

/-- Records at a constant time step from the date `a`. -/
def series (a dt : ℤ) (n : ℕ) (v : ℕ → Option K) : Series K :=
  (List.range n).map fun i : ℕ => (a + (i : ℤ) * dt, v i)

theorem series_ordered (a dt : ℤ) (n : ℕ) (v : ℕ → Option K) (h : 0 < dt) : Ordered (series a dt n v) := by
  unfold Ordered series
  rw [List.pairwise_map]
  refine List.pairwise_lt_range.imp ?_
  intro i j hij
  have : (i : ℤ) < j := by exact_mod_cast hij
  simp only
  nlinarith

theorem series_next {a dt : ℤ} {n : ℕ} {v : ℕ → Option K} (h : 0 < dt) {r s : ℤ × Option K} (hr : r ∈ series a dt n v)
    (hs : s ∈ series a dt n v) (hlt : r.1 < s.1) : ∃ q ∈ series a dt n v, q.1 = r.1 + dt := by
  unfold series at *
  obtain ⟨i, hi, rfl⟩ := List.mem_map.mp hr
  obtain ⟨j, hj, rfl⟩ := List.mem_map.mp hs
  rw [List.mem_range] at hi hj
  have hij : i + 1 ≤ j := by
    by_contra hc
    push Not at hc
    have : (j : ℤ) ≤ i := by exact_mod_cast Nat.lt_succ_iff.mp hc
    simp only at hlt
    nlinarith
  refine ⟨_, List.mem_map_of_mem (List.mem_range.mpr (show i + 1 < n by omega)), ?_⟩
  simp only
  push_cast
  ring

/-- Sliced and resampled data below one day. -/
theorem slice_sub [IsStrictOrderedRing K] {agg : List (Option K) → Option K} {start stop f dt : ℤ} {aggregate : Bool}
    {recs out : Series K} (hf : 0 < f) (hd : f < 86400) (ho : Ordered recs)
    (h : sliceResample agg start stop f dt aggregate recs = some out) :
    Ordered out ∧ ∀ p, p ∈ out ↔ (f ∣ p.1 - start ∧ start ≤ p.1 ∧ p.1 ≤ stop) ∧ (∃ r ∈ recs, r.1 = p.1) ∧
      p.2 = agg (within (p.1 - f) p.1 recs) := by
  have hs : decide (f = 86400 ∧ dt < 86400) = false := by simp; omega
  simp only [sliceResample, hs, Bool.false_eq_true, if_false, Option.map_eq_some_iff] at h
  obtain ⟨rs, hrs, rfl⟩ := h
  obtain ⟨h1, h2⟩ := char_sub hf hd (ho.filter _) hrs
  refine ⟨h1.filter _, fun p => ?_⟩
  rw [List.mem_filter, h2, decide_eq_true_iff]
  constructor
  · rintro ⟨⟨q1, ⟨r, hr, e⟩, q3⟩, -⟩
    rw [within_cut _ _ _ _ _ (by omega) (by omega)] at q3
    exact ⟨q1, ⟨r, (List.mem_filter.mp hr).1, e⟩, q3⟩
  · rintro ⟨q1, ⟨r, hr, e⟩, q3⟩
    refine ⟨⟨q1, ⟨r, List.mem_filter.mpr ⟨hr, ?_⟩, e⟩, ?_⟩, q1.2⟩
    · rw [decide_eq_true_iff]
      omega
    · rw [within_cut _ _ _ _ _ (by omega) (by omega)]
      exact q3

/-- Data aggregated to days: the dates before the end. -/
theorem slice_daily [IsStrictOrderedRing K] {agg : List (Option K) → Option K} {start stop a dt : ℤ} {n : ℕ}
    {v : ℕ → Option K} {aggregate : Bool} {out : Series K} (hdt : 0 < dt) (hd : dt < 86400)
    (hal : ∀ r, ((series a dt n v).filter fun r => decide (start - 86400 ≤ r.1)).head? = some r → (86400 : ℤ) ∣ r.1)
    (h : sliceResample agg start stop 86400 dt aggregate (series a dt n v) = some out) :
    Ordered out ∧ ∀ p, p.1 ≤ stop → (p ∈ out ↔ ((86400 : ℤ) ∣ p.1 ∧ start ≤ p.1) ∧
      (∃ r ∈ series a dt n v, r.1 = p.1) ∧ (∃ r ∈ series a dt n v, p.1 < r.1) ∧
      p.2 = agg (within p.1 (p.1 + 86400) (series a dt n v))) := by
  have ho := series_ordered a dt n v hdt
  simp only [sliceResample, hd, true_and, decide_true, Bool.or_true, if_true, Option.map_eq_some_iff] at h
  obtain ⟨rs, hrs, rfl⟩ := h
  obtain ⟨h1, h2⟩ := char_daily (ho.filter _) hrs
  refine ⟨h1.filter _, fun p hp => ?_⟩
  rw [List.mem_filter, h2, decide_eq_true_iff]
  have hend : ∀ l : ℤ, (86400 : ℤ) ∣ l → l ≤ stop → l + 86400 ≤ (stop + 86400) / 86400 * 86400 := by
    rintro l ⟨c, rfl⟩ hl
    omega
  constructor
  · rintro ⟨⟨⟨⟨b, hb, q1⟩, q2, q3⟩, ⟨r, hr, e⟩, ⟨s, hs', e'⟩, q4⟩, -⟩
    have hb' := hal b (head_cut ho _ _ hb)
    have hdv : (86400 : ℤ) ∣ p.1 := by
      have := dvd_add q1 hb'
      simpa using this
    rw [within_cut _ _ _ _ _ (by omega) (hend _ hdv hp)] at q4
    exact ⟨⟨hdv, q2⟩, ⟨r, (List.mem_filter.mp hr).1, e⟩, ⟨s, (List.mem_filter.mp hs').1, e'⟩, q4⟩
  · rintro ⟨⟨q1, q2⟩, ⟨r, hr, e⟩, ⟨s, hs', e'⟩, q4⟩
    have hE := hend _ q1 hp
    obtain ⟨w, hw, ew⟩ := series_next hdt hr hs' (by omega)
    have hrc : r ∈ (series a dt n v).filter fun r =>
        decide (start - 86400 ≤ r.1 ∧ r.1 ≤ (stop + 86400) / 86400 * 86400) := by
      rw [List.mem_filter, decide_eq_true_iff]
      exact ⟨hr, by omega, by omega⟩
    have hwc : w ∈ (series a dt n v).filter fun r =>
        decide (start - 86400 ≤ r.1 ∧ r.1 ≤ (stop + 86400) / 86400 * 86400) := by
      rw [List.mem_filter, decide_eq_true_iff]
      exact ⟨hw, by omega, by omega⟩
    obtain ⟨b, hb⟩ : ∃ b, ((series a dt n v).filter fun r =>
        decide (start - 86400 ≤ r.1 ∧ r.1 ≤ (stop + 86400) / 86400 * 86400)).head? = some b := by
      rw [← Option.isSome_iff_exists, List.isSome_head?]
      simpa using List.ne_nil_of_mem hrc
    refine ⟨⟨⟨⟨b, hb, dvd_sub q1 (hal b (head_cut ho _ _ hb))⟩, q2, by omega⟩, ⟨r, hrc, e⟩, ⟨w, hwc, by omega⟩, ?_⟩,
      q2, by omega⟩
    rw [within_cut _ _ _ _ _ (by omega) hE]
    exact q4

/-- **C140 (partial): resampled data.** For station files with a constant time step, a later end of the simulation
changes neither the earlier dates of the prepared data nor their values: below daily model time steps always, for
daily ones if the file has sub-daily records and the first record used (the first one from a day before the start) is
at midnight. Missing: other daily data (`C140_resampled_false`). -/
theorem C140_resampled_partial [IsStrictOrderedRing K] (k : Kind) (same aggregate : Bool) (start stop stop2 f a dt : ℤ)
    (n : ℕ) (v : ℕ → Option K) (hf : 0 < f) (hdt : 0 < dt) (hstop : stop ≤ stop2)
    (hdaily : same = false → f = 86400 → dt < 86400 ∧
      ∀ r, ((series a dt n v).filter fun r => decide (start - 86400 ≤ r.1)).head? = some r → (86400 : ℤ) ∣ r.1)
    (out out2 : Series K) (h : prepare k same start stop f dt aggregate (series a dt n v) = some out)
    (h2 : prepare k same start stop2 f dt aggregate (series a dt n v) = some out2) :
    (out.filter fun r => decide (r.1 ≤ stop)) = out2.filter fun r => decide (r.1 ≤ stop) := by
  have ho := series_ordered a dt n v hdt
  unfold prepare at h h2
  cases same with
  | true =>
    simp only [if_true, Option.some.injEq] at h h2
    subst h h2
    rw [List.filter_filter, List.filter_filter]
    apply List.filter_congr
    intro r _
    rw [Bool.eq_iff_iff]
    simp only [Bool.and_eq_true, decide_eq_true_iff]
    omega
  | false =>
    simp only [Bool.false_eq_true, if_false] at h h2
    by_cases hfd : f = 86400
    · subst hfd
      obtain ⟨hd, hal⟩ := hdaily rfl rfl
      have key : ∀ agg : List (Option K) → Option K,
          sliceResample agg start stop 86400 dt aggregate (series a dt n v) = some out →
          sliceResample agg start stop2 86400 dt aggregate (series a dt n v) = some out2 →
          (out.filter fun r => decide (r.1 ≤ stop)) = out2.filter fun r => decide (r.1 ≤ stop) := by
        intro agg e1 e2
        obtain ⟨o1, c1⟩ := slice_daily hdt hd hal e1
        obtain ⟨o2, c2⟩ := slice_daily hdt hd hal e2
        refine ordered_ext (o1.filter _) (o2.filter _) fun p => ?_
        rw [List.mem_filter, List.mem_filter, decide_eq_true_iff]
        constructor
        · rintro ⟨m, hp⟩
          exact ⟨(c2 p (hp.trans hstop)).mpr ((c1 p hp).mp m), hp⟩
        · rintro ⟨m, hp⟩
          exact ⟨(c1 p hp).mpr ((c2 p (hp.trans hstop)).mp m), hp⟩
      cases k with
      | precip => exact key _ h h2
      | gust => exact key _ h h2
      | other =>
        simp only [hd, true_and, decide_true, Bool.or_true, if_true] at h h2
        exact key _ h h2
    · have hd : f < 86400 ∨ 86400 < f := by omega
      rcases hd with hd | hd
      · have key : ∀ agg : List (Option K) → Option K,
            sliceResample agg start stop f dt aggregate (series a dt n v) = some out →
            sliceResample agg start stop2 f dt aggregate (series a dt n v) = some out2 →
            (out.filter fun r => decide (r.1 ≤ stop)) = out2.filter fun r => decide (r.1 ≤ stop) := by
          intro agg e1 e2
          obtain ⟨o1, c1⟩ := slice_sub hf hd ho e1
          obtain ⟨o2, c2⟩ := slice_sub hf hd ho e2
          refine ordered_ext (o1.filter _) (o2.filter _) fun p => ?_
          rw [List.mem_filter, List.mem_filter, decide_eq_true_iff, c1, c2]
          constructor
          · rintro ⟨⟨⟨a1, a2, a3⟩, b⟩, hp⟩
            exact ⟨⟨⟨a1, a2, by omega⟩, b⟩, hp⟩
          · rintro ⟨⟨⟨a1, a2, a3⟩, b⟩, hp⟩
            exact ⟨⟨⟨a1, a2, by omega⟩, b⟩, hp⟩
        cases k with
        | precip => exact key _ h h2
        | gust => exact key _ h h2
        | other =>
          by_cases e : (aggregate || decide (f = 86400 ∧ dt < 86400)) = true
          · simp only [e, if_true] at h h2
            exact key _ h h2
          · simp only [e, if_false, Option.map_eq_some_iff, Bool.false_eq_true] at h h2
            obtain ⟨r1, e1, rfl⟩ := h
            obtain ⟨r2, e2, rfl⟩ := h2
            obtain ⟨o1, c1⟩ := char_instant hf hd (ho.filter _) e1
            obtain ⟨o2, c2⟩ := char_instant hf hd (ho.filter _) e2
            refine ordered_ext ((o1.filter _).filter _) ((o2.filter _).filter _) fun p => ?_
            simp only [List.mem_filter, decide_eq_true_iff, c1, c2]
            constructor
            · rintro ⟨⟨⟨⟨a1, a2, a3⟩, b1, b2, b3⟩, -⟩, hp⟩
              exact ⟨⟨⟨⟨a1, a2, by omega⟩, b1, b2, by omega⟩, a2, by omega⟩, hp⟩
            · rintro ⟨⟨⟨⟨a1, a2, a3⟩, b1, b2, b3⟩, -⟩, hp⟩
              exact ⟨⟨⟨⟨a1, a2, by omega⟩, b1, b2, by omega⟩, a2, by omega⟩, hp⟩
      · have kill : ∀ (agg : List (Option K) → Option K) (r : Series K) (s : ℤ),
            sliceResample agg start s f dt aggregate r ≠ some out := by
          intro agg r s e
          simp [sliceResample, resample, hd] at e
        have kill' : ∀ (r : Series K) (s : ℤ), resampleInstant start s f r = none := by
          intro r s
          simp [resampleInstant, hd]
        cases k with
        | precip => exact absurd h (kill _ _ _)
        | gust => exact absurd h (kill _ _ _)
        | other =>
          simp only at h
          split at h
          · exact absurd h (kill _ _ _)
          · rw [kill'] at h
            cases h

/-- The hypotheses can be met: hourly data to three-hourly and 6-hourly data to daily time steps. -/
example :
    prepare .precip false 10800 21600 10800 3600 false (series 0 3600 20 fun i => some (i : ℚ)) =
      some [(10800, some 6), (21600, some 15)] ∧
    prepare .precip false 10800 43200 10800 3600 false (series 0 3600 20 fun i => some (i : ℚ)) =
      some [(10800, some 6), (21600, some 15), (32400, some 24), (43200, some 33)] := by
  decide +kernel

example :
    prepare .other false 86400 86400 86400 21600 false (series 0 21600 20 fun i => some (i : ℚ)) =
      some [(86400, some (13 / 2))] ∧
    prepare .other false 86400 172800 86400 21600 false (series 0 21600 20 fun i => some (i : ℚ)) =
      some [(86400, some (13 / 2)), (172800, some (21 / 2))] := by
  decide +kernel

/-- **C140 is false** for daily time steps if the records begin within the period and not at midnight: the mean of the
last day then lacks the records after midnight, which a later end adds. -/
theorem C140_resampled_false :
    prepare .other false 0 172799 86400 21600 true (series 21600 21600 20 fun i => some (i : ℚ)) =
      some [(21600, some (5 / 2)), (108000, some 6)] ∧
    prepare .other false 0 259199 86400 21600 true (series 21600 21600 20 fun i => some (i : ℚ)) =
      some [(21600, some (5 / 2)), (108000, some (13 / 2)), (194400, some 10)] := by
  decide +kernel

end Verif.Resample
