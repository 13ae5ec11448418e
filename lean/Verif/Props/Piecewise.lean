import Verif.Model.Piecewise
import Mathlib.Tactic

/-!
# C91: piecewise elevation trend
-/

namespace Verif.Piecewise

variable {fit : ℕ → Option Fit} {xs ys : List ℝ} {minPts : ℕ} {thr : ℝ}

open Classical in
/-- Specification: number of stations between two elevations (both included). -/
noncomputable def stationsIn (xs : List ℝ) (lo hi : ℝ) : ℕ := xs.countP fun x => decide (x ∈ Set.Icc lo hi)

/-- Specification: sum of the squared residuals of a fit. -/
noncomputable def residual (ys : List ℝ) (f : Fit) : ℝ :=
  (List.zipWith (fun y p => (p - y) * (p - y)) ys f.preds).sum

/-- Specification: Akaike's information criterion `a` of a least-squares fit that is not perfect; a continuous piecewise
linear function with `m` segments has `m + 1` ordinates and `m - 1` inner breaks as parameters. -/
def IsAic (ys : List ℝ) (m : ℕ) (f : Fit) (a : ℝ) : Prop :=
  residual ys f ≠ 0 ∧ a = 2 * (((m + 1) + (m - 1) : ℝ)) + ys.length * Real.log (residual ys f / ys.length)

/-- Specification: the fit `g` with `k` segments is better than `f` with `m` by at least the threshold (a perfect fit is
better than any other). -/
def BetterFit (thr : ℝ) (ys : List ℝ) (m : ℕ) (f : Fit) (k : ℕ) (g : Fit) : Prop :=
  ∃ x, IsAic ys m f x ∧ ∀ y, IsAic ys k g y → thr ≤ x - y

/-- Specification: a fit with `m` segments may be used. -/
def Usable (fit : ℕ → Option Fit) (xs : List ℝ) (minPts m : ℕ) (f : Fit) : Prop :=
  fit m = some f ∧ (1 < m → m * minPts ≤ xs.length ∧
    ∀ s ∈ f.breaks.zip f.breaks.tail, minPts ≤ stationsIn xs s.1 s.2)

theorem inSegment_eq (xs : List ℝ) (lo hi : ℝ) : inSegment xs lo hi = stationsIn xs lo hi := by
  unfold inSegment stationsIn
  rw [List.countP_eq_length_filter]
  rfl

theorem rss_eq (ys : List ℝ) (f : Fit) : rss ys f.preds = residual ys f := by
  unfold rss residual
  rw [List.zip, List.map_zipWith]
  congr 2
  funext a b
  ring

theorem aic_iff (ys : List ℝ) (m : ℕ) (f : Fit) (a : ℝ) : aic ys m f = (a : WithBot ℝ) ↔ IsAic ys m f a := by
  unfold aic IsAic
  rw [rss_eq]
  split_ifs with h
  · simp [h]
  · simp only [ne_eq, h, not_false_eq_true, true_and]
    rw [WithBot.coe_inj]
    constructor <;> intro e <;> linarith

/-- The criterion `a` is better than `b` by at least the threshold. -/
def Better (thr : ℝ) (b a : WithBot ℝ) : Prop :=
  ∃ x : ℝ, b = (x : WithBot ℝ) ∧ ∀ y : ℝ, a = (y : WithBot ℝ) → y + thr ≤ x

theorem better_iff (ys : List ℝ) (m k : ℕ) (f g : Fit) :
    Better thr (aic ys m f) (aic ys k g) ↔ BetterFit thr ys m f k g := by
  unfold Better BetterFit
  simp only [aic_iff]
  constructor
  · rintro ⟨x, h1, h2⟩; exact ⟨x, h1, fun y hy => by linarith [h2 y hy]⟩
  · rintro ⟨x, h1, h2⟩; exact ⟨x, h1, fun y hy => by linarith [h2 y hy]⟩

theorem improved_iff (b a : WithBot ℝ) : improved thr b a = true ↔ Better thr b a := by
  unfold Better
  cases b with
  | bot =>
    constructor
    · intro h; exact absurd h (by simp [improved, show (⊥ : WithBot ℝ) = none from rfl])
    · rintro ⟨x, hx, -⟩; exact absurd hx.symm (WithBot.coe_ne_bot)
  | coe b =>
    cases a with
    | bot =>
      constructor
      · intro _
        exact ⟨b, rfl, fun y hy => absurd hy.symm WithBot.coe_ne_bot⟩
      · intro _; rfl
    | coe a =>
      have e : improved thr (b : WithBot ℝ) (a : WithBot ℝ) = true ↔ thr ≤ b - a := by
        show decide (thr ≤ b - a) = true ↔ _
        rw [decide_eq_true_eq]
      rw [e]
      constructor
      · intro h
        refine ⟨b, rfl, fun y hy => ?_⟩
        have := WithBot.coe_injective hy
        linarith
      · rintro ⟨x, hx, h⟩
        have h1 := WithBot.coe_injective hx
        have := h a rfl
        linarith

theorem Better.trans (h0 : 0 ≤ thr) {a b c : WithBot ℝ} (h1 : Better thr a b) (h2 : Better thr b c) :
    Better thr a c := by
  obtain ⟨x, rfl, hx⟩ := h1
  obtain ⟨y, rfl, hy⟩ := h2
  have := hx y rfl
  exact ⟨x, rfl, fun z hz => by have := hy z hz; linarith⟩

theorem usable_of {m : ℕ} {f : Fit} (hf : fit m = some f) (h1 : ¬ (1 < m ∧ xs.length < m * minPts))
    (h2 : ¬ Sparse xs minPts m f) : Usable fit xs minPts m f := by
  refine ⟨hf, fun hm => ⟨?_, fun s hs => ?_⟩⟩
  · by_contra h; exact h1 ⟨hm, by omega⟩
  · rw [← inSegment_eq]; by_contra h; exact h2 ⟨hm, s, hs, by omega⟩

/-- State of the loop before trying `k` segments. -/
def Inv (fit : ℕ → Option Fit) (xs ys : List ℝ) (minPts : ℕ) (thr : ℝ) (k : ℕ) : Option Best → Prop
  | none => ∀ m, 1 ≤ m → m < k → fit m = none
  | some b => 1 ≤ b.segments ∧ b.segments < k ∧ Usable fit xs minPts b.segments b.fit ∧
      b.aic = aic ys b.segments b.fit ∧
      (∀ m, b.segments < m → m < k → fit m = none) ∧
      ∀ m f, 1 ≤ m → m < b.segments → fit m = some f →
        Usable fit xs minPts m f ∧ Better thr (aic ys m f) b.aic

/-- Reason for ending the loop before `k` segments. -/
def Ended (fit : ℕ → Option Fit) (xs ys : List ℝ) (minPts : ℕ) (thr : ℝ) (k : ℕ) (best : Option Best) :
    Prop :=
  (1 < k ∧ xs.length < k * minPts) ∨
  ∃ f, fit k = some f ∧ (¬ Usable fit xs minPts k f ∨
    ∃ b, best = some b ∧ ¬ Better thr b.aic (aic ys k f))

theorem loop_spec (h0 : 0 ≤ thr) (k n : ℕ) (hk : 1 ≤ k) (best : Option Best)
    (hinv : Inv fit xs ys minPts thr k best) :
    ∃ k', k ≤ k' ∧ k' ≤ k + n ∧
      Inv fit xs ys minPts thr k' (loop fit xs ys minPts thr (List.range' k n) best) ∧
      (k' = k + n ∨ Ended fit xs ys minPts thr k' (loop fit xs ys minPts thr (List.range' k n) best)) := by
  induction n generalizing k best with
  | zero => exact ⟨k, le_rfl, le_rfl, hinv, Or.inl rfl⟩
  | succ n ih =>
    rw [List.range'_succ]
    unfold loop
    by_cases h1 : 1 < k ∧ xs.length < k * minPts
    · rw [if_pos h1]
      exact ⟨k, le_rfl, by omega, hinv, Or.inr (Or.inl h1)⟩
    · rw [if_neg h1]
      cases hf : fit k with
      | none =>
        simp only
        have hinv' : Inv fit xs ys minPts thr (k + 1) best := by
          cases best with
          | none =>
            intro m hm hmk
            rcases Nat.lt_succ_iff_lt_or_eq.mp hmk with h | rfl
            · exact hinv m hm h
            · exact hf
          | some b =>
            obtain ⟨i1, i2, i3, i4, i5, i6⟩ := hinv
            refine ⟨i1, by omega, i3, i4, fun m hm hmk => ?_, i6⟩
            rcases Nat.lt_succ_iff_lt_or_eq.mp hmk with h | rfl
            · exact i5 m hm h
            · exact hf
        obtain ⟨k', a, b, c, d⟩ := ih (k + 1) (by omega) best hinv'
        exact ⟨k', by omega, by omega, c, by
          rcases d with d | d
          · exact Or.inl (by omega)
          · exact Or.inr d⟩
      | some f =>
        simp only
        by_cases h2 : Sparse xs minPts k f
        · rw [if_pos h2]
          refine ⟨k, le_rfl, by omega, hinv, Or.inr (Or.inr ⟨f, hf, Or.inl ?_⟩)⟩
          rintro ⟨-, hu⟩
          obtain ⟨hk1, s, hs, hlt⟩ := h2
          have := (hu hk1).2 s hs
          rw [← inSegment_eq] at this
          omega
        · rw [if_neg h2]
          have hus := usable_of hf h1 h2
          cases best with
          | none =>
            simp only
            have hinv' : Inv fit xs ys minPts thr (k + 1) (some ⟨k, f, aic ys k f⟩) := by
              refine ⟨hk, by simp, hus, rfl, fun m hm hmk => ?_, fun m g hm hmk hg => ?_⟩
              · simp only at hm; omega
              · have := hinv m hm hmk
                rw [this] at hg; cases hg
            obtain ⟨k', a, b, c, d⟩ := ih (k + 1) (by omega) _ hinv'
            exact ⟨k', by omega, by omega, c, by
              rcases d with d | d
              · exact Or.inl (by omega)
              · exact Or.inr d⟩
          | some b =>
            simp only
            by_cases h3 : improved thr b.aic (aic ys k f) = true
            · rw [if_pos h3]
              have hb := (improved_iff _ _).mp h3
              obtain ⟨i1, i2, i3, i4, i5, i6⟩ := hinv
              have hinv' : Inv fit xs ys minPts thr (k + 1) (some ⟨k, f, aic ys k f⟩) := by
                refine ⟨hk, by simp, hus, rfl, fun m hm hmk => ?_, fun m g hm hmk hg => ?_⟩
                · simp only at hm; omega
                · simp only at hmk ⊢
                  rcases lt_trichotomy m b.segments with h | h | h
                  · obtain ⟨u1, u2⟩ := i6 m g hm h hg
                    exact ⟨u1, u2.trans h0 hb⟩
                  · subst h
                    have he : b.fit = g := by
                      have := i3.1
                      rw [hg] at this
                      exact (Option.some.inj this).symm
                    rw [← he, ← i4]
                    exact ⟨i3, hb⟩
                  · rw [i5 m h hmk] at hg; cases hg
              obtain ⟨k', a, b', c, d⟩ := ih (k + 1) (by omega) _ hinv'
              exact ⟨k', by omega, by omega, c, by
                rcases d with d | d
                · exact Or.inl (by omega)
                · exact Or.inr d⟩
            · rw [if_neg h3]
              refine ⟨k, le_rfl, by omega, hinv, Or.inr (Or.inr ⟨f, hf, Or.inr ⟨b, rfl, ?_⟩⟩)⟩
              intro hb
              exact h3 ((improved_iff _ _).mpr hb)

theorem start : Inv fit xs ys minPts thr 1 none := fun m h1 h2 => by omega

/-- **C91.** The selected trend has at most the configured number of segments, is a result of the fitting library
for this number, and with several segments each contains the required number of stations. -/
theorem C91_segments (h0 : 0 ≤ thr) (maxSeg : ℕ) (b : Best)
    (h : piecewiseFit fit xs ys maxSeg minPts thr = some b) :
    1 ≤ b.segments ∧ b.segments ≤ maxSeg ∧ fit b.segments = some b.fit ∧
    (1 < b.segments → b.segments * minPts ≤ xs.length ∧
      ∀ s ∈ b.fit.breaks.zip b.fit.breaks.tail, minPts ≤ stationsIn xs s.1 s.2) := by
  obtain ⟨k, -, hk, hinv, -⟩ := loop_spec h0 1 maxSeg le_rfl none (start (ys := ys))
  unfold piecewiseFit at h
  rw [h] at hinv
  obtain ⟨i1, i2, i3, -⟩ := hinv
  exact ⟨i1, by omega, i3.1, i3.2⟩

/-- **C91.** Additional segments are used only if they are worth it: the criterion of the selected trend is
better by the threshold than that of every trend with fewer segments. -/
theorem C91_improvement (h0 : 0 ≤ thr) (maxSeg : ℕ) (b : Best)
    (h : piecewiseFit fit xs ys maxSeg minPts thr = some b) (m : ℕ) (f : Fit) (hm : 1 ≤ m)
    (hlt : m < b.segments) (hf : fit m = some f) :
    BetterFit thr ys m f b.segments b.fit := by
  rw [← better_iff]
  obtain ⟨k, -, hk, hinv, -⟩ := loop_spec h0 1 maxSeg le_rfl none (start (ys := ys))
  unfold piecewiseFit at h
  rw [h] at hinv
  obtain ⟨-, -, -, i4, -, i6⟩ := hinv
  rw [← i4]
  exact (i6 m f hm hlt hf).2

/-- **C91.** The search ends with the selected trend only if the next fit with more segments cannot be used or does
not improve the criterion by the threshold. -/
theorem C91_stop (h0 : 0 ≤ thr) (maxSeg : ℕ) (b : Best)
    (h : piecewiseFit fit xs ys maxSeg minPts thr = some b) (m : ℕ) (f : Fit)
    (hlt : b.segments < m) (hmax : m ≤ maxSeg) (hf : fit m = some f)
    (hbetween : ∀ j, b.segments < j → j < m → fit j = none)
    (hpts : ∀ j, j ≤ m → j * minPts ≤ xs.length) :
    ¬ Usable fit xs minPts m f ∨ ¬ BetterFit thr ys b.segments b.fit m f := by
  rw [← better_iff]
  obtain ⟨k, hk1, hk, hinv, hend⟩ := loop_spec h0 1 maxSeg le_rfl none (start (ys := ys))
  unfold piecewiseFit at h
  rw [h] at hinv hend
  obtain ⟨-, i2, -, i4, i5, -⟩ := hinv
  have hkm : k ≤ m := by
    by_contra hgt
    have := i5 m hlt (by omega)
    rw [this] at hf; cases hf
  rcases hend with hend | ⟨-, hend⟩ | ⟨g, hg, hend⟩
  · omega
  · have := hpts k hkm; omega
  · have : k = m := by
      by_contra hne
      have := hbetween k i2 (by omega)
      rw [this] at hg; cases hg
    subst this
    rw [hf] at hg
    cases hg
    rcases hend with hend | ⟨b', hb', hend⟩
    · exact Or.inl hend
    · cases hb'
      rw [i4] at hend
      exact Or.inr hend

/-- **C91.** If a single line can be fitted there is a trend. -/
theorem C91_found (maxSeg : ℕ) (hmax : 1 ≤ maxSeg) (f : Fit) (hf : fit 1 = some f) :
    (piecewiseFit fit xs ys maxSeg minPts thr).isSome = true := by
  have key : ∀ (l : List ℕ) (b : Best), (loop fit xs ys minPts thr l (some b)).isSome = true := by
    intro l
    induction l with
    | nil => intro b; rfl
    | cons m l ih =>
      intro b
      unfold loop
      split_ifs
      · rfl
      · cases fit m with
        | none => exact ih b
        | some g =>
          simp only
          split_ifs
          · rfl
          · exact ih _
          · rfl
  obtain ⟨n, rfl⟩ : ∃ n, maxSeg = n + 1 := ⟨maxSeg - 1, by omega⟩
  unfold piecewiseFit
  rw [List.range'_succ]
  unfold loop
  rw [if_neg (by omega), hf]
  simp only
  rw [if_neg (by rintro ⟨h, -⟩; omega)]
  exact key _ _

/-- **C91, partial.** The trend is chosen according to the configured method, if the number of segments is one for
the methods without regression. Full statement: for every number of segments. -/
theorem C91_method_partial (m : Method) (maxSeg : ℕ) (h1 : 1 ≤ maxSeg)
    (h : m = .fixed ∨ m = .fractional → maxSeg = 1) :
    choose m maxSeg = some (match m with
      | .regression => if maxSeg = 1 then .line else .piecewise
      | .fixed => .fixed
      | .fractional => .fractional
      | .adjustment => .adjustment) := by
  unfold choose
  cases m
  · by_cases hs : maxSeg = 1
    · simp [hs]
    · have : 1 < maxSeg := by omega
      simp [hs, this]
  · simp [h (Or.inl rfl)]
  · simp [h (Or.inr rfl)]
  · simp

/-- **C91.** The settings of the regression affect the other methods: a fixed or fractional gradient with more than
one segment configured is accepted and raises. -/
theorem C91_segments_false :
    ¬ ∀ (m : Method) (maxSeg : ℕ), 1 ≤ maxSeg → m ≠ .regression → choose m maxSeg = choose m 1 := by
  intro h
  have := h .fixed 2 (by norm_num) (by simp)
  simp [choose] at this

-- Two lines over eight stations replace a single line if they are better by the threshold.
example : ∃ (fit : ℕ → Option Fit) (xs ys : List ℝ) (b : Best),
    piecewiseFit fit xs ys 2 1 2 = some b ∧ b.segments = 2 := by
  refine ⟨fun m => if m = 1 then some ⟨[0, 1], [1, 0]⟩ else some ⟨[0, 0, 1], [0, 1]⟩, [0, 1], [0, 1],
    ⟨2, ⟨[0, 0, 1], [0, 1]⟩, ⊥⟩, ?_, rfl⟩
  have a2 : aic [0, 1] 2 ⟨[0, 0, 1], [0, 1]⟩ = ⊥ := by
    unfold aic; rw [if_pos (by simp [rss])]
  have a1 : ∃ x : ℝ, aic [0, 1] 1 ⟨[0, 1], [1, 0]⟩ = (x : WithBot ℝ) := by
    unfold aic; rw [if_neg (by simp [rss])]; exact ⟨_, rfl⟩
  obtain ⟨x, hx⟩ := a1
  have s1 : ¬ Sparse [0, 1] 1 1 ⟨[0, 1], [1, 0]⟩ := by rintro ⟨h, -⟩; omega
  have s2 : ¬ Sparse [0, 1] 1 2 ⟨[0, 0, 1], [0, 1]⟩ := by
    rintro ⟨-, s, hs, hlt⟩
    simp only [List.tail_cons, List.zip_cons_cons, List.zip_nil_right, List.mem_cons,
      List.not_mem_nil, or_false] at hs
    rcases hs with rfl | rfl <;> simp [inSegment] at hlt
  have hi : improved 2 (x : WithBot ℝ) ⊥ = true := rfl
  simp [piecewiseFit, List.range'_succ, loop, s1, s2, a2, hx, hi]

end Verif.Piecewise
