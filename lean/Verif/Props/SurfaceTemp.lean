import Verif.Lemmas.SurfaceTemp
import Mathlib.Analysis.Convex.Function
import Mathlib.Tactic.IntervalCases
import Mathlib.Tactic.NormNum

/-!
# Snow surface temperature of the cryo layer model (C80)
-/

namespace Verif.SurfaceTemp

open Verif.Atmosphere (T0 cp)
open Verif.Surface (Pixel sigma)
open Classical

/-! ## Stepwise search -/

/-- **C80.** Every pixel gets the first temperature of the grid 0 °C, −0.25 °C, … whose balance is not negative, or
else the last one of the grid. -/
theorem C80_stepwise (cells : List Cell) (hfrost : ∀ c ∈ cells, c.air < T0) (i : ℕ) (c : Cell)
    (hc : cells[i]? = some c) : ∃ k : ℕ, (legacy cells)[i]? = some (T0 - k / 4) ∧
      (∀ j < k, IsNeg (c.bal (T0 - j / 4))) ∧
      (¬ IsNeg (c.bal (T0 - k / 4)) ∨
        ∃ d ∈ cells, T0 - k / 4 ≤ d.air - 11 / 4 ∧ ∀ d' ∈ cells, d.air ≤ d'.air) ∧
      ∃ d ∈ cells, d.air - 3 - 1 / 1000000 < T0 - k / 4 := by
  have hmem : c ∈ cells := List.mem_of_getElem? hc
  have hne : cells ≠ [] := List.ne_nil_of_mem hmem
  obtain ⟨d, hd, hde⟩ := coldest_mem hne
  have hg : ∀ k : ℕ, gridTemp k = T0 - k / 4 := fun k => by unfold gridTemp; ring
  obtain ⟨h0, h1, h2⟩ := gridLen_bounds (show coldest cells < T0 by rw [hde]; exact hfrost d hd)
  have hr : (legacy cells)[i]? = some (runs c (gridLen (coldest cells))).temp := by
    rw [legacy_eq, List.getElem?_map, hc]; rfl
  obtain ⟨n, hn⟩ : ∃ n, gridLen (coldest cells) = n + 1 := ⟨gridLen (coldest cells) - 1, by omega⟩
  rw [hn] at hr h1 h2
  simp only [Nat.add_sub_cancel] at h1 h2
  have hlow : ∀ d' ∈ cells, d.air ≤ d'.air := fun d' hd' => hde ▸ coldest_le hd'
  have hmono : ∀ k ≤ n, gridTemp n ≤ gridTemp k := fun k hk => by
    rw [hg, hg]
    have : (k : ℝ) ≤ n := by exact_mod_cast hk
    linarith
  rcases runs_spec c n with ⟨-, hneg, ht, -⟩ | ⟨-, k, hk, hneg, hnn, ht, -⟩
  · refine ⟨n, by rw [hr, ht, hg], fun j hj => hg j ▸ hneg j hj.le, Or.inr ⟨d, hd, ?_, hlow⟩, d, hd, ?_⟩
    · rw [← hg, ← hde]; exact h1
    · rw [← hg, ← hde]; exact h2
  · refine ⟨k, by rw [hr, ht, hg], fun j hj => hg j ▸ hneg j hj, Or.inl (hg k ▸ hnn), d, hd, ?_⟩
    rw [← hg, ← hde]; exact h2.trans_le (hmono k hk)

/-- **C80.** For a strictly decreasing balance with a zero at most 2.75 K below its own air temperature and not above
0 °C, the result is the zero rounded down to the grid: less than 0.25 K too cold and never too warm. -/
theorem C80_stepwise_zero (cells : List Cell) (hfrost : ∀ c ∈ cells, c.air < T0) (i : ℕ) (c : Cell)
    (hc : cells[i]? = some c) (f : ℝ → ℝ) (hf : StrictAnti f) (hb : ∀ t, c.bal t = some (f t)) (z : ℝ) (hz : f z = 0)
    (hz1 : z ≤ T0) (hz2 : c.air - 11 / 4 < z) :
    ∃ t, (legacy cells)[i]? = some t ∧ t ≤ z ∧ z < t + 1 / 4 := by
  obtain ⟨k, hk, hneg, hend, -⟩ := C80_stepwise cells hfrost i c hc
  have hiff : ∀ t, IsNeg (c.bal t) ↔ z < t := fun t => by
    rw [hb]
    constructor
    · rintro ⟨y, hy, hy0⟩
      simp only [Option.some.injEq] at hy
      rw [← hf.lt_iff_gt, hz, hy]; exact hy0
    · intro h
      exact ⟨f t, rfl, by rw [← hz]; exact hf h⟩
  refine ⟨_, hk, ?_, ?_⟩
  · rcases hend with h | ⟨d, -, hd, hlow⟩
    · exact not_lt.1 fun hlt => h ((hiff _).2 hlt)
    · have := hlow c (List.mem_of_getElem? hc); linarith
  · rcases Nat.eq_zero_or_pos k with rfl | hk0
    · push_cast
      linarith
    · have := (hiff _).1 (hneg (k - 1) (by omega))
      rw [Nat.cast_sub hk0] at this
      push_cast at this
      linarith

/-- **C80.** If the balance is not negative at 0 °C, the surface is at 0 °C. -/
theorem C80_stepwise_warm (cells : List Cell) (hfrost : ∀ c ∈ cells, c.air < T0) (i : ℕ) (c : Cell)
    (hc : cells[i]? = some c) (hb : ¬ IsNeg (c.bal T0)) : (legacy cells)[i]? = some T0 := by
  obtain ⟨k, hk, hneg, -, -⟩ := C80_stepwise cells hfrost i c hc
  rcases Nat.eq_zero_or_pos k with rfl | hk0
  · simpa using hk
  · exact absurd (by simpa using hneg 0 hk0) hb

/-- **C80, independence of other pixels.** A pixel whose balance becomes non-negative within the grid of its own air
temperature gets the same surface temperature in every domain.  Missing: all other pixels, see
`C80_other_pixels_false`. -/
theorem C80_independent_partial (cells : List Cell) (hfrost : ∀ c ∈ cells, c.air < T0) (i : ℕ) (c : Cell)
    (hc : cells[i]? = some c) (j : ℕ) (hj : ¬ IsNeg (c.bal (T0 - j / 4))) (hair : c.air - 11 / 4 < T0 - j / 4) :
    (legacy cells)[i]? = (legacy [c])[0]? := by
  have hself : ∀ c' ∈ [c], c'.air < T0 := fun c' hc' => by
    rw [List.mem_singleton.1 hc']; exact hfrost c (List.mem_of_getElem? hc)
  obtain ⟨k, hk, hneg, hend, -⟩ := C80_stepwise cells hfrost i c hc
  obtain ⟨k', hk', hneg', hend', -⟩ := C80_stepwise [c] hself 0 c rfl
  have key : ∀ k : ℕ, (∀ j < k, IsNeg (c.bal (T0 - j / 4))) → k ≤ j := fun k h => by
    by_contra hlt
    exact hj (h j (not_le.1 hlt))
  have hstop : ∀ (cs : List Cell) (k : ℕ), c ∈ cs → k ≤ j → (¬ IsNeg (c.bal (T0 - k / 4)) ∨
        ∃ d ∈ cs, T0 - k / 4 ≤ d.air - 11 / 4 ∧ ∀ d' ∈ cs, d.air ≤ d'.air) → ¬ IsNeg (c.bal (T0 - k / 4)) := by
    rintro cs k hcs hkj (h | ⟨d, -, hd, hlow⟩)
    · exact h
    · have h1 := hlow c hcs
      have : (k : ℝ) ≤ j := by exact_mod_cast hkj
      exfalso; linarith
  have s1 := hstop cells k (List.mem_of_getElem? hc) (key k hneg) hend
  have s2 := hstop [c] k' (by simp) (key k' hneg') hend'
  have : k = k' := by
    rcases lt_trichotomy k k' with h | h | h
    · exact absurd (hneg' k h) s1
    · exact h
    · exact absurd (hneg k' h) s2
  rw [hk, hk', this]

/-- Air at −3.15 °C; the balance vanishes at 250 K. -/
def mild : Cell := ⟨270, fun t => some (250 - t)⟩

/-- Air at −13.15 °C. -/
def cold : Cell := ⟨260, fun t => some (250 - t)⟩

/-- **C80 is false without this condition.** The temperature of a pixel depends on the air temperature of the other
pixels: with a colder pixel anywhere in the domain the search goes on to colder temperatures. -/
theorem C80_other_pixels_false : ∃ t t', (legacy [mild])[0]? = some t ∧ (legacy [mild, cold])[0]? = some t' ∧
    t' + 9 < t := by
  have hT : T0 = 27315 / 100 := by norm_num [T0]
  have hneg : ∀ t : ℝ, 250 < t → IsNeg (mild.bal t) := fun t ht => ⟨250 - t, rfl, by linarith⟩
  obtain ⟨k, hk, -, hend, d, hd, hlow⟩ := C80_stepwise [mild] (by simp [mild, hT]; norm_num) 0 mild rfl
  obtain ⟨k', hk', -, hend', d', hd', hlow'⟩ :=
    C80_stepwise [mild, cold] (by simp [mild, cold, hT]; norm_num) 0 mild rfl
  refine ⟨_, _, hk, hk', ?_⟩
  simp only [List.mem_singleton] at hd
  subst hd
  have hm : mild.air = 270 := rfl
  have hcd : cold.air = 260 := rfl
  rw [hm] at hlow
  have h2 : T0 - (k' : ℝ) / 4 ≤ 260 - 11 / 4 := by
    rcases hend' with h | ⟨e, he, hle, hmin⟩
    · have : T0 - (k' : ℝ) / 4 ≤ 250 := by
        by_contra hc
        exact h (hneg _ (not_le.1 hc))
      linarith
    · have := hmin cold (by simp)
      rw [hcd] at this
      linarith
  linarith

/-! ## Secant method -/

/-- Specification: the next secant correction from iterates `x0`, `x1` of a balance `f`. -/
noncomputable def correction (f : ℝ → ℝ) (x0 x1 : ℝ) : ℝ := f x1 / ((f x1 - f x0) / (x1 - x0))

theorem correction_eq (f : ℝ → ℝ) (x0 x1 : ℝ) : correction f x0 x1 = corr f x0 x1 := by
  unfold correction corr
  rw [div_div_eq_mul_div]
  ring

theorem start_mem {bal : ℕ → ℝ → ℝ} {idxs : List ℕ} {θ : ℕ → ℝ} {i : ℕ} (hi : i ∈ idxs) :
    (⟨i, T0 - 10, T0, bal i (T0 - 10), bal i T0⟩ : Iterate) ∈ (Loop.start bal idxs θ).es :=
  List.mem_map.2 ⟨i, hi, rfl⟩

theorem secant_eq {bal : ℕ → ℝ → ℝ} {idxs : List ℕ} (hn : idxs.Nodup) (θ : ℕ → ℝ) (n : ℕ) :
    (∀ i ∈ idxs, (secant bal idxs θ n).1 i = min (pixRun (bal i) n (T0 - 10) T0).2.1 T0 ∧
      (secant bal idxs θ n).2.1 i = (pixRun (bal i) n (T0 - 10) T0).2.1) ∧
    (∀ i ∉ idxs, (secant bal idxs θ n).1 i = θ i) ∧
    ((secant bal idxs θ n).2.2 = true ↔ ∀ i ∈ idxs, (pixRun (bal i) n (T0 - 10) T0).2.2 = true) := by
  obtain ⟨h1, h2, h3⟩ := run_refines n (good_start bal hn θ)
  refine ⟨fun i hi => ?_, fun i hi => ?_, ?_⟩
  · have := h1 _ (start_mem hi)
    simp only at this
    simp only [secant, hi, if_true, this, and_self]
  · have hno : ∀ e ∈ (Loop.start bal idxs θ).es, e.idx ≠ i := by
      intro e he heq
      simp only [Loop.start, List.mem_map] at he
      obtain ⟨j, hj, rfl⟩ := he
      exact hi (heq ▸ hj)
    have := h2 i hno
    simp only [secant, hi, if_false, this]
    exact writeTemps_not_mem hno
  · simp only [secant]
    rw [h3]
    constructor
    · exact fun h i hi => h _ (start_mem hi)
    · intro h e he
      simp only [Loop.start, List.mem_map] at he
      obtain ⟨j, hj, rfl⟩ := he
      exact h j hj

/-- **C80.** The result is never above the melting point, and pixels outside the mask keep their temperature. -/
theorem C80_secant_cap (bal : ℕ → ℝ → ℝ) (idxs : List ℕ) (hn : idxs.Nodup) (θ : ℕ → ℝ) (n i : ℕ) :
    (i ∈ idxs → (secant bal idxs θ n).1 i ≤ T0) ∧ (i ∉ idxs → (secant bal idxs θ n).1 i = θ i) := by
  obtain ⟨h1, h2, -⟩ := secant_eq (bal := bal) hn θ n
  exact ⟨fun hi => (h1 i hi).1 ▸ min_le_right _ _, h2 i⟩

/-- **C80.** When the iteration has ended, every pixel's temperature is, up to the cap, the second of two different
iterates from which the next correction is at most 0.01 K. -/
theorem C80_secant_stop (bal : ℕ → ℝ → ℝ) (idxs : List ℕ) (hn : idxs.Nodup) (θ : ℕ → ℝ) (n : ℕ)
    (he : (secant bal idxs θ n).2.2 = true) (i : ℕ) (hi : i ∈ idxs) : ∃ x0 x1, x0 ≠ x1 ∧
      |correction (bal i) x0 x1| ≤ 1 / 100 ∧ (secant bal idxs θ n).1 i = min x1 T0 := by
  obtain ⟨h1, -, h3⟩ := secant_eq (bal := bal) hn θ n
  obtain ⟨hne, hs⟩ := pixRun_stopped n (by linarith) (h3.1 he i hi)
  exact ⟨_, _, hne, by rw [correction_eq]; exact hs, (h1 i hi).1⟩

/-- **C80.** The result does not depend on the other pixels, nor on the number of further rounds they need. -/
theorem C80_secant_independent (bal : ℕ → ℝ → ℝ) (idxs : List ℕ) (hn : idxs.Nodup) (θ : ℕ → ℝ) (n : ℕ)
    (he : (secant bal idxs θ n).2.2 = true) (i : ℕ) (hi : i ∈ idxs) (m : ℕ)
    (hm : (secant bal [i] θ m).2.2 = true) : (secant bal idxs θ n).1 i = (secant bal [i] θ m).1 i := by
  obtain ⟨h1, -, h3⟩ := secant_eq (bal := bal) hn θ n
  obtain ⟨h1', -, h3'⟩ := secant_eq (bal := bal) (List.nodup_singleton i) θ m
  have e1 := h3.1 he i hi
  have e2 := h3'.1 hm i (by simp)
  rw [(h1 i hi).1, (h1' i (by simp)).1]
  rcases le_total n m with h | h
  · rw [pixRun_mono h e1]
  · rw [pixRun_mono h e2]

/-- **C80.** If the balance falls by between `m` and `M` per kelvin, the result is within `0.01 M / m` kelvin of its
zero (if that is not above the melting point). -/
theorem C80_secant_error (bal : ℕ → ℝ → ℝ) (idxs : List ℕ) (hn : idxs.Nodup) (θ : ℕ → ℝ) (n : ℕ)
    (he : (secant bal idxs θ n).2.2 = true) (i : ℕ) (hi : i ∈ idxs) (m M z : ℝ) (hm : 0 < m)
    (hl : ∀ x y, x ≤ y → m * (y - x) ≤ bal i x - bal i y) (hu : ∀ x y, x ≤ y → bal i x - bal i y ≤ M * (y - x))
    (hz : bal i z = 0) (hzT : z ≤ T0) : |(secant bal idxs θ n).1 i - z| ≤ 1 / 100 * M / m := by
  obtain ⟨x0, x1, hne, hs, hr⟩ := C80_secant_stop bal idxs hn θ n he i hi
  generalize bal i = f at *
  -- slope of the chord
  have hd : x1 - x0 ≠ 0 := sub_ne_zero.2 (Ne.symm hne)
  have hq : m ≤ -((f x1 - f x0) / (x1 - x0)) ∧ -((f x1 - f x0) / (x1 - x0)) ≤ M := by
    rcases lt_or_gt_of_ne hne with h | h
    · have p : 0 < x1 - x0 := by linarith
      rw [← neg_div, le_div_iff₀ p, div_le_iff₀ p]
      have := hl x0 x1 h.le; have := hu x0 x1 h.le
      constructor <;> linarith
    · have p : 0 < x0 - x1 := by linarith
      have e : -((f x1 - f x0) / (x1 - x0)) = (f x1 - f x0) / (x0 - x1) := by
        rw [← div_neg, neg_sub]
      rw [e, le_div_iff₀ p, div_le_iff₀ p]
      have := hl x1 x0 h.le; have := hu x1 x0 h.le
      constructor <;> linarith
  obtain ⟨q, hqe⟩ : ∃ q, (f x1 - f x0) / (x1 - x0) = q := ⟨_, rfl⟩
  have hs' : |f x1| ≤ 1 / 100 * M := by
    rw [correction, hqe, abs_div] at hs
    rw [hqe] at hq
    have hq0 : 0 < |q| := abs_pos.2 (by linarith : q < 0).ne
    rw [div_le_iff₀ hq0] at hs
    rw [abs_of_neg (by linarith : q < 0)] at hs
    nlinarith
  have hx : |x1 - z| ≤ 1 / 100 * M / m := by
    rw [le_div_iff₀ hm]
    rcases le_total x1 z with h | h
    · have h1 := hl x1 z h
      rw [abs_of_nonpos (by linarith)]
      have := le_abs_self (f x1)
      rw [hz] at h1; linarith
    · have h1 := hl z x1 h
      rw [abs_of_nonneg (by linarith)]
      have := neg_le_abs (f x1)
      rw [hz] at h1; linarith
  rw [hr]
  rcases le_total x1 T0 with h | h
  · rw [min_eq_left h]; exact hx
  · rw [min_eq_right h, abs_of_nonneg (by linarith)]
    rw [abs_of_nonneg (by linarith)] at hx
    linarith

/-- **C80.** The loop ends: for all pixels whose balances are strictly decreasing and concave from some temperature
`a` on at which they are not negative. -/
theorem C80_secant_terminates (bal : ℕ → ℝ → ℝ) (idxs : List ℕ) (hn : idxs.Nodup) (θ : ℕ → ℝ) (a : ℝ)
    (haT : a ≤ T0 - 10) (hc : ∀ i ∈ idxs, ConcaveOn ℝ (Set.Ici a) (bal i))
    (hs : ∀ i ∈ idxs, StrictAntiOn (bal i) (Set.Ici a)) (ha : ∀ i ∈ idxs, 0 ≤ bal i a) :
    ∃ n, ∀ m ≥ n, (secant bal idxs θ m).2.2 = true := by
  have hex : ∀ l : List ℕ, (∀ i ∈ l, i ∈ idxs) →
      ∃ n, ∀ m ≥ n, ∀ i ∈ l, (pixRun (bal i) m (T0 - 10) T0).2.2 = true := by
    intro l
    induction l with
    | nil => exact fun _ => ⟨0, fun m _ i hi => by simp at hi⟩
    | cons j l ih =>
      intro hl
      obtain ⟨n, hn'⟩ := ih fun i hi => hl i (List.mem_cons_of_mem _ hi)
      have hj := hl j List.mem_cons_self
      obtain ⟨k, hk⟩ := ends_start (hc j hj) (hs j hj) (rightClosed_Ici _ _) (Set.mem_Ici.2 le_rfl) (ha j hj) haT
        (Set.mem_Ici.2 (by linarith : a ≤ T0)) (show T0 - 10 < T0 by linarith)
      refine ⟨max n k, fun m hm i hi => ?_⟩
      rcases List.mem_cons.1 hi with rfl | hi'
      · rw [pixRun_mono ((le_max_right n k).trans hm) hk]; exact hk
      · exact hn' m ((le_max_left n k).trans hm) i hi'
  obtain ⟨n, hn'⟩ := hex idxs fun i hi => hi
  exact ⟨n, fun m hm => (secant_eq (bal := bal) hn θ m).2.2.2 (hn' m hm)⟩

/-- **C80.** The energy balance of the program meets these conditions wherever saturation humidity is a non-decreasing
convex function of temperature. -/
theorem C80_balance_shape (p : Pixel) (ψ lat g a : ℝ) (hψ : 0 ≤ ψ) (hlat : 0 ≤ lat) (hden : 0 ≤ p.density)
    (hex : 0 ≤ p.exch) (hw : 0 ≤ p.wind) (hdt : 0 < p.dt) (hr : 0 ≤ p.rain) (hsn : 0 ≤ p.snow) (ha : 0 ≤ a)
    (hqm : MonotoneOn p.qsat (Set.Ici a)) (hqc : ConvexOn ℝ (Set.Ici a) p.qsat) :
    ConcaveOn ℝ (Set.Ici a) (remainder p ψ lat g) ∧ StrictAntiOn (remainder p ψ lat g) (Set.Ici a) := by
  have hcp : (0 : ℝ) ≤ cp := by norm_num [cp]
  have hsg : (0 : ℝ) < 99 / 100 * sigma := by norm_num [sigma]
  have hw' : (0 : ℝ) ≤ Verif.Surface.cWater := by norm_num [Verif.Surface.cWater]
  have hi' : (0 : ℝ) ≤ Verif.Surface.cIce := by norm_num [Verif.Surface.cIce]
  have ht : 0 ≤ p.transfer := by unfold Pixel.transfer; positivity
  obtain ⟨E, hE⟩ : ∃ E, lat * (ψ * p.transfer) = E := ⟨_, rfl⟩
  obtain ⟨B, hB⟩ : ∃ B, cp * p.transfer + (Verif.Surface.cWater * p.rain + Verif.Surface.cIce * p.snow) / p.dt = B :=
    ⟨_, rfl⟩
  have hE0 : 0 ≤ E := by rw [← hE]; positivity
  have hB0 : 0 ≤ B := by rw [← hB]; positivity
  obtain ⟨A, hA⟩ : ∃ A, p.swIn - p.albedo * p.swIn + p.lwIn + cp * p.transfer * p.temp + E * p.specHum +
      (Verif.Surface.cWater * p.temp * p.rain + Verif.Surface.cIce * p.wetBulb * p.snow) / p.dt - g = A := ⟨_, rfl⟩
  have hform : remainder p ψ lat g = fun t => (A - B * t) - (99 / 100 * sigma * t ^ 4 + E * p.qsat t) := by
    funext t
    simp only [remainder, Pixel.netRad, Pixel.sensFlux, Pixel.advHeat, ← hA, ← hB, ← hE]
    ring
  rw [hform]
  constructor
  · have hlin : ConcaveOn ℝ (Set.Ici a) fun t : ℝ => A - B * t := by
      refine ⟨convex_Ici a, fun x _ y _ s r _ _ hsr => ?_⟩
      simp only [smul_eq_mul]
      have : s = 1 - r := by linarith
      subst this
      exact le_of_eq (by ring)
    have hpow : ConvexOn ℝ (Set.Ici a) fun t : ℝ => t ^ 4 :=
      (convexOn_pow 4).subset (Set.Ici_subset_Ici.2 ha) (convex_Ici a)
    have h4 := (hpow.smul hsg.le).add (hqc.smul hE0)
    exact hlin.sub h4
  · intro x hx y hy hxy
    have hx0 : 0 ≤ x := ha.trans hx
    have h4 : x ^ 4 < y ^ 4 := pow_lt_pow_left₀ hxy hx0 (by norm_num)
    have h1 := mul_lt_mul_of_pos_left h4 hsg
    have h2 := mul_le_mul_of_nonneg_left (hqm hx hy hxy.le) hE0
    have h3 := mul_le_mul_of_nonneg_left hxy.le hB0
    simp only
    linarith

/-- **C80.** The saturation humidity left behind for the latent heat flux belongs to the returned temperature exactly
if the iteration ended at or below the melting point. -/
theorem C80_secant_humidity_partial (bal : ℕ → ℝ → ℝ) (idxs : List ℕ) (hn : idxs.Nodup) (θ : ℕ → ℝ) (n : ℕ) (i : ℕ)
    (hi : i ∈ idxs) :
    (secant bal idxs θ n).1 i = min ((secant bal idxs θ n).2.1 i) T0 ∧
    ((secant bal idxs θ n).2.1 i = (secant bal idxs θ n).1 i ↔ (secant bal idxs θ n).2.1 i ≤ T0) := by
  obtain ⟨h1, -, -⟩ := secant_eq (bal := bal) hn θ n
  have e : (secant bal idxs θ n).1 i = min ((secant bal idxs θ n).2.1 i) T0 := by
    rw [(h1 i hi).1, (h1 i hi).2]
  refine ⟨e, ?_⟩
  rw [e, eq_comm, min_eq_left_iff]

/-- **C80 is false for the latent heat flux above the melting point.** With a balance vanishing at 280 K the surface
is set to 0 °C while the humidity belongs to 280 K. -/
theorem C80_secant_humidity_false : ∃ (bal : ℕ → ℝ → ℝ) (n : ℕ), (secant bal [0] (fun _ => 0) n).2.2 = true ∧
    (secant bal [0] (fun _ => 0) n).1 0 = T0 ∧ (secant bal [0] (fun _ => 0) n).2.1 0 = 280 := by
  have hT : T0 = 27315 / 100 := by norm_num [T0]
  refine ⟨fun _ t => 280 - t, 1, ?_⟩
  obtain ⟨h1, -, h3⟩ := secant_eq (bal := fun _ t => 280 - t) (List.nodup_singleton 0) (fun _ => (0 : ℝ)) 1
  have hg : ¬ |corr (fun t => 280 - t) (T0 - 10) T0| ≤ tol := by
    have : corr (fun t => 280 - t) (T0 - 10) T0 = -(685 / 100) := by
      unfold corr; rw [hT]; norm_num
    rw [this]; norm_num [tol]
  have hv : T0 - corr (fun t => 280 - t) (T0 - 10) T0 = 280 := by
    unfold corr; rw [hT]; norm_num
  have hp : pixRun (fun t => 280 - t) 1 (T0 - 10) T0 = (T0, 280, true) := by
    rw [pixRun_go hg, hv]
    have : |corr (fun t => 280 - t) T0 280| ≤ tol := by
      unfold corr; norm_num [tol]
    rw [pixRun_stop this]
  refine ⟨h3.2 fun i hi => ?_, ?_, ?_⟩
  · rw [hp]
  · rw [(h1 0 (by simp)).1, hp, hT]
    norm_num
  · rw [(h1 0 (by simp)).2, hp]

/-- Non-vacuity: a linear balance meets the conditions of `C80_secant_terminates` and `C80_secant_error`. -/
example : ConcaveOn ℝ (Set.Ici (0 : ℝ)) (fun t => 265 - t) ∧ StrictAntiOn (fun t : ℝ => 265 - t) (Set.Ici 0) ∧
    (0 : ℝ) ≤ 265 - 0 := by
  refine ⟨⟨convex_Ici 0, fun x _ y _ s r _ _ hsr => ?_⟩, fun x _ y _ h => by simp only; linarith, by norm_num⟩
  simp only [smul_eq_mul]
  have : s = 1 - r := by linarith
  subst this
  exact le_of_eq (by ring)

end Verif.SurfaceTemp
