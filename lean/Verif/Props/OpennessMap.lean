import Verif.Model.OpennessMap
import Verif.Props.Openness
import Verif.Props.Shift
import Mathlib.Tactic.IntervalCases

/-!
# C160: topographic openness
-/

namespace Verif.OpennessMap

open Verif.Shift Verif.Terrain Real

/-! ## Specification -/

/-- Specification: elevations changed by a function. -/
def changed (f : ℝ → ℝ) (M : Arr ℝ) : Arr ℝ := ⟨M.rows, M.cols, fun i j => f (M.val i j)⟩

/-- Specification: an inclined plane. -/
def Plane (M : Arr ℝ) (α β γ : ℝ) : Prop :=
  ∀ i j, i < M.rows → j < M.cols → M.val i j = α * i + β * j + γ

/-- Specification: a pixel at least `n` pixels away from the border. -/
def Inside (M : Arr ℝ) (n r c : ℕ) : Prop := n ≤ r ∧ r + n < M.rows ∧ n ≤ c ∧ c + n < M.cols

/-! ## Helper lemmas -/

theorem foldl_lower (x : ℝ) (l : List ℝ) : l.foldl lower (some x) = some (l.foldl min x) := by
  induction l generalizing x with
  | nil => rfl
  | cons a l ih =>
    simp only [List.foldl_cons]
    rw [← ih]
    congr 1
    simp only [lower]
    split_ifs with h
    · rw [min_eq_right h.le]
    · rw [min_eq_left (not_lt.1 h)]

theorem dir_eq (M : Arr ℝ) (res L : ℝ) (dir r c : ℕ) :
    opennessDir M res L dir r c = ((List.range (count L res)).map (angle M res dir r c)).min? := by
  unfold opennessDir
  generalize (List.range (count L res)).map (angle M res dir r c) = l
  cases l with
  | nil => rfl
  | cons a l => simp only [List.foldl_cons, lower, foldl_lower, List.min?_cons']

theorem count_pos {L res : ℝ} (hr : 0 < res) (hL : 0 < L) : 0 < count L res :=
  Nat.ceil_pos.2 (div_pos hL hr)

theorem dist_pos {res : ℝ} (hr : 0 < res) (dir i : ℕ) : 0 < dist res dir i := by
  unfold dist
  split_ifs <;> positivity

theorem dir_spec (M : Arr ℝ) {res L : ℝ} (hr : 0 < res) (hL : 0 < L) (dir r c : ℕ) :
    ∃ a, opennessDir M res L dir r c = some a ∧ (∃ i < count L res, a = angle M res dir r c i) ∧
      ∀ i < count L res, a ≤ angle M res dir r c i := by
  rw [dir_eq]
  cases h : ((List.range (count L res)).map (angle M res dir r c)).min? with
  | none =>
    rw [List.min?_eq_none_iff, List.map_eq_nil_iff, List.range_eq_nil] at h
    exact absurd h (count_pos hr hL).ne'
  | some a =>
    obtain ⟨h1, h2⟩ := List.min?_eq_some_iff.1 h
    obtain ⟨i, hi, e⟩ := List.mem_map.1 h1
    exact ⟨a, rfl, ⟨i, List.mem_range.1 hi, e.symm⟩,
      fun k hk => h2 _ (List.mem_map.2 ⟨k, List.mem_range.2 hk, rfl⟩)⟩

theorem mean_eq (M : Arr ℝ) (res L : ℝ) (neg : Bool) (r c : ℕ) (f : ℕ → ℝ)
    (h : ∀ d < 8, opennessDir (if neg then negate M else M) res L d r c = some (f d)) :
    opennessMean M res L neg r c =
      some ((f 0 + f 1 + f 2 + f 3 + f 4 + f 5 + f 6 + f 7) / 8) := by
  have hl : opennessAll M res L neg r c =
      [some (f 0), some (f 1), some (f 2), some (f 3), some (f 4), some (f 5), some (f 6), some (f 7)] := by
    unfold opennessAll
    simp only [show List.range 8 = [0, 1, 2, 3, 4, 5, 6, 7] from rfl, List.map_cons, List.map_nil]
    rw [h 0 (by norm_num), h 1 (by norm_num), h 2 (by norm_num), h 3 (by norm_num), h 4 (by norm_num),
      h 5 (by norm_num), h 6 (by norm_num), h 7 (by norm_num)]
  simp only [opennessMean, hl]
  rw [if_neg (by simp)]
  simp only [List.map_cons, List.map_nil, Option.getD_some, List.sum_cons, List.sum_nil, List.length_cons,
    List.length_nil, Option.some.injEq]
  push_cast
  ring

theorem assign_changed (f : ℝ → ℝ) (a b a' b' : Sl) (M : Arr ℝ) (r c : ℕ) :
    (assign a b a' b' (changed f M)).val r c = f ((assign a b a' b' M).val r c) := by
  simp only [assign, changed]
  exact (apply_ite f _ _ _).symm

theorem shiftRetain_changed (f : ℝ → ℝ) (M : Arr ℝ) (dir n r c : ℕ) :
    (shiftRetain dir n (changed f M)).val r c = f ((shiftRetain dir n M).val r c) := by
  unfold shiftRetain
  split <;> first | exact assign_changed f _ _ _ _ M r c | rfl

theorem angle_eq (M : Arr ℝ) {res : ℝ} (hr : 0 < res) (dir r c i : ℕ) :
    angle M res dir r c i =
      π / 2 - arctan (((shiftRetain dir i M).val r c - M.val r c) / dist res dir i) :=
  (C70_sight (dist_pos hr dir i) _).1

theorem negate_eq (M : Arr ℝ) : negate M = changed (fun x => -x) M := rfl

theorem angle_negate (M : Arr ℝ) {res : ℝ} (hr : 0 < res) (dir r c i : ℕ) :
    angle (negate M) res dir r c i = π - angle M res dir r c i := by
  rw [angle_eq _ hr, angle_eq _ hr, negate_eq, shiftRetain_changed]
  simp only [changed]
  rw [show -(shiftRetain dir i M).val r c - -M.val r c = -((shiftRetain dir i M).val r c - M.val r c) by ring,
    neg_div, arctan_neg]
  ring

/-! ## Theorems -/

/-- **C160.** Positive and negative openness exist and are between 0 and 180 degrees, in every direction
and on average. -/
theorem C160_range (M : Arr ℝ) (res L : ℝ) (hr : 0 < res) (hL : 0 < L) (neg : Bool) (r c : ℕ) :
    (∀ x ∈ opennessAll M res L neg r c, ∃ a, x = some a ∧ 0 < a ∧ a < π) ∧
      ∃ m, opennessMean M res L neg r c = some m ∧ 0 < m ∧ m < π := by
  have key : ∀ d, ∃ a, opennessDir (if neg then negate M else M) res L d r c = some a ∧ 0 < a ∧ a < π := by
    intro d
    obtain ⟨a, e, ⟨i, -, rfl⟩, -⟩ := dir_spec (if neg then negate M else M) hr hL d r c
    have k := C70_sight (dist_pos hr d i) ((shiftRetain d i (if neg then negate M else M)).val r c -
      (if neg then negate M else M).val r c)
    exact ⟨_, e, k.2.1, k.2.2.1⟩
  choose f hf h0 h1 using key
  refine ⟨fun x hx => ?_, _, mean_eq M res L neg r c f fun d _ => hf d, ?_, ?_⟩
  · obtain ⟨d, -, rfl⟩ := List.mem_map.1 hx
    exact ⟨f d, hf d, h0 d, h1 d⟩
  · linarith [h0 0, h0 1, h0 2, h0 3, h0 4, h0 5, h0 6, h0 7]
  · linarith [h1 0, h1 1, h1 2, h1 3, h1 4, h1 5, h1 6, h1 7]

/-- **C160.** The zero of the elevations does not matter. -/
theorem C160_datum (M : Arr ℝ) (k res L : ℝ) (neg : Bool) (r c : ℕ) :
    opennessAll (changed (· + k) M) res L neg r c = opennessAll M res L neg r c ∧
      opennessMean (changed (· + k) M) res L neg r c = opennessMean M res L neg r c := by
  have h : opennessAll (changed (· + k) M) res L neg r c = opennessAll M res L neg r c := by
    unfold opennessAll opennessDir
    refine List.map_congr_left fun d _ => ?_
    congr 1
    refine List.map_congr_left fun i _ => ?_
    cases neg <;> simp only [if_true, Bool.false_eq_true, if_false, angle, negate_eq, shiftRetain_changed] <;>
      simp only [changed] <;> congr 1 <;> ring
  exact ⟨h, by simp only [opennessMean, h]⟩

/-- **C160.** The unit of length does not matter. -/
theorem C160_units (M : Arr ℝ) (k res L : ℝ) (hk : 0 < k) (hr : 0 < res) (neg : Bool) (r c : ℕ) :
    opennessAll (changed (k * ·) M) (k * res) (k * L) neg r c = opennessAll M res L neg r c ∧
      opennessMean (changed (k * ·) M) (k * res) (k * L) neg r c = opennessMean M res L neg r c := by
  have hc : count (k * L) (k * res) = count L res := by
    unfold count
    rw [mul_div_mul_left _ _ hk.ne']
  have h : opennessAll (changed (k * ·) M) (k * res) (k * L) neg r c = opennessAll M res L neg r c := by
    unfold opennessAll opennessDir
    rw [hc]
    refine List.map_congr_left fun d _ => ?_
    congr 1
    refine List.map_congr_left fun i _ => ?_
    have hd : dist (k * res) d i = k * dist res d i := by unfold dist; ring
    rw [angle_eq _ (mul_pos hk hr), angle_eq _ hr, hd]
    cases neg <;> simp only [if_true, Bool.false_eq_true, if_false, negate_eq, shiftRetain_changed] <;>
      simp only [changed]
    · rw [← mul_sub, mul_div_mul_left _ _ hk.ne']
    · rw [show ∀ x y : ℝ, -(k * x) - -(k * y) = k * (-x - -y) from fun x y => by ring,
        mul_div_mul_left _ _ hk.ne']
  exact ⟨h, by simp only [opennessMean, h]⟩

/-- **C160.** Openness does not grow with the radius. -/
theorem C160_radius (M : Arr ℝ) (res L L' : ℝ) (hr : 0 < res) (hL : 0 < L) (h : L ≤ L') (neg : Bool)
    (r c : ℕ) : ∃ m m', opennessMean M res L neg r c = some m ∧
      opennessMean M res L' neg r c = some m' ∧ m' ≤ m ∧
      ∀ d < 8, ∃ a a', (opennessAll M res L neg r c)[d]? = some (some a) ∧
        (opennessAll M res L' neg r c)[d]? = some (some a') ∧ a' ≤ a := by
  have hc : count L res ≤ count L' res := Nat.ceil_mono (div_le_div_of_nonneg_right h hr.le)
  have key : ∀ d, ∃ a a', opennessDir (if neg then negate M else M) res L d r c = some a ∧
      opennessDir (if neg then negate M else M) res L' d r c = some a' ∧ a' ≤ a := by
    intro d
    obtain ⟨a, e, ⟨i, hi, ea⟩, -⟩ := dir_spec (if neg then negate M else M) hr hL d r c
    obtain ⟨a', e', -, ha'⟩ := dir_spec (if neg then negate M else M) hr (hL.trans_le h) d r c
    exact ⟨a, a', e, e', by rw [ea]; exact ha' i (hi.trans_le hc)⟩
  choose f f' hf hf' hle using key
  refine ⟨_, _, mean_eq M res L neg r c f fun d _ => hf d, mean_eq M res L' neg r c f' fun d _ => hf' d,
    ?_, fun d hd => ⟨f d, f' d, ?_, ?_, hle d⟩⟩
  · linarith [hle 0, hle 1, hle 2, hle 3, hle 4, hle 5, hle 6, hle 7]
  · simp [opennessAll, hd, hf]
  · simp [opennessAll, hd, hf']

/-- **C160.** Positive and negative openness add up to at most 180 degrees. -/
theorem C160_sum (M : Arr ℝ) (res L : ℝ) (hr : 0 < res) (hL : 0 < L) (r c : ℕ) :
    ∃ p n, opennessMean M res L false r c = some p ∧ opennessMean M res L true r c = some n ∧ p + n ≤ π ∧
      ∀ d < 8, ∃ a b, (opennessAll M res L false r c)[d]? = some (some a) ∧
        (opennessAll M res L true r c)[d]? = some (some b) ∧ a + b ≤ π := by
  have key : ∀ d, ∃ a b, opennessDir M res L d r c = some a ∧
      opennessDir (negate M) res L d r c = some b ∧ a + b ≤ π := by
    intro d
    obtain ⟨a, e, -, ha⟩ := dir_spec M hr hL d r c
    obtain ⟨b, e', -, hb⟩ := dir_spec (negate M) hr hL d r c
    have h1 := ha 0 (count_pos hr hL)
    have h2 := hb 0 (count_pos hr hL)
    rw [angle_negate M hr] at h2
    exact ⟨a, b, e, e', by linarith⟩
  choose f g hf hg hle using key
  refine ⟨_, _, mean_eq M res L false r c f fun d _ => by simpa using hf d,
    mean_eq M res L true r c g fun d _ => by simpa using hg d, ?_, fun d hd => ⟨f d, g d, ?_, ?_, hle d⟩⟩
  · linarith [hle 0, hle 1, hle 2, hle 3, hle 4, hle 5, hle 6, hle 7]
  · simp [opennessAll, hd, hf]
  · simp [opennessAll, hd, hg]

/-- **C160.** Flat terrain has an openness of 90 degrees everywhere. -/
theorem C160_flat (M : Arr ℝ) (z res L : ℝ) (hr : 0 < res) (hL : 0 < L) (neg : Bool)
    (hM : ∀ i j, i < M.rows → j < M.cols → M.val i j = z) (r c : ℕ) (h1 : r < M.rows) (h2 : c < M.cols) :
    (∀ x ∈ opennessAll M res L neg r c, x = some (π / 2)) ∧
      opennessMean M res L neg r c = some (π / 2) := by
  have same : ∀ d i, d < 8 → (shiftRetain d i M).val r c = z := by
    intro d i hd
    obtain ⟨S, e, -, -, h⟩ := C106_retain M d i hd
    cases e
    obtain ⟨ha, hb⟩ := h r c h1 h2
    by_cases hin : 0 ≤ (r : ℤ) - ((i + 1 : ℕ) : ℤ) * (compass d).1 ∧
        (r : ℤ) - ((i + 1 : ℕ) : ℤ) * (compass d).1 < M.rows ∧
        0 ≤ (c : ℤ) - ((i + 1 : ℕ) : ℤ) * (compass d).2 ∧
        (c : ℤ) - ((i + 1 : ℕ) : ℤ) * (compass d).2 < M.cols
    · obtain ⟨a, ea⟩ := Int.eq_ofNat_of_zero_le hin.1
      obtain ⟨b, eb⟩ := Int.eq_ofNat_of_zero_le hin.2.2.1
      have la : a < M.rows := by have := hin.2.1; omega
      have lb : b < M.cols := by have := hin.2.2.2; omega
      rw [ha a b la lb ea.symm eb.symm, hM a b la lb]
    · exact (hb hin).trans (hM r c h1 h2)
  have key : ∀ d < 8, opennessDir (if neg then negate M else M) res L d r c = some (π / 2) := by
    intro d hd
    obtain ⟨a, e, ⟨i, -, ea⟩, -⟩ := dir_spec (if neg then negate M else M) hr hL d r c
    rw [e, ea]
    cases neg
    · simp only [Bool.false_eq_true, if_false]
      rw [angle_eq _ hr, same d i hd, hM r c h1 h2]
      simp
    · simp only [if_true]
      rw [angle_negate _ hr, angle_eq _ hr, same d i hd, hM r c h1 h2, sub_self, zero_div, arctan_zero]
      congr 1
      ring
  refine ⟨fun x hx => ?_, ?_⟩
  · obtain ⟨d, hd, rfl⟩ := List.mem_map.1 hx
    exact key d (List.mem_range.1 hd)
  · rw [mean_eq M res L neg r c (fun _ => π / 2) key]
    congr 1
    ring

/-- Gradient towards the pixels that a direction looks at. -/
noncomputable def grad (α β res : ℝ) (d : ℕ) : ℝ :=
  -(α * (compass d).1 + β * (compass d).2) / (res * if d % 2 = 0 then 1 else sqrt 2)

/-- **C160.** An inclined plane has an openness of 90 degrees, at all pixels that are farther from the
border than the radius. Missing for the full claim: the other pixels (`C160_border_false`). -/
theorem C160_plane_partial (M : Arr ℝ) (α β γ res L : ℝ) (hr : 0 < res) (hL : 0 < L) (neg : Bool)
    (hM : Plane M α β γ) (r c : ℕ) (hin : Inside M (count L res) r c) :
    opennessMean M res L neg r c = some (π / 2) := by
  obtain ⟨i1, i2, i3, i4⟩ := hin
  have h1 : r < M.rows := by omega
  have h2 : c < M.cols := by omega
  have hang : ∀ d i, d < 8 → i < count L res →
      angle M res d r c i = π / 2 - arctan (grad α β res d) := by
    intro d i hd hi
    rw [angle_eq _ hr]
    obtain ⟨S, e, -, -, h⟩ := C106_retain M d i hd
    cases e
    obtain ⟨ha, -⟩ := h r c h1 h2
    obtain ⟨p, q, hp, hq⟩ : ∃ p q : ℤ, (compass d).1 = p ∧ (compass d).2 = q := ⟨_, _, rfl, rfl⟩
    have hpq : -1 ≤ p ∧ p ≤ 1 ∧ -1 ≤ q ∧ q ≤ 1 := by
      rw [← hp, ← hq]
      interval_cases d <;> decide
    have b1 : -((i : ℤ) + 1) ≤ ((i : ℤ) + 1) * p ∧ ((i : ℤ) + 1) * p ≤ (i : ℤ) + 1 := by
      constructor <;> nlinarith
    have b2 : -((i : ℤ) + 1) ≤ ((i : ℤ) + 1) * q ∧ ((i : ℤ) + 1) * q ≤ (i : ℤ) + 1 := by
      constructor <;> nlinarith
    rw [hp, hq] at ha
    push_cast at ha
    obtain ⟨a, ea⟩ := Int.eq_ofNat_of_zero_le (show 0 ≤ (r : ℤ) - ((i : ℤ) + 1) * p by omega)
    obtain ⟨b, eb⟩ := Int.eq_ofNat_of_zero_le (show 0 ≤ (c : ℤ) - ((i : ℤ) + 1) * q by omega)
    have la : a < M.rows := by omega
    have lb : b < M.cols := by omega
    rw [ha a b la lb ea.symm eb.symm, hM a b la lb, hM r c h1 h2]
    have ra : (a : ℝ) = r - ((i : ℝ) + 1) * p := by
      have : ((a : ℤ) : ℝ) = (((r : ℤ) - ((i : ℤ) + 1) * p : ℤ) : ℝ) := by rw [ea]
      push_cast at this
      exact this
    have rb : (b : ℝ) = c - ((i : ℝ) + 1) * q := by
      have : ((b : ℤ) : ℝ) = (((c : ℤ) - ((i : ℤ) + 1) * q : ℤ) : ℝ) := by rw [eb]
      push_cast at this
      exact this
    congr 2
    have hs : (0 : ℝ) < res * if d % 2 = 0 then 1 else sqrt 2 := by split_ifs <;> positivity
    have hi1 : (0 : ℝ) < (i : ℝ) + 1 := by positivity
    simp only [grad, dist, hp, hq, ra, rb]
    rw [div_eq_div_iff (by
      have := mul_pos hs hi1
      nlinarith) hs.ne']
    ring
  have key : ∀ d < 8, opennessDir (if neg then negate M else M) res L d r c =
      some (π / 2 - (if neg then -1 else 1) * arctan (grad α β res d)) := by
    intro d hd
    obtain ⟨a, e, ⟨i, hi, ea⟩, -⟩ := dir_spec (if neg then negate M else M) hr hL d r c
    rw [e, ea]
    cases neg
    · simp only [Bool.false_eq_true, if_false, hang d i hd hi, one_mul]
    · simp only [if_true]
      rw [angle_negate _ hr, hang d i hd hi]
      congr 1
      ring
  rw [mean_eq M res L neg r c _ key]
  have opp : ∀ d < 4, arctan (grad α β res (d + 4)) = -arctan (grad α β res d) := by
    intro d hd
    rw [← arctan_neg]
    congr 1
    interval_cases d <;> simp [grad, compass] <;> ring
  rw [opp 0 (by norm_num), opp 1 (by norm_num), opp 2 (by norm_num), opp 3 (by norm_num)]
  congr 1
  ring

/-- **C160.** Higher terrain around a pixel never makes it more open. -/
theorem C160_terrain (M M' : Arr ℝ) (res L : ℝ) (hr : 0 < res) (hL : 0 < L) (r c : ℕ) (h1 : r < M.rows)
    (h2 : c < M.cols) (hrows : M'.rows = M.rows) (hcols : M'.cols = M.cols)
    (hM : ∀ i j, i < M.rows → j < M.cols → M.val i j ≤ M'.val i j) (heq : M'.val r c = M.val r c) :
    ∃ m m', opennessMean M res L false r c = some m ∧ opennessMean M' res L false r c = some m' ∧ m' ≤ m := by
  have hle : ∀ d i, d < 8 → (shiftRetain d i M).val r c ≤ (shiftRetain d i M').val r c := by
    intro d i hd
    obtain ⟨S, e, -, -, h⟩ := C106_retain M d i hd
    obtain ⟨S', e', -, -, h'⟩ := C106_retain M' d i hd
    cases e
    cases e'
    obtain ⟨ha, hb⟩ := h r c h1 h2
    obtain ⟨ha', hb'⟩ := h' r c (by omega) (by omega)
    rw [hrows, hcols] at ha' hb'
    by_cases hin : 0 ≤ (r : ℤ) - ((i + 1 : ℕ) : ℤ) * (compass d).1 ∧
        (r : ℤ) - ((i + 1 : ℕ) : ℤ) * (compass d).1 < M.rows ∧
        0 ≤ (c : ℤ) - ((i + 1 : ℕ) : ℤ) * (compass d).2 ∧
        (c : ℤ) - ((i + 1 : ℕ) : ℤ) * (compass d).2 < M.cols
    · obtain ⟨a, ea⟩ := Int.eq_ofNat_of_zero_le hin.1
      obtain ⟨b, eb⟩ := Int.eq_ofNat_of_zero_le hin.2.2.1
      have la : a < M.rows := by have := hin.2.1; omega
      have lb : b < M.cols := by have := hin.2.2.2; omega
      rw [ha a b la lb ea.symm eb.symm, ha' a b la lb ea.symm eb.symm]
      exact hM a b la lb
    · exact ((hb hin).trans (heq.symm.trans (hb' hin).symm)).le
  have key : ∀ d, ∃ a a', opennessDir M res L d r c = some a ∧ opennessDir M' res L d r c = some a' ∧
      (d < 8 → a' ≤ a) := by
    intro d
    obtain ⟨a, e, ⟨i, hi, ea⟩, -⟩ := dir_spec M hr hL d r c
    obtain ⟨a', e', -, ha'⟩ := dir_spec M' hr hL d r c
    refine ⟨a, a', e, e', fun hd => (ha' i hi).trans ?_⟩
    rw [ea, angle_eq _ hr, angle_eq _ hr, heq]
    have : ((shiftRetain d i M).val r c - M.val r c) / dist res d i ≤
        ((shiftRetain d i M').val r c - M.val r c) / dist res d i :=
      div_le_div_of_nonneg_right (by linarith [hle d i hd]) (dist_pos hr d i).le
    linarith [arctan_strictMono.monotone this]
  choose f f' hf hf' hl using key
  refine ⟨_, _, mean_eq M res L false r c f fun d _ => by simpa using hf d,
    mean_eq M' res L false r c f' fun d _ => by simpa using hf' d, ?_⟩
  linarith [hl 0 (by norm_num), hl 1 (by norm_num), hl 2 (by norm_num), hl 3 (by norm_num),
    hl 4 (by norm_num), hl 5 (by norm_num), hl 6 (by norm_num), hl 7 (by norm_num)]

/-- **C160.** The model stands for every order of the parallel iterations (if none is interrupted between
comparing and storing); with interruptions the openness can only come out too large. -/
theorem C160_schedule (M : Arr ℝ) (res L : ℝ) (hr : 0 < res) (hL : 0 < L) (dir r c : ℕ) :
    (∀ order : List ℕ, order.Perm (List.range (count L res)) →
      (opnRun (angle M res dir r c) (atomic order)).stored = opennessDir M res L dir r c) ∧
    ∀ (sched : List ℕ) (a : ℝ), (∀ k ∈ sched, k < count L res) →
      (opnRun (angle M res dir r c) sched).stored = some a →
      ∃ b, opennessDir M res L dir r c = some b ∧ b ≤ a ∧ a < π := by
  obtain ⟨b, e, ⟨i, hi, eb⟩, hb⟩ := dir_spec M hr hL dir r c
  constructor
  · intro order hp
    obtain ⟨a, h1, -, ⟨k, hk, rfl⟩, h2⟩ := C70_atomic_partial (angle M res dir r c) _ (count_pos hr hL) order hp
    rw [h1, e]
    congr 1
    exact le_antisymm (by rw [eb]; exact h2 i hi) (hb k hk)
  · intro sched a hs h
    obtain ⟨k, hk, rfl⟩ := C70_any_schedule _ sched a h
    exact ⟨b, e, hb k (hs k hk), (C70_sight (dist_pos hr dir k) _).2.2.1⟩

/-! ## Examples and witness -/

/-- A slope of two pixels. -/
def exSlope : Arr ℝ := ⟨2, 1, fun i _ => i⟩

/-- A plane of 5 × 5 pixels. -/
noncomputable def exPlane : Arr ℝ := ⟨5, 5, fun i j => 3 * i + 2 * j + 1000⟩

example : Plane exPlane 3 2 1000 ∧ Inside exPlane (count 20 10) 2 2 := by
  refine ⟨fun i j _ _ => rfl, ?_⟩
  have : count 20 10 = 2 := by norm_num [count]
  rw [this]
  simp [Inside, exPlane]

/-- Positive and negative openness of a slope, and of a level raster. -/
example : (∃ p n, opennessMean exSlope 10 20 false 0 0 = some p ∧ opennessMean exSlope 10 20 true 0 0 = some n ∧
    p + n ≤ π) ∧ opennessMean ⟨3, 3, fun _ _ => 500⟩ 10 20 false 1 0 = some (π / 2) := by
  obtain ⟨p, n, h1, h2, h3, -⟩ := C160_sum exSlope 10 20 (by norm_num) (by norm_num) 0 0
  exact ⟨⟨p, n, h1, h2, h3⟩, (C160_flat ⟨3, 3, fun _ _ => 500⟩ 500 10 20 (by norm_num) (by norm_num) false
    (fun _ _ _ _ => rfl) 1 0 (by norm_num) (by norm_num)).2⟩

/-- A mound beside the pixel (0, 0). -/
example : ∀ i j, i < 2 → j < 1 → exSlope.val i j ≤ (⟨2, 1, fun i _ => 3 * i⟩ : Arr ℝ).val i j := by
  intro i j _ _
  simp only [exSlope]
  linarith [(Nat.cast_nonneg i : (0 : ℝ) ≤ i)]

/-- **C160.** At the border the claim on inclined planes is false: the upper terrain counts, the missing
lower terrain is taken to be level. -/
theorem C160_border_false : Plane exSlope 1 0 0 ∧ opennessMean exSlope 1 1 false 0 0 = some (15 / 32 * π) ∧
    (15 / 32 * π < π / 2) := by
  refine ⟨fun i j _ _ => by simp [exSlope], ?_, by linarith [pi_pos]⟩
  have hc : count 1 1 = 1 := by norm_num [count]
  rw [mean_eq exSlope 1 1 false 0 0 (fun d => if d = 0 then π / 4 else π / 2)]
  · norm_num
    ring
  · intro d hd
    simp only [Bool.false_eq_true, if_false]
    rw [dir_eq, hc]
    simp only [show List.range 1 = [0] from rfl, List.map_cons, List.map_nil]
    rw [angle_eq _ one_pos]
    interval_cases d <;>
      simp [shiftRetain, assign, Sl.len, Sl.start, upTo, exSlope, dist, arctan_one]
    ring

end Verif.OpennessMap
