import Verif.Model.Rounded
import Mathlib.Tactic.Linarith
import Mathlib.Tactic.Ring
import Mathlib.Tactic.Positivity
import Mathlib.Tactic.FieldSimp
import Mathlib.Tactic.NormNum
import Mathlib.Algebra.Order.BigOperators.Group.List

/-!
# Rounded arithmetic: signs and errors of the stages of a time step
-/

set_option linter.unusedSectionVars false

namespace Verif.Rounded

variable {K : Type*} [Field K] [LinearOrder K] [IsStrictOrderedRing K] {u : K} {rd : K → K}

/-- All water of a pixel. -/
def total (p : Pix K) : K := (p.map fun L => L.ice + L.lwc).sum

/-- Contents are not negative. -/
def Good (p : Pix K) : Prop := ∀ L ∈ p, 0 ≤ L.ice ∧ 0 ≤ L.lwc

theorem total_cons (L : W K) (p : Pix K) : total (L :: p) = L.ice + L.lwc + total p := by simp [total]

theorem Good.tail {L : W K} {p : Pix K} (h : Good (L :: p)) : Good p := fun M hM => h M (by simp [hM])

theorem Good.cons {L : W K} {p : Pix K} (h1 : 0 ≤ L.ice) (h2 : 0 ≤ L.lwc) (h : Good p) : Good (L :: p) := by
  intro M hM
  rw [List.mem_cons] at hM
  rcases hM with rfl | hM
  · exact ⟨h1, h2⟩
  · exact h M hM

theorem Good.total {p : Pix K} (h : Good p) : 0 ≤ total p := by
  induction p with
  | nil => simp [Rounded.total]
  | cons L p ih =>
    rw [total_cons]
    have := h L (by simp)
    linarith [ih h.tail, this.1, this.2]

namespace IsRounding

variable (h : IsRounding u rd)
include h

theorem u_nonneg : 0 ≤ u := by
  have := h.rel 1
  rw [h.one] at this
  simpa using this

theorem zero : rd 0 = 0 := by
  have := h.rel 0
  simpa using this

theorem nonneg {x : K} (hx : 0 ≤ x) : 0 ≤ rd x := by
  have := h.mono hx
  rwa [h.zero] at this

theorem err {x : K} (hx : 0 ≤ x) : |rd x - x| ≤ u * x := by
  have := h.rel x
  rwa [abs_of_nonneg hx] at this

theorem le {x : K} (hx : 0 ≤ x) : rd x ≤ (1 + u) * x := by
  have := (abs_le.mp (h.err hx)).2
  linarith

theorem ge {x : K} (hx : 0 ≤ x) : (1 - u) * x ≤ rd x := by
  have := (abs_le.mp (h.err hx)).1
  linarith

theorem pos (hu : u < 1) {x : K} (hx : 0 < x) : 0 < rd x :=
  lt_of_lt_of_le (mul_pos (by linarith) hx) (h.ge hx.le)

end IsRounding

/-! ## Accumulation, refreezing, melt -/

theorem addSnow_good (h : IsRounding u rd) {a : K} (ha : 0 ≤ a) {p : Pix K} (hp : Good p) : Good (addSnow rd a p) := by
  cases p with
  | nil => exact hp
  | cons L p =>
    have hL := hp L (by simp)
    exact Good.cons (h.nonneg (by linarith [hL.1])) hL.2 hp.tail

theorem addSnow_total (h : IsRounding u rd) {a : K} (ha : 0 ≤ a) {p : Pix K} (hp : Good p) (hne : p ≠ []) :
    |total (addSnow rd a p) - (total p + a)| ≤ u * (total p + a) := by
  cases p with
  | nil => exact absurd rfl hne
  | cons L p =>
    have hL := hp L (by simp)
    have ht := hp.tail.total
    have he := h.err (x := L.ice + a) (by linarith [hL.1])
    simp only [addSnow, total_cons]
    have e1 : rd (L.ice + a) + L.lwc + total p - (L.ice + L.lwc + total p + a) = rd (L.ice + a) - (L.ice + a) := by ring
    rw [e1]
    refine he.trans (mul_le_mul_of_nonneg_left ?_ h.u_nonneg)
    linarith [hL.2]

theorem abs_two {a b x y : K} (h1 : |a| ≤ x) (h2 : |b| ≤ y) : |a + b| ≤ x + y := (abs_add_le a b).trans (add_le_add h1 h2)

theorem refreezeLayer_spec (h : IsRounding u rd) (a : K) {L : W K} (h1 : 0 ≤ L.ice) (h2 : 0 ≤ L.lwc) :
    0 ≤ (refreezeLayer rd a L).ice ∧ 0 ≤ (refreezeLayer rd a L).lwc ∧
      |(refreezeLayer rd a L).ice + (refreezeLayer rd a L).lwc - (L.ice + L.lwc)| ≤ u * (L.ice + L.lwc) := by
  unfold refreezeLayer
  split_ifs with ha
  · have hm : 0 ≤ min L.lwc a := le_min h2 ha.le
    have hm' : min L.lwc a ≤ L.lwc := min_le_left _ _
    refine ⟨h.nonneg (by linarith), h.nonneg (by linarith), ?_⟩
    have e1 := h.err (x := L.ice + min L.lwc a) (by linarith)
    have e2 := h.err (x := L.lwc - min L.lwc a) (by linarith)
    have := abs_two e1 e2
    dsimp only
    calc |rd (L.ice + min L.lwc a) + rd (L.lwc - min L.lwc a) - (L.ice + L.lwc)|
        = |rd (L.ice + min L.lwc a) - (L.ice + min L.lwc a) + (rd (L.lwc - min L.lwc a) - (L.lwc - min L.lwc a))| := by
          congr 1; ring
      _ ≤ _ := this
      _ = _ := by ring
  · refine ⟨h1, h2, ?_⟩
    rw [sub_self, abs_zero]
    exact mul_nonneg h.u_nonneg (by linarith)

theorem refreeze_spec (h : IsRounding u rd) : ∀ (as : List K) (p : Pix K), Good p →
    Good (refreeze rd as p) ∧ |total (refreeze rd as p) - total p| ≤ u * total p := by
  intro as p
  induction p generalizing as with
  | nil => intro _; cases as <;> simp [refreeze, total, Good]
  | cons L p ih =>
    intro hp
    cases as with
    | nil =>
      simp only [refreeze, sub_self, abs_zero]
      exact ⟨hp, mul_nonneg h.u_nonneg hp.total⟩
    | cons a as =>
      obtain ⟨i1, i2⟩ := ih as hp.tail
      have hL := hp L (by simp)
      obtain ⟨r1, r2, r3⟩ := refreezeLayer_spec h a hL.1 hL.2
      refine ⟨Good.cons r1 r2 i1, ?_⟩
      simp only [refreeze, total_cons]
      have := abs_two r3 i2
      calc _ = |(refreezeLayer rd a L).ice + (refreezeLayer rd a L).lwc - (L.ice + L.lwc) +
            (total (refreeze rd as p) - total p)| := by congr 1; ring
        _ ≤ _ := this
        _ = _ := by ring

theorem meltLayer_spec (h : IsRounding u rd) (d : K) {L : W K} (h1 : 0 ≤ L.ice) (h2 : 0 ≤ L.lwc) :
    0 ≤ (meltLayer rd d L).2.ice ∧ 0 ≤ (meltLayer rd d L).2.lwc ∧
      |(meltLayer rd d L).2.ice + (meltLayer rd d L).2.lwc - (L.ice + L.lwc)| ≤ u * (L.ice + L.lwc) := by
  unfold meltLayer
  split_ifs with hd
  · have hm : 0 ≤ min d L.ice := le_min hd.1.le h1
    have hm' : min d L.ice ≤ L.ice := min_le_right _ _
    refine ⟨h.nonneg (by linarith), h.nonneg (by linarith), ?_⟩
    have e1 := h.err (x := L.ice - min d L.ice) (by linarith)
    have e2 := h.err (x := L.lwc + min d L.ice) (by linarith)
    have := abs_two e1 e2
    dsimp only
    calc |rd (L.ice - min d L.ice) + rd (L.lwc + min d L.ice) - (L.ice + L.lwc)|
        = |rd (L.ice - min d L.ice) - (L.ice - min d L.ice) + (rd (L.lwc + min d L.ice) - (L.lwc + min d L.ice))| := by
          congr 1; ring
      _ ≤ _ := this
      _ = _ := by ring
  · refine ⟨h1, h2, ?_⟩
    rw [sub_self, abs_zero]
    exact mul_nonneg h.u_nonneg (by linarith)

theorem melt_spec (h : IsRounding u rd) : ∀ (p : Pix K) (d : K), Good p →
    Good (melt rd d p) ∧ |total (melt rd d p) - total p| ≤ u * total p := by
  intro p
  induction p with
  | nil => intro d _; simp [melt, total, Good]
  | cons L p ih =>
    intro d hp
    obtain ⟨i1, i2⟩ := ih (meltLayer rd d L).1 hp.tail
    have hL := hp L (by simp)
    obtain ⟨r1, r2, r3⟩ := meltLayer_spec h d hL.1 hL.2
    refine ⟨Good.cons r1 r2 i1, ?_⟩
    simp only [melt, total_cons]
    have := abs_two r3 i2
    calc _ = |(meltLayer rd d L).2.ice + (meltLayer rd d L).2.lwc - (L.ice + L.lwc) +
          (total (melt rd (meltLayer rd d L).1 p) - total p)| := by congr 1; ring
      _ ≤ _ := this
      _ = _ := by ring

/-! ## Sublimation -/

/-- Exact sum of the ice. -/
def iceTotal (p : Pix K) : K := (p.map W.ice).sum

/-- Exact sum of the liquid water. -/
def lwcTotal (p : Pix K) : K := (p.map W.lwc).sum

theorem total_eq (p : Pix K) : total p = iceTotal p + lwcTotal p := by
  induction p with
  | nil => simp [total, iceTotal, lwcTotal]
  | cons L p ih =>
    rw [total_cons, ih]
    simp only [iceTotal, lwcTotal, List.map_cons, List.sum_cons]
    ring

theorem iceTotal_cons (L : W K) (p : Pix K) : iceTotal (L :: p) = L.ice + iceTotal p := by simp [iceTotal]

theorem Good.iceTotal {p : Pix K} (h : Good p) : 0 ≤ iceTotal p := by
  apply List.sum_nonneg
  intro x hx
  rw [List.mem_map] at hx
  obtain ⟨L, hL, rfl⟩ := hx
  exact (h L hL).1

theorem Good.lwcTotal {p : Pix K} (h : Good p) : 0 ≤ lwcTotal p := by
  apply List.sum_nonneg
  intro x hx
  rw [List.mem_map] at hx
  obtain ⟨L, hL, rfl⟩ := hx
  exact (h L hL).2

theorem sublLayer_spec (h : IsRounding u rd) {d : K} (hd : 0 ≤ d) {L : W K} (h1 : 0 ≤ L.ice) :
    0 ≤ (sublLayer rd d L).1 ∧ (sublLayer rd d L).1 ≤ (1 + u) * d ∧ 0 ≤ (sublLayer rd d L).2.ice ∧
      (sublLayer rd d L).2.lwc = L.lwc ∧ (0 < (sublLayer rd d L).1 → (sublLayer rd d L).2.ice = 0) ∧
      |(sublLayer rd d L).2.ice - (sublLayer rd d L).1 - (L.ice - d)| ≤ u * max d L.ice := by
  have hu := h.u_nonneg
  unfold sublLayer
  split_ifs with hc
  · dsimp only
    rcases le_total d L.ice with hl | hl
    · rw [min_eq_left hl, sub_self, h.zero]
      refine ⟨le_rfl, by positivity, h.nonneg (by linarith), rfl, fun h => absurd h (lt_irrefl _), ?_⟩
      rw [sub_zero, max_eq_right hl]
      exact (h.err (by linarith)).trans (mul_le_mul_of_nonneg_left (by linarith) hu)
    · rw [min_eq_right hl, sub_self, h.zero]
      refine ⟨h.nonneg (by linarith), ?_, le_rfl, rfl, fun _ => rfl, ?_⟩
      · refine (h.le (x := d - L.ice) (by linarith)).trans (mul_le_mul_of_nonneg_left (by linarith) (by linarith))
      · rw [max_eq_left hl]
        have := h.err (x := d - L.ice) (by linarith)
        calc |0 - rd (d - L.ice) - (L.ice - d)| = |rd (d - L.ice) - (d - L.ice)| := by rw [← abs_neg]; congr 1; ring
          _ ≤ u * (d - L.ice) := this
          _ ≤ u * d := mul_le_mul_of_nonneg_left (by linarith) hu
  · refine ⟨hd, by nlinarith, h1, rfl, fun h' => ?_, ?_⟩
    · dsimp only at h' ⊢
      by_contra hne
      exact hc ⟨h', lt_of_le_of_ne h1 (Ne.symm hne)⟩
    · dsimp only
      rw [sub_self, abs_zero]
      exact mul_nonneg hu (le_max_of_le_left hd)

theorem sublLoop_spec (h : IsRounding u rd) : ∀ (p : Pix K) (d A : K), 0 ≤ d → d ≤ A → Good p → (∀ L ∈ p, L.ice ≤ A) →
    0 ≤ (sublLoop rd d p).1 ∧ Good (sublLoop rd d p).2 ∧ lwcTotal (sublLoop rd d p).2 = lwcTotal p ∧
      (0 < (sublLoop rd d p).1 → iceTotal (sublLoop rd d p).2 = 0) ∧
      |iceTotal (sublLoop rd d p).2 - (sublLoop rd d p).1 - (iceTotal p - d)| ≤ p.length * u * (1 + u) ^ p.length * A := by
  have hu := h.u_nonneg
  intro p
  induction p with
  | nil => intro d A hd _ hp _; simp [sublLoop, iceTotal, lwcTotal, Good, hd]
  | cons L p ih =>
    intro d A hd hA hp hI
    have hL := hp L (by simp)
    have hLA := hI L (by simp)
    have hA0 : 0 ≤ A := hd.trans hA
    obtain ⟨s1, s2, s3, s4, s5, s6⟩ := sublLayer_spec h hd hL.1
    obtain ⟨i1, i2, i3, i4, i5⟩ := ih (sublLayer rd d L).1 ((1 + u) * A) s1
      (s2.trans (mul_le_mul_of_nonneg_left hA (by linarith))) hp.tail
      (fun M hM => (hI M (by simp [hM])).trans (by nlinarith))
    simp only [sublLoop]
    refine ⟨i1, Good.cons s3 (s4 ▸ hL.2) i2, ?_, ?_, ?_⟩
    · simp only [lwcTotal, List.map_cons, List.sum_cons, s4] at i3 ⊢
      rw [i3]
    · intro hpos
      rw [iceTotal_cons, i4 hpos, add_zero]
      apply s5
      by_contra hn
      have hz : (sublLayer rd d L).1 = 0 := le_antisymm (not_lt.mp hn) s1
      rw [hz] at hpos
      have hzero : ∀ q : Pix K, (sublLoop rd 0 q).1 = 0 := by
        intro q
        induction q with
        | nil => rfl
        | cons M q ihq => simp [sublLoop, sublLayer, ihq]
      rw [hzero] at hpos
      exact lt_irrefl _ hpos
    · rw [iceTotal_cons, iceTotal_cons]
      have e := abs_two s6 i5
      have e1 : max d L.ice ≤ A := max_le hA hLA
      have e2 : (1 : K) ≤ (1 + u) ^ (p.length + 1) := one_le_pow₀ (by linarith)
      calc _ = |(sublLayer rd d L).2.ice - (sublLayer rd d L).1 - (L.ice - d) +
            (iceTotal (sublLoop rd (sublLayer rd d L).1 p).2 - (sublLoop rd (sublLayer rd d L).1 p).1 -
              (iceTotal p - (sublLayer rd d L).1))| := by congr 1; ring
        _ ≤ _ := e
        _ ≤ u * (1 + u) ^ (p.length + 1) * A + p.length * u * (1 + u) ^ p.length * ((1 + u) * A) := by
          refine add_le_add ?_ le_rfl
          calc u * max d L.ice ≤ u * A := mul_le_mul_of_nonneg_left e1 hu
            _ = u * 1 * A := by ring
            _ ≤ _ := mul_le_mul_of_nonneg_right (mul_le_mul_of_nonneg_left e2 hu) hA0
        _ = _ := by
          simp only [List.length_cons]
          push_cast
          ring

theorem foldl_sum (h : IsRounding u rd) : ∀ (p : Pix K) (s : K), 0 ≤ s → Good p →
    0 ≤ p.foldl (fun s L => rd (s + L.ice)) s ∧
      p.foldl (fun s L => rd (s + L.ice)) s ≤ (1 + u) ^ p.length * (s + iceTotal p) := by
  have hu := h.u_nonneg
  intro p
  induction p with
  | nil => intro s hs _; simp [iceTotal, hs]
  | cons L p ih =>
    intro s hs hp
    have hL := hp L (by simp)
    obtain ⟨i1, i2⟩ := ih (rd (s + L.ice)) (h.nonneg (by linarith [hL.1])) hp.tail
    refine ⟨i1, i2.trans ?_⟩
    rw [iceTotal_cons, List.length_cons, pow_succ, mul_assoc]
    apply mul_le_mul_of_nonneg_left _ (by positivity)
    have := h.le (x := s + L.ice) (by linarith [hL.1])
    have ht := hp.tail.iceTotal
    nlinarith

theorem iceSum_spec (h : IsRounding u rd) {p : Pix K} (hp : Good p) :
    0 ≤ iceSum rd p ∧ iceSum rd p ≤ (1 + u) ^ p.length * iceTotal p := by
  have := foldl_sum h p 0 le_rfl hp
  rwa [zero_add] at this

theorem mem_le_iceTotal {p : Pix K} (hp : Good p) : ∀ L ∈ p, L.ice ≤ iceTotal p := by
  induction p with
  | nil => simp
  | cons M p ih =>
    intro L hL
    rw [iceTotal_cons]
    have hM := hp M (by simp)
    rw [List.mem_cons] at hL
    rcases hL with rfl | hL
    · linarith [hp.tail.iceTotal]
    · linarith [ih hp.tail L hL]

theorem sublLoop_neg {d : K} (hd : d ≤ 0) : ∀ p : Pix K, sublLoop rd d p = (d, p) := by
  intro p
  induction p with
  | nil => rfl
  | cons L p ih => simp [sublLoop, sublLayer, not_lt.mpr hd, ih]

theorem sublLoop_length : ∀ (p : Pix K) (d : K), (sublLoop rd d p).2.length = p.length := by
  intro p
  induction p with
  | nil => intro d; rfl
  | cons L p ih => intro d; simp [sublLoop, ih]

theorem addSnow_length (a : K) (p : Pix K) : (addSnow rd a p).length = p.length := by
  cases p <;> simp [addSnow]

theorem pow4 {u : K} (h0 : 0 ≤ u) (hu : u ≤ 1 / 1000) : (1 + u) ^ 4 ≤ 1 + 41 / 10 * u ∧ (1 + u) ^ 4 ≤ 1005 / 1000 := by
  have h2 : u * u ≤ u * (1 / 1000) := mul_le_mul_of_nonneg_left hu h0
  have h3 : u * u * u ≤ u * (1 / 1000) * (1 / 1000) := by
    refine mul_le_mul h2 hu h0 (by positivity)
  have h4 : u * u * u * u ≤ u * (1 / 1000) * (1 / 1000) * (1 / 1000) := mul_le_mul h3 hu h0 (by positivity)
  have e : (1 + u) ^ 4 = 1 + 4 * u + 6 * (u * u) + 4 * (u * u * u) + u * u * u * u := by ring
  constructor <;> rw [e] <;> linarith

/-- Sublimation of four layers: reported amount and change of the water agree up to 13 roundings of the whole water. -/
theorem sublimation_spec (h : IsRounding u rd) (hu : u ≤ 1 / 1000) (pot : K) {p : Pix K} (hp : Good p)
    (h4 : p.length = 4) :
    Good (sublimation rd pot p).2 ∧ (sublimation rd pot p).2.length = 4 ∧
      |total (sublimation rd pot p).2 + (sublimation rd pot p).1 - total p| ≤
        13 * u * (total p + -min (sublimation rd pot p).1 0) := by
  have h0 := h.u_nonneg
  obtain ⟨q1, q2⟩ := pow4 h0 hu
  obtain ⟨s1, s2⟩ := iceSum_spec h hp
  rw [h4] at s2
  have hI := hp.iceTotal
  have hl := hp.lwcTotal
  obtain ⟨d, hd⟩ : ∃ d, (if 0 < iceSum rd p then min pot (iceSum rd p) else 0) = d := ⟨_, rfl⟩
  have hdle : d ≤ iceSum rd p := by
    rw [← hd]
    split_ifs
    · exact min_le_right _ _
    · exact s1
  simp only [sublimation, hd]
  rcases lt_or_ge d 0 with hneg | hpos
  · rw [sublLoop_neg hneg.le, if_pos hneg]
    refine ⟨addSnow_good h (by linarith) hp, by simp only [addSnow_length]; exact h4, ?_⟩
    rw [min_eq_left hneg.le]
    have := addSnow_total h (a := -d) (by linarith) hp (by intro e; simp [e] at h4)
    calc |total (addSnow rd (-d) p) + d - total p| = |total (addSnow rd (-d) p) - (total p + -d)| := by congr 1; ring
      _ ≤ u * (total p + -d) := this
      _ ≤ _ := mul_le_mul_of_nonneg_right (by linarith) (by linarith [hp.total])
  · have hA : d ≤ 1005 / 1000 * iceTotal p := hdle.trans (s2.trans (mul_le_mul_of_nonneg_right q2 hI))
    obtain ⟨t1, t2, t3, t4, t5⟩ := sublLoop_spec h p d _ hpos hA hp
      (fun L hL => (mem_le_iceTotal hp L hL).trans (by linarith))
    rw [if_neg (not_lt.mpr t1)]
    refine ⟨t2, by rw [sublLoop_length]; exact h4, ?_⟩
    rw [min_eq_right hpos, neg_zero, add_zero, total_eq, total_eq, t3]
    have e5 : |iceTotal (sublLoop rd d p).2 - (sublLoop rd d p).1 - (iceTotal p - d)| ≤ 41 / 10 * u * iceTotal p := by
      refine t5.trans ?_
      rw [h4]
      push_cast
      have : (1 + u) ^ 4 * (1005 / 1000) ≤ 41 / 40 := by nlinarith
      calc 4 * u * (1 + u) ^ 4 * (1005 / 1000 * iceTotal p) = 4 * u * ((1 + u) ^ 4 * (1005 / 1000)) * iceTotal p := by ring
        _ ≤ 4 * u * (41 / 40) * iceTotal p :=
          mul_le_mul_of_nonneg_right (mul_le_mul_of_nonneg_left this (by linarith)) hI
        _ = _ := by ring
    have e6 : (sublLoop rd d p).1 ≤ 82 / 10 * u * iceTotal p := by
      rcases eq_or_lt_of_le t1 with hz | hpos'
      · rw [← hz]
        positivity
      · have hz := t4 hpos'
        rw [hz] at e5
        have := (abs_le.mp e5).1
        have hs : iceSum rd p ≤ (1 + 41 / 10 * u) * iceTotal p := s2.trans (mul_le_mul_of_nonneg_right q1 hI)
        linarith
    have e7 : |(sublLoop rd d p).1| ≤ 82 / 10 * u * iceTotal p := by rw [abs_of_nonneg t1]; exact e6
    calc |iceTotal (sublLoop rd d p).2 + lwcTotal p + d - (iceTotal p + lwcTotal p)| =
          |iceTotal (sublLoop rd d p).2 - (sublLoop rd d p).1 - (iceTotal p - d) + (sublLoop rd d p).1| := by congr 1; ring
      _ ≤ _ := abs_two e5 e7
      _ = 123 / 10 * u * iceTotal p := by ring
      _ ≤ 13 * u * (iceTotal p + lwcTotal p) := by
        refine mul_le_mul (by linarith) (by linarith) hI (by linarith)

/-! ## Runoff -/

theorem runoffLayer_spec (h : IsRounding u rd) (hu : u < 1) {r cap : K} (hr : 0 ≤ r) (hc : 0 ≤ cap) {L : W K}
    (h1 : 0 ≤ L.ice) (h2 : 0 ≤ L.lwc) :
    0 ≤ (runoffLayer rd r cap L).1 ∧ 0 ≤ (runoffLayer rd r cap L).2.ice ∧ 0 ≤ (runoffLayer rd r cap L).2.lwc ∧
      |(runoffLayer rd r cap L).1 + (runoffLayer rd r cap L).2.ice + (runoffLayer rd r cap L).2.lwc - (r + L.ice + L.lwc)| ≤
        u * (2 + u) * (r + L.ice + L.lwc) := by
  have h0 := h.u_nonneg
  unfold runoffLayer
  split_ifs with hw
  · have hl0 : 0 ≤ rd (L.lwc + r) := h.nonneg (by linarith)
    have ho : max (rd (rd (L.lwc + r) - cap)) 0 ≤ rd (L.lwc + r) := by
      apply max_le _ hl0
      calc rd (rd (L.lwc + r) - cap) ≤ rd (rd (L.lwc + r)) := h.mono (by linarith)
        _ = rd (L.lwc + r) := h.idem _
    have ho0 : 0 ≤ max (rd (rd (L.lwc + r) - cap)) 0 := le_max_right _ _
    refine ⟨ho0, h1, h.nonneg (by linarith), ?_⟩
    dsimp only
    have e1 := h.err (x := L.lwc + r) (by linarith)
    have e2 := h.err (x := rd (L.lwc + r) - max (rd (rd (L.lwc + r) - cap)) 0) (by linarith)
    have e3 := h.le (x := L.lwc + r) (by linarith)
    have e4 := abs_two e1 e2
    calc _ = |rd (L.lwc + r) - (L.lwc + r) + (rd (rd (L.lwc + r) - max (rd (rd (L.lwc + r) - cap)) 0) -
            (rd (L.lwc + r) - max (rd (rd (L.lwc + r) - cap)) 0))| := by congr 1; ring
      _ ≤ _ := e4
      _ ≤ u * (L.lwc + r) + u * ((1 + u) * (L.lwc + r)) :=
        add_le_add le_rfl (mul_le_mul_of_nonneg_left (by linarith) h0)
      _ = u * (2 + u) * (L.lwc + r) := by ring
      _ ≤ _ := mul_le_mul_of_nonneg_left (by linarith) (by positivity)
  · refine ⟨hr, h1, h2, ?_⟩
    rw [show r + L.ice + L.lwc - (r + L.ice + L.lwc) = 0 by ring, abs_zero]
    positivity

/-- A quantity that changes by at most `a` times itself and then by at most `b` times itself. -/
theorem chain {x y z a b : K} (ha : 0 ≤ a) (hb : 0 ≤ b) (hx : 0 ≤ x) (h1 : |y - x| ≤ a * x) (h2 : |z - y| ≤ b * y) :
    |z - x| ≤ ((1 + a) * (1 + b) - 1) * x := by
  have hy : y ≤ (1 + a) * x := by linarith [(abs_le.mp h1).2]
  calc |z - x| = |y - x + (z - y)| := by congr 1; ring
    _ ≤ a * x + b * y := abs_two h1 h2
    _ ≤ a * x + b * ((1 + a) * x) := add_le_add le_rfl (mul_le_mul_of_nonneg_left hy hb)
    _ = _ := by ring

theorem runoff_spec (h : IsRounding u rd) (hu : u < 1) : ∀ (p : Pix K) (r : K) (caps : List K), 0 ≤ r →
    (∀ c ∈ caps, 0 ≤ c) → Good p →
    0 ≤ (runoff rd r caps p).1 ∧ Good (runoff rd r caps p).2 ∧ (runoff rd r caps p).2.length = p.length ∧
      |(runoff rd r caps p).1 + total (runoff rd r caps p).2 - (r + total p)| ≤
        ((1 + u * (2 + u)) ^ p.length - 1) * (r + total p) := by
  have h0 := h.u_nonneg
  intro p
  induction p with
  | nil => intro r caps hr _ hp; simp [runoff, hr, hp]
  | cons L p ih =>
    intro r caps hr hc hp
    have hL := hp L (by simp)
    have hcap : 0 ≤ caps.headD 0 := by
      cases caps with
      | nil => simp
      | cons c cs => simpa using hc c (by simp)
    obtain ⟨s1, s2, s3, s4⟩ := runoffLayer_spec h hu hr hcap hL.1 hL.2
    obtain ⟨i1, i2, i3, i4⟩ := ih (runoffLayer rd r (caps.headD 0) L).1 caps.tail s1
      (fun c hc' => hc c (List.mem_of_mem_tail hc')) hp.tail
    simp only [runoff]
    refine ⟨i1, Good.cons s2 s3 i2, by rw [List.length_cons, List.length_cons, i3], ?_⟩
    rw [total_cons, total_cons]
    have ht := hp.tail.total
    obtain ⟨r1, hr1⟩ : ∃ r1, (runoffLayer rd r (caps.headD 0) L).1 = r1 := ⟨_, rfl⟩
    obtain ⟨L1, hL1⟩ : ∃ L1, (runoffLayer rd r (caps.headD 0) L).2 = L1 := ⟨_, rfl⟩
    rw [hr1, hL1] at s4
    rw [hr1] at i4 s1
    rw [hL1] at s2 s3
    rw [hr1, hL1]
    have c1 : |r1 + total p + (L1.ice + L1.lwc) - (r + total p + (L.ice + L.lwc))| ≤
        u * (2 + u) * (r + total p + (L.ice + L.lwc)) := by
      calc _ = |r1 + L1.ice + L1.lwc - (r + L.ice + L.lwc)| := by congr 1; ring
        _ ≤ _ := s4
        _ ≤ _ := mul_le_mul_of_nonneg_left (by linarith) (by positivity)
    have hk : (1 : K) ≤ (1 + u * (2 + u)) ^ p.length := one_le_pow₀ (by nlinarith)
    have c2 : |(runoff rd r1 caps.tail p).1 + total (runoff rd r1 caps.tail p).2 + (L1.ice + L1.lwc) -
        (r1 + total p + (L1.ice + L1.lwc))| ≤
        ((1 + u * (2 + u)) ^ p.length - 1) * (r1 + total p + (L1.ice + L1.lwc)) := by
      calc _ = |(runoff rd r1 caps.tail p).1 + total (runoff rd r1 caps.tail p).2 - (r1 + total p)| := by congr 1; ring
        _ ≤ _ := i4
        _ ≤ _ := mul_le_mul_of_nonneg_left (by linarith) (by linarith)
    have := chain (by positivity) (by linarith) (by linarith [hL.1, hL.2]) c1 c2
    calc _ = |(runoff rd r1 caps.tail p).1 + total (runoff rd r1 caps.tail p).2 + (L1.ice + L1.lwc) -
          (r + total p + (L.ice + L.lwc))| := by congr 1; ring
      _ ≤ _ := this
      _ = _ := by
        rw [List.length_cons, pow_succ]
        ring

/-! ## Layer updates -/

theorem refresh_eq (h : IsRounding u rd) (hu : u < 1) {L : W K} (h1 : 0 ≤ L.ice) (h2 : 0 ≤ L.lwc) : refresh rd L = L := by
  unfold refresh
  split_ifs with hz
  · have hs : L.ice + L.lwc ≤ 0 := by
      by_contra hn
      exact absurd (h.pos hu (not_le.mp hn)) (not_lt.mpr hz)
    have e1 : L.ice = 0 := by linarith
    have e2 : L.lwc = 0 := by linarith
    cases L
    simp_all
  · rfl

theorem transition_spec (h : IsRounding u rd) (pos : Bool) {a b : W K} (a1 : 0 ≤ a.ice) (a2 : 0 ≤ a.lwc) (b1 : 0 ≤ b.ice)
    (b2 : 0 ≤ b.lwc) :
    let r := transition rd pos a b
    0 ≤ r.1.ice ∧ 0 ≤ r.1.lwc ∧ 0 ≤ r.2.ice ∧ 0 ≤ r.2.lwc ∧
      |r.1.ice + r.1.lwc + (r.2.ice + r.2.lwc) - (a.ice + a.lwc + (b.ice + b.lwc))| ≤
        u * (a.ice + a.lwc + (b.ice + b.lwc)) := by
  have h0 := h.u_nonneg
  have hpos : 0 ≤ u * (a.ice + a.lwc + (b.ice + b.lwc)) := by positivity
  simp only [transition]
  split_ifs with hp ha hb
  · refine ⟨le_rfl, le_rfl, h.nonneg (by linarith), h.nonneg (by linarith), ?_⟩
    have e1 := h.err (x := b.ice + a.ice) (by linarith)
    have e2 := h.err (x := b.lwc + a.lwc) (by linarith)
    dsimp only
    calc _ = |rd (b.ice + a.ice) - (b.ice + a.ice) + (rd (b.lwc + a.lwc) - (b.lwc + a.lwc))| := by congr 1; ring
      _ ≤ _ := abs_two e1 e2
      _ = _ := by ring
  · refine ⟨le_rfl, le_rfl, a1, a2, ?_⟩
    have e1 : b.ice = 0 := by linarith
    have e2 : b.lwc = 0 := by linarith
    dsimp only
    rw [show 0 + 0 + (a.ice + a.lwc) - (a.ice + a.lwc + (b.ice + b.lwc)) = 0 by rw [e1, e2]; ring, abs_zero]
    exact hpos
  · refine ⟨le_rfl, le_rfl, b1, b2, ?_⟩
    have e1 : a.ice = 0 := by linarith
    have e2 : a.lwc = 0 := by linarith
    dsimp only
    rw [show 0 + 0 + (b.ice + b.lwc) - (a.ice + a.lwc + (b.ice + b.lwc)) = 0 by rw [e1, e2]; ring, abs_zero]
    exact hpos
  · refine ⟨a1, a2, b1, b2, ?_⟩
    dsimp only
    rw [sub_self, abs_zero]
    exact hpos

theorem updateLayers_spec (h : IsRounding u rd) (hu : u < 1) (t1 t2 t3 : Bool) {p : Pix K} (hp : Good p)
    (h4 : p.length = 4) :
    Good (updateLayers rd t1 t2 t3 p) ∧ (updateLayers rd t1 t2 t3 p).length = 4 ∧
      |total (updateLayers rd t1 t2 t3 p) - total p| ≤ ((1 + u) ^ 3 - 1) * total p := by
  have h0 := h.u_nonneg
  match p, h4 with
  | [n, o, f, i], _ =>
    have hn := hp n (by simp)
    have ho := hp o (by simp)
    have hf := hp f (by simp)
    have hi := hp i (by simp)
    simp only [updateLayers]
    rw [refresh_eq h hu hn.1 hn.2, refresh_eq h hu ho.1 ho.2, refresh_eq h hu hf.1 hf.2, refresh_eq h hu hi.1 hi.2]
    obtain ⟨a, ha⟩ : ∃ a, transition rd t1 n o = a := ⟨_, rfl⟩
    obtain ⟨b, hb⟩ : ∃ b, transition rd t2 a.2 f = b := ⟨_, rfl⟩
    obtain ⟨c, hc⟩ : ∃ c, transition rd t3 b.2 i = c := ⟨_, rfl⟩
    have sa := transition_spec h t1 hn.1 hn.2 ho.1 ho.2
    simp only [ha] at sa
    have sb := transition_spec h t2 sa.2.2.1 sa.2.2.2.1 hf.1 hf.2
    simp only [hb] at sb
    have sc := transition_spec h t3 sb.2.2.1 sb.2.2.2.1 hi.1 hi.2
    simp only [hc] at sc
    simp only [ha, hb, hc]
    obtain ⟨a1, a2, a3, a4, a5⟩ := sa
    obtain ⟨b1, b2, b3, b4, b5⟩ := sb
    obtain ⟨c1, c2, c3, c4, c5⟩ := sc
    refine ⟨Good.cons a1 a2 (Good.cons b1 b2 (Good.cons c1 c2 (Good.cons c3 c4 (by simp [Good])))), rfl, ?_⟩
    have tn : total ([] : Pix K) = 0 := by simp [total]
    simp only [total_cons, tn, add_zero]
    have d1 : |a.1.ice + a.1.lwc + (a.2.ice + a.2.lwc) + (f.ice + f.lwc) + (i.ice + i.lwc) -
        (n.ice + n.lwc + (o.ice + o.lwc) + (f.ice + f.lwc) + (i.ice + i.lwc))| ≤
        u * (n.ice + n.lwc + (o.ice + o.lwc) + (f.ice + f.lwc) + (i.ice + i.lwc)) := by
      calc _ = |a.1.ice + a.1.lwc + (a.2.ice + a.2.lwc) - (n.ice + n.lwc + (o.ice + o.lwc))| := by congr 1; ring
        _ ≤ _ := a5
        _ ≤ _ := mul_le_mul_of_nonneg_left (by linarith [hf.1, hf.2, hi.1, hi.2]) h0
    have d2 : |a.1.ice + a.1.lwc + (b.1.ice + b.1.lwc) + (b.2.ice + b.2.lwc) + (i.ice + i.lwc) -
        (a.1.ice + a.1.lwc + (a.2.ice + a.2.lwc) + (f.ice + f.lwc) + (i.ice + i.lwc))| ≤
        u * (a.1.ice + a.1.lwc + (a.2.ice + a.2.lwc) + (f.ice + f.lwc) + (i.ice + i.lwc)) := by
      calc _ = |b.1.ice + b.1.lwc + (b.2.ice + b.2.lwc) - (a.2.ice + a.2.lwc + (f.ice + f.lwc))| := by congr 1; ring
        _ ≤ _ := b5
        _ ≤ _ := mul_le_mul_of_nonneg_left (by linarith [hi.1, hi.2]) h0
    have d3 : |a.1.ice + a.1.lwc + (b.1.ice + b.1.lwc) + (c.1.ice + c.1.lwc) + (c.2.ice + c.2.lwc) -
        (a.1.ice + a.1.lwc + (b.1.ice + b.1.lwc) + (b.2.ice + b.2.lwc) + (i.ice + i.lwc))| ≤
        u * (a.1.ice + a.1.lwc + (b.1.ice + b.1.lwc) + (b.2.ice + b.2.lwc) + (i.ice + i.lwc)) := by
      calc _ = |c.1.ice + c.1.lwc + (c.2.ice + c.2.lwc) - (b.2.ice + b.2.lwc + (i.ice + i.lwc))| := by congr 1; ring
        _ ≤ _ := c5
        _ ≤ _ := mul_le_mul_of_nonneg_left (by linarith) h0
    have hx : 0 ≤ n.ice + n.lwc + (o.ice + o.lwc) + (f.ice + f.lwc) + (i.ice + i.lwc) := by
      linarith [hn.1, hn.2, ho.1, ho.2, hf.1, hf.2, hi.1, hi.2]
    have e12 := chain h0 h0 hx d1 d2
    have e := chain (by nlinarith) h0 hx e12 d3
    calc _ = |a.1.ice + a.1.lwc + (b.1.ice + b.1.lwc) + (c.1.ice + c.1.lwc) + (c.2.ice + c.2.lwc) -
        (n.ice + n.lwc + (o.ice + o.lwc) + (f.ice + f.lwc) + (i.ice + i.lwc))| := by congr 1; ring
      _ ≤ _ := e
      _ = _ := by ring

end Verif.Rounded
