import Verif.Model.Canopy
import Mathlib.Tactic.Linarith
import Mathlib.Tactic.Positivity
import Mathlib.Tactic.FieldSimp
import Mathlib.Tactic.Ring
import Mathlib.Tactic.NormNum
import Mathlib.Algebra.BigOperators.Group.List.Lemmas
import Mathlib.Data.List.Rotate

/-!
# C35–C37: canopy
-/

namespace Verif.Canopy

/-! ## C35 -/

/-- Specification: the snow books of one time step are balanced and within bounds. -/
def Balanced (load : ℝ) (i : SnowIn) (o : SnowOut) : Prop :=
  o.load = load + o.intercepted - o.subl - o.melt ∧
  o.snowfall = i.snowfall - o.intercepted + o.melt ∧
  o.precip = o.snowfall + i.rainfall ∧
  0 ≤ o.intercepted ∧ o.intercepted ≤ i.snowfall ∧ 0 ≤ o.subl ∧ 0 ≤ o.melt ∧
  0 ≤ o.load ∧ o.load ≤ i.cap ∧ 0 ≤ o.snowfall

theorem fill_bounds {s c : ℝ} (hs : 0 ≤ s) (hc : 0 < c) :
    0 ≤ 1 - Real.exp (-s / c) ∧ 1 - Real.exp (-s / c) < 1 ∧ 1 - Real.exp (-s / c) ≤ s / c := by
  have h1 : Real.exp (-s / c) ≤ 1 := by
    rw [Real.exp_le_one_iff, neg_div]
    have := div_nonneg hs hc.le
    linarith
  have h2 := Real.exp_pos (-s / c)
  have h3 := Real.add_one_le_exp (-s / c)
  have h4 : -s / c = -(s / c) := neg_div c s
  refine ⟨by linarith, by linarith, ?_⟩
  rw [h4] at h3 ⊢
  linarith

/-- **C35.** If the load does not exceed the capacity, the canopy snow books are balanced. -/
theorem C35_step (c : SnowCfg) (load : ℝ) (i : SnowIn) (hddf : 0 ≤ c.ddf) (hdt : 0 ≤ c.dt)
    (hcap : 0 < i.cap) (hl0 : 0 ≤ load) (hl : load ≤ i.cap) (hs : 0 ≤ i.snowfall) :
    ∃ o, snowStep c load i = some o ∧ Balanced load i o := by
  obtain ⟨f0, f1, f2⟩ := fill_bounds hs hcap
  unfold snowStep fillFactor
  rw [if_neg hcap.ne']
  simp only [Option.map_some]
  obtain ⟨f, hf⟩ : ∃ f, 1 - Real.exp (-i.snowfall / i.cap) = f := ⟨_, rfl⟩
  rw [hf] at f0 f1 f2 ⊢
  refine ⟨_, rfl, ?_⟩
  obtain ⟨nl, hnl⟩ : ∃ nl, load + 7 / 10 * (i.cap - load) * f = nl := ⟨_, rfl⟩
  rw [hnl]
  have hgap : 0 ≤ (i.cap - load) * f := mul_nonneg (by linarith) f0
  have hnl0 : load ≤ nl := by nlinarith
  have hnl1 : nl ≤ i.cap := by
    have : (i.cap - load) * f ≤ (i.cap - load) * 1 := mul_le_mul_of_nonneg_left f1.le (by linarith)
    nlinarith
  have hint : max (nl - load) 0 = nl - load := max_eq_left (by linarith)
  have hint2 : nl - load ≤ i.snowfall := by
    have a : (i.cap - load) * f ≤ i.cap * f := mul_le_mul_of_nonneg_right (by linarith) f0
    have b : i.cap * f ≤ i.cap * (i.snowfall / i.cap) := mul_le_mul_of_nonneg_left f2 hcap.le
    rw [mul_div_cancel₀ _ hcap.ne'] at b
    nlinarith
  obtain ⟨e, he⟩ : ∃ e, (if 0 < nl then c.expCoeff * (nl / i.cap) ^ (-(4 : ℝ) / 10) else 0) = e :=
    ⟨_, rfl⟩
  rw [he, hint]
  obtain ⟨su, hsu⟩ : ∃ su, max (min (-e * nl * i.rate * c.dt) nl) 0 = su := ⟨_, rfl⟩
  have hsu0 : 0 ≤ su := hsu ▸ le_max_right _ _
  have hsu1 : su ≤ nl := by
    rw [← hsu]
    exact max_le (min_le_right _ _) (by linarith)
  rw [hsu]
  obtain ⟨pm, hpm⟩ : ∃ pm, c.ddf * max (i.temp - T0) 0 * c.dt / (3600 * 24) = pm := ⟨_, rfl⟩
  have hpm0 : 0 ≤ pm := by rw [← hpm]; positivity
  rw [hpm]
  have hm0 : 0 ≤ min pm (nl - su) := le_min hpm0 (by linarith)
  have hm1 : min pm (nl - su) ≤ nl - su := min_le_right _ _
  refine ⟨?_, ?_, rfl, ?_, ?_, ?_, ?_, ?_, ?_, ?_⟩
  · show nl - su - min pm (nl - su) = load + (nl - load) - su - min pm (nl - su)
    ring
  · rfl
  · show 0 ≤ nl - load
    linarith
  · exact hint2
  · exact hsu0
  · exact hm0
  · show 0 ≤ nl - su - min pm (nl - su)
    linarith
  · show nl - su - min pm (nl - su) ≤ i.cap
    linarith
  · show 0 ≤ i.snowfall - (nl - load) + min pm (nl - su)
    linarith

/-- **C35.** Over every history in which the capacity does not decrease, the load stays in range and
snow is conserved: initial load + snowfall above = final load + snowfall at the ground +
sublimation. -/
theorem C35_run (c : SnowCfg) (hddf : 0 ≤ c.ddf) (hdt : 0 ≤ c.dt) (is : List SnowIn) (load : ℝ)
    (hl0 : 0 ≤ load) (hl : ∀ i ∈ is, load ≤ i.cap) (hcap : is.Pairwise fun a b => a.cap ≤ b.cap)
    (hin : ∀ i ∈ is, 0 < i.cap ∧ 0 ≤ i.snowfall) :
    ∃ l os, snowRun c load is = some (l, os) ∧ 0 ≤ l ∧ os.length = is.length ∧
      load + (is.map SnowIn.snowfall).sum =
        l + (os.map SnowOut.snowfall).sum + (os.map SnowOut.subl).sum := by
  induction is generalizing load with
  | nil => exact ⟨load, [], rfl, hl0, rfl, by simp⟩
  | cons i is ih =>
    obtain ⟨hc, hs⟩ := hin i List.mem_cons_self
    obtain ⟨o, ho, b1, b2, -, -, -, -, -, b3, b4, -⟩ :=
      C35_step c load i hddf hdt hc hl0 (hl i List.mem_cons_self) hs
    obtain ⟨hc1, hc2⟩ := List.pairwise_cons.mp hcap
    obtain ⟨l, os, h1, h2, h3, h4⟩ := ih o.load b3 (fun j hj => b4.trans (hc1 j hj)) hc2
      (fun j hj => hin j (List.mem_cons_of_mem _ hj))
    refine ⟨l, o :: os, by simp only [snowRun, ho, h1], h2, by simp [h3], ?_⟩
    simp only [List.map_cons, List.sum_cons]
    linarith

/-- **C35.** If the capacity has dropped below the load and it snows, snow vanishes: the load after
the step, the snow at the ground and the sublimated snow together are less than before. -/
theorem C35_capacity_drop_false (c : SnowCfg) (load : ℝ) (i : SnowIn) (hcap : 0 < i.cap)
    (hl : i.cap < load) (hs : 0 < i.snowfall) :
    ∃ o, snowStep c load i = some o ∧ o.intercepted = 0 ∧
      o.load + o.snowfall + o.subl < load + i.snowfall := by
  have f0 : 0 < 1 - Real.exp (-i.snowfall / i.cap) := by
    have : Real.exp (-i.snowfall / i.cap) < 1 := by
      rw [Real.exp_lt_one_iff, neg_div]
      have := div_pos hs hcap
      linarith
    linarith
  unfold snowStep fillFactor
  rw [if_neg hcap.ne']
  simp only [Option.map_some]
  obtain ⟨f, hf⟩ : ∃ f, 1 - Real.exp (-i.snowfall / i.cap) = f := ⟨_, rfl⟩
  rw [hf] at f0 ⊢
  refine ⟨_, rfl, ?_⟩
  have hneg : 7 / 10 * (i.cap - load) * f < 0 := by
    have : 0 < (load - i.cap) * f := mul_pos (by linarith) f0
    nlinarith
  have hi : max (load + 7 / 10 * (i.cap - load) * f - load) 0 = 0 := max_eq_right (by linarith)
  refine ⟨hi, ?_⟩
  simp only [hi]
  linarith

/-- **C35.** Without leaf area (capacity zero) a step without snowfall makes the load undefined. -/
theorem C35_zero_capacity_witness (c : SnowCfg) (load : ℝ) (i : SnowIn) (hcap : i.cap = 0)
    (hs : i.snowfall = 0) : snowStep c load i = none := by
  simp [snowStep, fillFactor, hcap, hs]

/-- **C35.** No canopy melt at or below the melting point. -/
theorem C35_no_melt_when_cold (c : SnowCfg) (load : ℝ) (i : SnowIn) (hcap : 0 < i.cap)
    (hl0 : 0 ≤ load) (hl : load ≤ i.cap) (hs : 0 ≤ i.snowfall) (hddf : 0 ≤ c.ddf) (hdt : 0 ≤ c.dt)
    (ht : i.temp ≤ T0) : ∃ o, snowStep c load i = some o ∧ o.melt = 0 := by
  obtain ⟨o, ho, b1, b2, -, -, -, -, b5, b3, b4, -⟩ := C35_step c load i hddf hdt hcap hl0 hl hs
  refine ⟨o, ho, le_antisymm ?_ b5⟩
  unfold snowStep fillFactor at ho
  rw [if_neg hcap.ne'] at ho
  simp only [Option.map_some, Option.some.injEq] at ho
  rw [← ho]
  simp only
  rw [max_eq_right (show i.temp - T0 ≤ 0 by linarith)]
  exact (min_le_left _ _).trans (by simp)

/-- A forest pixel with some load, in snowfall above freezing. -/
example : (0 : ℝ) ≤ (⟨1 / 100, 5, 3600⟩ : SnowCfg).ddf ∧ (0 : ℝ) < (⟨22, 3, 0, -1, 274⟩ : SnowIn).cap ∧
    (4 : ℝ) ≤ (⟨22, 3, 0, -1, 274⟩ : SnowIn).cap := by norm_num

/-! ## C36 -/

/-- The buffer read from the oldest entry on. -/
def Ring.view {K : Type*} (r : Ring K) : List (Option K) := r.buf.rotate r.idx

/-- Specification: the last `n` elements of a history that starts with an unlimited past of missing
values. -/
def lastN {K : Type*} (n : ℕ) (hist : List (Option K)) : List (Option K) :=
  (List.replicate n none ++ hist).drop hist.length

theorem push_view {K : Type*} (r : Ring K) (t : Option K) (h : r.idx < r.buf.length) :
    (r.push t).view = r.view.tail ++ [t] ∧ (r.push t).buf.length = r.buf.length ∧
      (r.push t).idx < (r.push t).buf.length := by
  obtain ⟨buf, idx⟩ := r
  simp only at h
  have hlen : (buf.set idx t).length = buf.length := List.length_set
  refine ⟨?_, hlen, ?_⟩
  · simp only [Ring.push, Ring.view, hlen]
    have h1 : (buf.set idx t).rotate (if idx + 1 = buf.length then 0 else idx + 1) =
        (buf.set idx t).rotate (idx + 1) := by
      split_ifs with e
      · have : (buf.set idx t).rotate (idx + 1) = (buf.set idx t).rotate (buf.set idx t).length := by
          rw [hlen, e]
        rw [this, List.rotate_length, List.rotate_zero]
      · rfl
    rw [h1, List.rotate_eq_drop_append_take (by rw [hlen]; omega),
      List.rotate_eq_drop_append_take h.le]
    have d1 : (buf.set idx t).drop (idx + 1) = buf.drop (idx + 1) := by
      rw [List.drop_set, if_pos (by omega)]
    have d2 : (buf.set idx t).take (idx + 1) = buf.take idx ++ [t] := by
      rw [List.take_add_one, List.take_set, List.getElem?_set_self h]
      rw [List.set_eq_of_length_le (by rw [List.length_take]; omega)]
      rfl
    rw [d1, d2]
    have d3 : buf.drop idx = buf[idx] :: buf.drop (idx + 1) := List.drop_eq_getElem_cons h
    rw [d3, List.cons_append, List.tail_cons, List.append_assoc]
  · simp only [Ring.push, hlen]
    split_ifs <;> omega

theorem ringSize_pos (dt : ℕ) : 0 < ringSize dt := by unfold ringSize; omega

theorem run_view {K : Type*} (dt : ℕ) (hist : List (Option K)) :
    (hist.foldl Ring.push (ringInit K dt)).view = lastN (ringSize dt) hist ∧
    (hist.foldl Ring.push (ringInit K dt)).buf.length = ringSize dt ∧
    (hist.foldl Ring.push (ringInit K dt)).idx < ringSize dt := by
  induction hist using List.reverseRecOn with
  | nil => simp [ringInit, Ring.view, lastN, ringSize_pos]
  | append_singleton hs t ih =>
    obtain ⟨h1, h2, h3⟩ := ih
    rw [List.foldl_append, List.foldl_cons, List.foldl_nil]
    obtain ⟨p1, p2, p3⟩ := push_view (hs.foldl Ring.push (ringInit K dt)) t (by rw [h2]; exact h3)
    refine ⟨?_, p2.trans h2, by rw [p2, h2] at p3; exact p3⟩
    rw [p1, h1]
    unfold lastN
    rw [List.length_append, List.length_singleton, ← List.append_assoc]
    have hl : hs.length + 1 ≤ (List.replicate (ringSize dt) (none : Option K) ++ hs).length := by
      rw [List.length_append, List.length_replicate]
      have := ringSize_pos dt
      omega
    rw [List.drop_append_of_le_length hl, List.tail_drop]

theorem nanmean_perm {K : Type*} [Field K] [DecidableEq K] {a b : List (Option K)} (h : a.Perm b) :
    nanmean a = nanmean b := by
  unfold nanmean
  have := h.filterMap id
  simp only [this.length_eq, this.sum_eq]

/-- **C36.** After every history of temperatures (with gaps), the 24 h mean is the mean of the
available temperatures among the last N ones. -/
theorem C36_mean_of_last_day {K : Type*} [Field K] [DecidableEq K] (dt : ℕ)
    (hist : List (Option K)) :
    nanmean (hist.foldl Ring.push (ringInit K dt)).buf =
      (let xs := (hist.drop (hist.length - ringSize dt)).filterMap id
       if xs = [] then none else some (xs.sum / xs.length)) := by
  obtain ⟨h1, h2, h3⟩ := run_view dt hist
  have hp : (hist.foldl Ring.push (ringInit K dt)).buf.Perm (lastN (ringSize dt) hist) := by
    rw [← h1]; exact (List.rotate_perm _ _).symm
  rw [nanmean_perm hp]
  have key : (lastN (ringSize dt) hist).filterMap id =
      (hist.drop (hist.length - ringSize dt)).filterMap id := by
    unfold lastN
    rcases Nat.le_total hist.length (ringSize dt) with h | h
    · rw [List.drop_append_of_le_length (by simpa using h), List.filterMap_append,
        Nat.sub_eq_zero_of_le h, List.drop_zero]
      have : ∀ n : ℕ, (List.replicate n (none : Option K)).filterMap id = [] := by
        intro n
        induction n with
        | zero => rfl
        | succ n ih => simpa [List.replicate_succ] using ih
      rw [List.drop_replicate, this, List.nil_append]
    · have : List.drop hist.length (List.replicate (ringSize dt) none ++ hist) =
          List.drop (hist.length - ringSize dt) hist := by
        rw [List.drop_append, List.length_replicate,
          List.drop_eq_nil_of_le (by simpa using h), List.nil_append]
      rw [this]
  unfold nanmean
  simp only [key, List.length_eq_zero_iff]

/-- **C36.** For time steps that divide a day, N is the number of time steps per day. -/
theorem C36_buffer_size (dt n : ℕ) (hn : 0 < n) (h : n * dt = 86400) : ringSize dt = n := by
  have hdt : 0 < dt := by
    rcases Nat.eq_zero_or_pos dt with e | e
    · rw [e] at h; omega
    · exact e
  unfold ringSize
  have e : 24 * 3600 / dt = n := by
    rw [show 24 * 3600 = n * dt by omega]
    exact Nat.mul_div_cancel n hdt
  rw [e]
  omega

example : nanmean ([some 1, none, some 3, some 5, some (7 : ℚ)].foldl Ring.push
    (ringInit ℚ 28800)).buf = some 5 := by
  norm_num [nanmean, ringInit, ringSize, Ring.push, List.replicate, List.filterMap]

/-! ## C37 -/

/-- **C37.** The canopy fraction is in [0, 1] and increases with the leaf area index. -/
theorem C37_canopy_fraction (a b : ℝ) (h : a ≤ b) :
    0 ≤ canopyFrac a ∧ canopyFrac a ≤ 1 ∧ canopyFrac a ≤ canopyFrac b := by
  have r : ∀ x, 0 ≤ canopyFrac x ∧ canopyFrac x ≤ 1 := by
    intro x
    unfold canopyFrac
    split_ifs
    · exact ⟨le_rfl, zero_le_one⟩
    · exact ⟨le_min (le_max_right _ _) zero_le_one, min_le_right _ _⟩
  refine ⟨(r a).1, (r a).2, ?_⟩
  by_cases ha : a ≤ 0
  · rw [show canopyFrac a = 0 by simp [canopyFrac, ha]]
    exact (r b).1
  · rw [not_le] at ha
    unfold canopyFrac
    rw [if_neg (not_le.mpr ha), if_neg (not_le.mpr (ha.trans_le h))]
    have := Real.log_le_log ha h
    exact min_le_min (max_le_max (by linarith) le_rfl) le_rfl

/-- **C37.** Radiation and wind are not larger, relative humidity not smaller inside the canopy. -/
theorem C37_bounds (c : MetCfg) (lai mean24 : ℝ) (m : Met) (hlai : 0 ≤ lai)
    (hk : 0 ≤ c.extinction) (hf : 0 ≤ c.flowCoeff) (hsw : 0 ≤ m.sw) (hw : 0 ≤ m.wind)
    (hr0 : 0 ≤ m.relHum) (hr1 : m.relHum ≤ 100) :
    (0 ≤ (metStep c lai mean24 m).sw ∧ (metStep c lai mean24 m).sw ≤ m.sw) ∧
    (0 ≤ (metStep c lai mean24 m).wind ∧ (metStep c lai mean24 m).wind ≤ m.wind) ∧
    (m.relHum ≤ (metStep c lai mean24 m).relHum ∧ (metStep c lai mean24 m).relHum ≤ 100) := by
  obtain ⟨c0, c1, -⟩ := C37_canopy_fraction lai lai le_rfl
  have e1 : Real.exp (-c.extinction * lai) ≤ 1 := by
    rw [Real.exp_le_one_iff]
    have := mul_nonneg hk hlai
    linarith
  have e2 : Real.exp (-(4 / 10) * (c.flowCoeff * lai)) ≤ 1 := by
    rw [Real.exp_le_one_iff]
    have := mul_nonneg hf hlai
    linarith
  simp only [metStep]
  refine ⟨⟨mul_nonneg hsw (Real.exp_pos _).le, ?_⟩, ⟨mul_nonneg hw (Real.exp_pos _).le, ?_⟩, ?_, ?_⟩
  · exact mul_le_of_le_one_right hsw e1
  · exact mul_le_of_le_one_right hw e2
  · refine le_min (le_max_of_le_left ?_) hr1
    have := mul_nonneg hr0 c0
    linarith
  · exact min_le_right _ _

/-- **C37.** Longwave radiation inside the canopy lies between the one above and the emission of the
canopy at its temperature; the temperature lies between the one above and the fully shaded one. -/
theorem C37_mixing (c : MetCfg) (lai mean24 : ℝ) (m : Met) :
    (min m.lw (sigma * (metStep c lai mean24 m).temp ^ 4) ≤ (metStep c lai mean24 m).lw ∧
      (metStep c lai mean24 m).lw ≤ max m.lw (sigma * (metStep c lai mean24 m).temp ^ 4)) ∧
    ∃ shaded, |shaded - (c.tempScale * m.temp + (1 - c.tempScale) * mean24)| ≤ 2 ∧
      min m.temp shaded ≤ (metStep c lai mean24 m).temp ∧
      (metStep c lai mean24 m).temp ≤ max m.temp shaded := by
  obtain ⟨c0, c1, -⟩ := C37_canopy_fraction lai lai le_rfl
  have mix : ∀ (f a b : ℝ), 0 ≤ f → f ≤ 1 →
      min a b ≤ (1 - f) * a + f * b ∧ (1 - f) * a + f * b ≤ max a b := by
    intro f a b h0 h1
    constructor
    · have := mul_le_mul_of_nonneg_left (min_le_left a b) (sub_nonneg.mpr h1)
      have := mul_le_mul_of_nonneg_left (min_le_right a b) h0
      nlinarith
    · have := mul_le_mul_of_nonneg_left (le_max_left a b) (sub_nonneg.mpr h1)
      have := mul_le_mul_of_nonneg_left (le_max_right a b) h0
      nlinarith
  constructor
  · have := mix (canopyFrac lai) m.lw (sigma * (metStep c lai mean24 m).temp ^ 4) c0 c1
    simp only [metStep] at this ⊢
    rw [← mul_assoc] at this
    exact this
  · refine ⟨c.tempScale * (m.temp - mean24) + mean24 - min (max ((mean24 - T0) / 3) (-2)) 2, ?_, ?_⟩
    · rw [abs_le]
      have h1 : min (max ((mean24 - T0) / 3) (-2)) 2 ≤ 2 := min_le_right _ _
      have h2 : -2 ≤ min (max ((mean24 - T0) / 3) (-2)) (2 : ℝ) :=
        le_min (le_max_right _ _) (by norm_num)
      constructor <;> linarith
    · have := mix (canopyFrac lai) m.temp
        (c.tempScale * (m.temp - mean24) + mean24 - min (max ((mean24 - T0) / 3) (-2)) 2) c0 c1
      simp only [metStep]
      refine ⟨this.1.trans (le_of_eq (by ring)), (le_of_eq (by ring)).trans this.2⟩

/-- **C37.** With several forest pixels of which some, but not all, lack temperatures over the last
24 h, the array shapes do not fit and the step fails. -/
theorem C37_gap_false (means : List (Option ℝ)) (h1 : 1 < means.length) (h2 : none ∈ means) :
    shapesFit means = false := by
  unfold shapesFit
  have : (means.filter Option.isSome).length < means.length := by
    rw [List.length_filter_lt_length_iff_exists]
    exact ⟨none, h2, by simp⟩
  simp only [Bool.or_eq_false_iff, decide_eq_false_iff_not]
  omega

example : (0 : ℝ) ≤ 5 ∧ shapesFit [some 270, some 271] = true ∧ shapesFit [some 270, none] = false := by
  refine ⟨by norm_num, by simp [shapesFit], by simp [shapesFit]⟩

end Verif.Canopy
