import Verif.Model.Evapo
import Mathlib.Tactic.Linarith
import Mathlib.Tactic.Positivity
import Mathlib.Tactic.FieldSimp
import Mathlib.Tactic.Ring
import Mathlib.Tactic.NormNum

/-!
# C38–C40: soil water balance of the evapotranspiration model
-/

set_option linter.unusedSectionVars false

namespace Verif.Evapo

variable {K : Type*} [Field K] [LinearOrder K] [IsStrictOrderedRing K]

/-! ## C38 -/

/-- Specification: the books of the root zone over one time step. `d`, `d'` depletion before and
after, rain, evapotranspiration, percolation. -/
def RootBooks (taw d d' rain et dp : K) : Prop :=
  0 ≤ d' ∧ d' ≤ taw ∧ 0 ≤ dp ∧ (0 < dp → d' = 0) ∧
  (d - rain + et + dp ≤ taw → d' = d - rain + et + dp) ∧ (taw < d - rain + et + dp → d' = taw)

/-- **C38.** Root zone depletion stays within [0, total available water]; percolation is
non-negative and occurs only if the root zone is full; the change of depletion is evapotranspiration
plus percolation minus rain unless limited by the total available water. -/
theorem C38_root_zone (s : Soil K) (h : 0 ≤ s.taw) (dr rain et : K) :
    RootBooks s.taw dr (rootBalance s dr rain et).2 rain et (rootBalance s dr rain et).1 := by
  simp only [rootBalance]
  obtain ⟨dp, hdp⟩ : ∃ dp, max (rain - et - dr) 0 = dp := ⟨_, rfl⟩
  rw [hdp]
  have h0 : 0 ≤ dp := hdp ▸ le_max_right _ _
  have h1 : rain - et - dr ≤ dp := hdp ▸ le_max_left _ _
  have h2 : 0 ≤ dr - rain + et + dp := by linarith
  rw [max_eq_left h2]
  refine ⟨le_min h2 h, min_le_right _ _, h0, fun hp => ?_, fun hle => min_eq_left hle,
    fun hlt => min_eq_right hlt.le⟩
  have : dp = rain - et - dr := by
    rcases max_choice (rain - et - dr) 0 with e | e
    · rw [← hdp, e]
    · rw [hdp] at e; linarith
  rw [this, show dr - rain + et + (rain - et - dr) = 0 by ring]
  exact min_eq_left h

/-- **C38.** The water stress coefficient is in [0, 1], is 1 while the depletion does not exceed the
readily available water, and decreases with depletion. -/
theorem C38_stress (s : Soil K) (h : s.raw < s.taw) (d d' : K) (hd : d ≤ d') :
    ∃ k k', stress s d = some k ∧ stress s d' = some k' ∧ 0 ≤ k ∧ k ≤ 1 ∧ k' ≤ k ∧
      (d ≤ s.raw → k = 1) ∧ (s.raw < d → k < 1) ∧ (s.taw ≤ d → k = 0) ∧ (d < s.taw → 0 < k) := by
  have hp : 0 < s.taw - s.raw := by linarith
  unfold stress
  simp only [if_neg h.ne']
  refine ⟨_, _, rfl, rfl, le_min (le_max_right _ _) zero_le_one, min_le_right _ _, ?_, ?_, ?_, ?_, ?_⟩
  · have := div_le_div_of_nonneg_right (show s.taw - d' ≤ s.taw - d by linarith) hp.le
    exact min_le_min (max_le_max this le_rfl) le_rfl
  · intro hd
    refine min_eq_right (le_max_of_le_left ?_)
    rw [le_div_iff₀ hp]; linarith
  · intro hd
    refine min_lt_of_left_lt (max_lt ?_ zero_lt_one)
    rw [div_lt_one hp]; linarith
  · intro hd
    rw [max_eq_right (div_nonpos_of_nonpos_of_nonneg (by linarith) hp.le), min_eq_left zero_le_one]
  · intro hd
    exact lt_min (lt_max_of_lt_left (div_pos (by linarith) hp)) zero_lt_one

/-- **C38, C39.** Specification: admissible state. -/
def StOK (s : Soil K) (st : St K) : Prop :=
  0 ≤ st.de ∧ st.de ≤ s.tew ∧ 0 ≤ st.dr ∧ st.dr ≤ s.taw ∧ 0 ≤ st.dpe

theorem init_ok (s : Soil K) (h1 : 0 ≤ s.tew) (h2 : 0 ≤ s.taw) : StOK s (init : St K) :=
  ⟨le_rfl, h1, le_rfl, h2, le_rfl⟩

theorem stress_some (s : Soil K) (h : s.raw < s.taw) (d : K) :
    ∃ k, stress s d = some k ∧ 0 ≤ k ∧ k ≤ 1 := by
  obtain ⟨k, -, h1, -, h2, h3, -⟩ := C38_stress s h d d le_rfl
  exact ⟨k, h1, h2, h3⟩

theorem singleStep_spec (s : Soil K) (h1 : s.raw < s.taw) (h2 : 0 ≤ s.taw) (st : St K)
    (hst : StOK s st) (i : EtIn K) :
    ∃ st' o, singleStep s st i = some (st', o) ∧ StOK s st' ∧ o.dp = (rootBalance s st.dr (nn i.rain)
      o.et).1 ∧ st'.dr = (rootBalance s st.dr (nn i.rain) o.et).2 ∧ (i.snow = true → o.et = 0) ∧
      (0 ≤ i.kcb → 0 ≤ nn i.etRef → 0 ≤ o.et ∧ o.et ≤ i.kcb * nn i.etRef) := by
  obtain ⟨a, b, c, d, e⟩ := hst
  obtain ⟨k, hk, k0, k1⟩ := stress_some s h1 st.dr
  unfold singleStep
  cases hs : i.snow with
  | true =>
    have := C38_root_zone s h2 st.dr (nn i.rain) 0
    exact ⟨_, _, rfl, ⟨a, b, this.1, this.2.1, e⟩, rfl, rfl, fun _ => rfl,
      fun p q => ⟨le_rfl, mul_nonneg p q⟩⟩
  | false =>
    have := C38_root_zone s h2 st.dr (nn i.rain) (i.kcb * nn i.etRef * k)
    simp only [Bool.false_eq_true, if_false, hk, Option.map_some]
    exact ⟨_, _, rfl, ⟨a, b, this.1, this.2.1, e⟩, rfl, rfl, by simp,
      fun p q => ⟨mul_nonneg (mul_nonneg p q) k0, mul_le_of_le_one_right (mul_nonneg p q) k1⟩⟩

/-- **C38.** A whole run with a single crop coefficient: depletion stays in range at the end, and
cumulatively depletion = initial depletion - rain + ET + percolation - (amounts cut off by the total
available water, which are non-negative). -/
theorem C38_single_run (s : Soil K) (h1 : s.raw < s.taw) (h2 : 0 ≤ s.taw) (is : List (EtIn K))
    (st : St K) (hst : StOK s st) :
    ∃ st' os cut, runSteps (singleStep s) st is = some (st', os) ∧ os.length = is.length ∧
      StOK s st' ∧ 0 ≤ cut ∧
      st'.dr = st.dr - (is.map fun i => nn i.rain).sum + (os.map EtOut.et).sum +
        (os.map EtOut.dp).sum - cut := by
  induction is generalizing st with
  | nil => exact ⟨st, [], 0, rfl, rfl, hst, le_rfl, by simp⟩
  | cons i is ih =>
    obtain ⟨st1, o, e1, ok1, b1, b2, -⟩ := singleStep_spec s h1 h2 st hst i
    obtain ⟨st2, os, cut, e2, l2, ok2, c2, eq2⟩ := ih st1 ok1
    have rb := C38_root_zone s h2 st.dr (nn i.rain) o.et
    rw [← b1, ← b2] at rb
    have hcut : 0 ≤ st.dr - nn i.rain + o.et + o.dp - st1.dr := by
      rcases le_or_gt (st.dr - nn i.rain + o.et + o.dp) s.taw with c | c
      · rw [rb.2.2.2.2.1 c]; linarith
      · rw [rb.2.2.2.2.2 c]; linarith
    refine ⟨st2, o :: os, cut + (st.dr - nn i.rain + o.et + o.dp - st1.dr), ?_, by simp [l2], ok2,
      by linarith, ?_⟩
    · simp only [runSteps, e1, e2]
    · simp only [List.map_cons, List.sum_cons]
      linarith

theorem kr_range (s : Soil K) (de : K) (h : de ≤ s.tew) : 0 ≤ kr s de ∧ kr s de ≤ 1 := by
  unfold kr
  split_ifs with hc
  · have hp : 0 < s.tew - s.rew := by linarith
    exact ⟨div_nonneg (by linarith) hp.le, by rw [div_le_one hp]; linarith⟩
  · exact ⟨zero_le_one, le_rfl⟩

theorem dualStep_spec (s : Soil K) (h1 : s.raw < s.taw) (h2 : 0 ≤ s.taw) (h3 : 0 ≤ s.tew)
    (st : St K) (hst : StOK s st) (i : EtIn K) (hf : i.few ≠ 0) :
    ∃ st' o, dualStep s st i = some (st', o) ∧ StOK s st' ∧
      o.dp = (rootBalance s st.dr (nn i.rain) o.et).1 ∧
      st'.dr = (rootBalance s st.dr (nn i.rain) o.et).2 ∧ o.et = o.evap + o.transp ∧
      (i.snow = true → o.et = 0 ∧ st'.de = st.de) := by
  obtain ⟨a, b, c, d, e⟩ := hst
  obtain ⟨k, hk, k0, k1⟩ := stress_some s h1 st.dr
  unfold dualStep
  cases hs : i.snow with
  | true =>
    have := C38_root_zone s h2 st.dr (nn i.rain) 0
    exact ⟨_, _, rfl, ⟨a, b, this.1, this.2.1, e⟩, rfl, rfl, by simp, fun _ => ⟨rfl, rfl⟩⟩
  | false =>
    simp only [Bool.false_eq_true, if_false, hk, surfaceBalance, if_neg hf]
    have := C38_root_zone s h2 st.dr (nn i.rain)
      (ke s st.de i * nn i.etRef + i.kcb * nn i.etRef * k)
    exact ⟨_, _, rfl, ⟨le_min (le_max_right _ _) h3, min_le_right _ _, this.1, this.2.1,
      le_max_right _ _⟩, rfl, rfl, rfl, by simp⟩

/-- **C38, C39.** A whole run with dual crop coefficients: all state variables stay in range, and the
cumulative root zone balance holds as for the single coefficient. -/
theorem C38_dual_run (s : Soil K) (h1 : s.raw < s.taw) (h2 : 0 ≤ s.taw) (h3 : 0 ≤ s.tew)
    (is : List (EtIn K)) (hf : ∀ i ∈ is, i.few ≠ 0) (st : St K) (hst : StOK s st) :
    ∃ st' os cut, runSteps (dualStep s) st is = some (st', os) ∧ os.length = is.length ∧
      StOK s st' ∧ 0 ≤ cut ∧
      st'.dr = st.dr - (is.map fun i => nn i.rain).sum + (os.map EtOut.evap).sum +
        (os.map EtOut.transp).sum + (os.map EtOut.dp).sum - cut := by
  induction is generalizing st with
  | nil => exact ⟨st, [], 0, rfl, rfl, hst, le_rfl, by simp⟩
  | cons i is ih =>
    obtain ⟨st1, o, e1, ok1, b1, b2, b3, -⟩ :=
      dualStep_spec s h1 h2 h3 st hst i (hf i List.mem_cons_self)
    obtain ⟨st2, os, cut, e2, l2, ok2, c2, eq2⟩ :=
      ih (fun j hj => hf j (List.mem_cons_of_mem _ hj)) st1 ok1
    have rb := C38_root_zone s h2 st.dr (nn i.rain) o.et
    rw [← b1, ← b2] at rb
    have hcut : 0 ≤ st.dr - nn i.rain + o.et + o.dp - st1.dr := by
      rcases le_or_gt (st.dr - nn i.rain + o.et + o.dp) s.taw with c | c
      · rw [rb.2.2.2.2.1 c]; linarith
      · rw [rb.2.2.2.2.2 c]; linarith
    refine ⟨st2, o :: os, cut + (st.dr - nn i.rain + o.et + o.dp - st1.dr), ?_, by simp [l2], ok2,
      by linarith, ?_⟩
    · simp only [runSteps, e1, e2]
    · simp only [List.map_cons, List.sum_cons]
      linarith

/-- **C38.** Rain falling on a snow-covered pixel is credited to the root zone in the same time step,
although the snow model receives it as well. -/
theorem C38_rain_on_snow_witness (s : Soil K) (st : St K) (hst : StOK s st) (i : EtIn K)
    (hs : i.snow = true) (r : K) (hr : i.rain = some r) (h0 : 0 ≤ r) (hle : r ≤ st.dr) :
    ∃ o, singleStep s st i = some ({ st with dr := st.dr - r }, o) := by
  obtain ⟨a, b, c, d, e⟩ := hst
  unfold singleStep
  simp only [hs, if_true, hr, nn, Option.getD_some, rootBalance]
  have e1 : max (r - 0 - st.dr) 0 = 0 := max_eq_right (by linarith)
  have e2 : max (st.dr - r + 0 + 0) 0 = st.dr - r := by
    rw [add_zero, add_zero]; exact max_eq_left (by linarith)
  rw [e1, e2, min_eq_left (show st.dr - r ≤ s.taw by linarith)]
  exact ⟨_, rfl⟩

/-- A loam pixel with plausible parameters. -/
def exSoil : Soil ℚ := ⟨20, 9, 120, 60⟩
example : exSoil.raw < exSoil.taw ∧ 0 ≤ exSoil.taw ∧ StOK exSoil (init : St ℚ) := by
  norm_num [exSoil, StOK, init]
example : ∃ o, singleStep exSoil ⟨0, 0, 90⟩ ⟨false, some 4, some 1, 1, 1, 1⟩ =
    some (⟨0, 0, 91⟩, o) := by
  norm_num [singleStep, stress, exSoil, rootBalance, nn]

/-! ## C39 -/

/-- **C39.** The evaporation reduction coefficient is in [0, 1] in every state of every run. -/
theorem C39_reduction (s : Soil K) (h1 : s.raw < s.taw) (h2 : 0 ≤ s.taw) (h3 : 0 ≤ s.tew)
    (is : List (EtIn K)) (hf : ∀ i ∈ is, i.few ≠ 0) (st : St K) (os : List (EtOut K))
    (h : runSteps (dualStep s) init is = some (st, os)) :
    0 ≤ st.de ∧ st.de ≤ s.tew ∧ 0 ≤ kr s st.de ∧ kr s st.de ≤ 1 := by
  obtain ⟨st', os', cut, e, -, ok, -⟩ := C38_dual_run s h1 h2 h3 is hf init (init_ok s h3 h2)
  rw [h, Option.some.injEq, Prod.mk.injEq] at e
  obtain ⟨rfl, -⟩ := e
  exact ⟨ok.1, ok.2.1, kr_range s st.de ok.2.1⟩

/-- **C39.** The total crop coefficient does not exceed its upper limit, and evaporation is limited
by the exposed fraction. -/
theorem C39_total_coefficient (s : Soil K) (de : K) (h : de ≤ s.tew) (i : EtIn K)
    (hk : i.kcb ≤ i.kmax) : i.kcb + ke s de i ≤ i.kmax ∧ ke s de i ≤ i.few * i.kmax ∧
      (0 ≤ i.few → 0 ≤ i.kmax → 0 ≤ ke s de i) := by
  obtain ⟨k0, k1⟩ := kr_range s de h
  have hp : 0 ≤ i.kmax - i.kcb := by linarith
  have h1 : ke s de i ≤ kr s de * (i.kmax - i.kcb) := min_le_left _ _
  have h2 : kr s de * (i.kmax - i.kcb) ≤ i.kmax - i.kcb := mul_le_of_le_one_left hp k1
  exact ⟨by linarith, min_le_right _ _, fun a b => le_min (mul_nonneg k0 hp) (mul_nonneg a b)⟩

/-- **C39.** The upper limit exceeds the basal coefficient. -/
theorem C39_max_coefficient (cc kcb : K) : kcb < maxCropCoeff cc kcb := by
  unfold maxCropCoeff
  refine lt_max_of_lt_right ?_
  have : (0 : K) < 5 / 100 := by norm_num
  linarith

/-- **C39.** For classes that are not sparse the exposed fraction is positive, so that no division
by zero occurs, and is the complement of the vegetated fraction, provided the off-season coefficient is below the
basal or the upper limit. -/
theorem C39_exposed (kcb kmin cc height : ℝ) (hh : 0 ≤ height)
    (hk : kmin + 1 / 100 < maxCropCoeff cc kcb) :
    0 < vegFrac kcb kmin (maxCropCoeff cc kcb) height ∧
      0 < exposedFrac (vegFrac kcb kmin (maxCropCoeff cc kcb) height) ∧
      exposedFrac (vegFrac kcb kmin (maxCropCoeff cc kcb) height) < 1 ∧
      vegFrac kcb kmin (maxCropCoeff cc kcb) height +
        exposedFrac (vegFrac kcb kmin (maxCropCoeff cc kcb) height) = 1 := by
  have hm := C39_max_coefficient cc kcb
  obtain ⟨km, hkm⟩ : ∃ km, maxCropCoeff cc kcb = km := ⟨_, rfl⟩
  rw [hkm] at hk hm ⊢
  have hd : 0 < km - kmin := by linarith
  have hnum : 0 < max (kcb - kmin) (1 / 100) := lt_max_of_lt_right (by norm_num)
  have hlt : max (kcb - kmin) (1 / 100) / (km - kmin) < 1 := by
    rw [div_lt_one hd]
    exact max_lt (by linarith) (by linarith)
  have hpos := div_pos hnum hd
  have v0 : 0 < vegFrac kcb kmin km height := Real.rpow_pos_of_pos hpos _
  have v1 : vegFrac kcb kmin km height < 1 :=
    Real.rpow_lt_one hpos.le hlt (by linarith)
  refine ⟨v0, lt_min (by linarith) one_pos, min_lt_of_left_lt (by linarith), ?_⟩
  rw [exposedFrac, min_eq_left (by linarith)]
  ring

/-- **C39.** Expected of eq. (77)/(79): a rain that exceeds the depletion refills the layer. -/
def Refills (s : Soil K) : Prop :=
  ∀ (st : St K) (i : EtIn K) (st' : St K) (o : EtOut K) (r : K), StOK s st → i.snow = false →
    i.rain = some r → st.de ≤ r → i.etRef = some 0 → 0 < i.few →
    dualStep s st i = some (st', o) → st'.de = 0

/-- **C39.** False of the code: after a dry period, a rain of any size leaves the depletion as it is,
as the same amount is booked as percolation. -/
theorem C39_refill_false (s : Soil K) (h1 : s.raw < s.taw) (h2 : 0 ≤ s.taw) (h3 : 0 < s.tew) :
    ¬ Refills s := by
  intro h
  obtain ⟨k, hk, -, -⟩ := stress_some s h1 0
  have := h ⟨s.tew, 0, 0⟩ ⟨false, some 0, some (s.tew + 1), 0, 1, 1⟩ ⟨s.tew, s.tew + 1, 0⟩
    ⟨0, 0, 0, s.tew + 1⟩ (s.tew + 1) ⟨h3.le, le_rfl, le_rfl, h2, le_rfl⟩ rfl rfl
    (by simp) rfl one_pos (by
      have p : (0 : K) ≤ s.tew + 1 := by linarith
      simp only [dualStep, Bool.false_eq_true, if_false, nn, Option.getD_some, mul_zero, hk,
        surfaceBalance, one_ne_zero, rootBalance, sub_zero, zero_mul, add_zero, zero_div, zero_sub,
        zero_add]
      rw [max_eq_left p]
      simp only [neg_add_cancel, max_self, sub_add_cancel]
      rw [max_eq_left h3.le, min_eq_left h2, min_self])
  simp only at this
  linarith

/-- **C39 (what holds).** Rain after a dry step (no percolation booked) does not change the depletion
of the evaporation layer at all, whatever its amount. -/
theorem C39_rain_after_dry_partial (s : Soil K) (st st' : St K) (hst : StOK s st) (i : EtIn K)
    (o : EtOut K) (hdry : st.dpe = 0) (r : K) (hr : i.rain = some r) (h0 : 0 ≤ r)
    (he : i.etRef = some 0) (h : dualStep s st i = some (st', o)) : st'.de = st.de := by
  simp only [dualStep] at h
  split at h
  · simp only [Option.some.injEq, Prod.mk.injEq] at h
    rw [← h.1]
  · split at h
    · rename_i hsb hks
      simp only [Option.some.injEq, Prod.mk.injEq] at h
      simp only [surfaceBalance, hr, he, nn, Option.getD_some, mul_zero, zero_div, hdry, sub_zero,
        add_zero] at hsb
      split_ifs at hsb
      simp only [Option.some.injEq, Prod.mk.injEq] at hsb
      rw [← h.1]
      simp only
      rw [← hsb.2, max_eq_left h0, sub_add_cancel, max_eq_left hst.1, min_eq_left hst.2.1]
    · cases h

/-- **C39.** A class with a vegetation fraction of one has no exposed soil: the depletion becomes
undefined. -/
theorem C39_full_cover_witness (s : Soil K) (st : St K) (i : EtIn K) (hs : i.snow = false)
    (hf : i.few = 0) : dualStep s st i = none := by
  simp [dualStep, hs, surfaceBalance, hf]

example : ∃ o, dualStep exSoil ⟨15, 0, 30⟩ ⟨false, some 4, some 50, 1, 6/5, 1/2⟩ =
    some (⟨173/11, 50, 0⟩, o) := by
  norm_num [dualStep, stress, exSoil, rootBalance, nn, surfaceBalance, ke, kr]

/-! ## C40 -/

/-- **C40.** Sealed surfaces, one step: balance and bounds. -/
theorem C40_step (maxInt int : K) (hm : 0 ≤ maxInt) (h0 : 0 ≤ int) (h1 : int ≤ maxInt)
    (i : SealedIn K) :
    let p := sealedStep maxInt int i
    (0 ≤ p.1 ∧ p.1 ≤ maxInt) ∧ 0 ≤ p.2.dp ∧ 0 ≤ p.2.evap ∧ p.2.evap ≤ int ∧
    (∀ r, i.rain = some r → 0 < r → p.2.evap = 0) ∧
    (∀ r, i.snow = false → i.rain = some r → 0 ≤ r → p.1 - int = r - p.2.dp - p.2.evap) ∧
    (0 < p.2.dp → p.1 = maxInt) := by
  have dry : ∀ pot : Option K, (0 ≤ int - min (max (nn pot) 0) int ∧
      int - min (max (nn pot) 0) int ≤ maxInt) ∧ 0 ≤ min (max (nn pot) 0) int ∧
      min (max (nn pot) 0) int ≤ int := by
    intro pot
    have a : min (max (nn pot) 0) int ≤ int := min_le_right _ _
    have b : 0 ≤ min (max (nn pot) 0) int := le_min (le_max_right _ _) h0
    exact ⟨⟨by linarith, by linarith⟩, b, a⟩
  simp only [sealedStep]
  cases hs : i.snow with
  | true =>
    simp only [if_true]
    exact ⟨⟨h0, h1⟩, le_rfl, le_rfl, h0, by simp, by simp, fun h => absurd h (lt_irrefl _)⟩
  | false =>
    simp only [Bool.false_eq_true, if_false]
    cases hr : i.rain with
    | none =>
      obtain ⟨a, b, c⟩ := dry i.pot
      exact ⟨a, le_rfl, b, c, by simp, by simp, fun h => absurd h (lt_irrefl _)⟩
    | some r =>
      simp only
      by_cases hp : 0 < r
      · simp only [hp, if_true]
        have a : 0 ≤ max (int + r - maxInt) 0 := le_max_right _ _
        have b : int + r - maxInt ≤ max (int + r - maxInt) 0 := le_max_left _ _
        have c : max (int + r - maxInt) 0 ≤ int + r := max_le (by linarith) (by linarith)
        refine ⟨⟨by linarith, by linarith⟩, a, le_rfl, h0, by simp, ?_, ?_⟩
        · intro r' _ hr' _
          rw [Option.some.injEq] at hr'
          subst hr'
          ring
        · intro h
          rcases max_choice (int + r - maxInt) 0 with e | e
          · rw [e]; ring
          · rw [e] at h; exact absurd h (lt_irrefl _)
      · simp only [hp, if_false]
        obtain ⟨a, b, c⟩ := dry i.pot
        refine ⟨a, le_rfl, b, c, ?_, ?_, fun h => absurd h (lt_irrefl _)⟩
        · intro r' hr' h'
          rw [Option.some.injEq] at hr'
          subst hr'
          exact absurd h' hp
        · intro r' _ hr' h'
          rw [Option.some.injEq] at hr'
          subst hr'
          have : r = 0 := le_antisymm (not_lt.mp hp) h'
          rw [this]; ring

/-- **C40.** Every run of a sealed pixel: the interception stays in range, and over snow-free steps
with non-negative rain the water is balanced. -/
theorem C40_run (maxInt : K) (hm : 0 ≤ maxInt) (is : List (SealedIn K)) (int : K) (h0 : 0 ≤ int)
    (h1 : int ≤ maxInt) :
    (0 ≤ (sealedRun maxInt int is).1 ∧ (sealedRun maxInt int is).1 ≤ maxInt) ∧
    ((∀ i ∈ is, i.snow = false ∧ ∃ r, i.rain = some r ∧ 0 ≤ r) →
      int + (is.map fun i => nn i.rain).sum = (sealedRun maxInt int is).1 +
        ((sealedRun maxInt int is).2.map SealedOut.dp).sum +
        ((sealedRun maxInt int is).2.map SealedOut.evap).sum) := by
  induction is generalizing int with
  | nil => exact ⟨⟨h0, h1⟩, by simp [sealedRun]⟩
  | cons i is ih =>
    obtain ⟨⟨a, b⟩, -, -, -, -, c, -⟩ := C40_step maxInt int hm h0 h1 i
    obtain ⟨d, e⟩ := ih _ a b
    refine ⟨d, fun hall => ?_⟩
    obtain ⟨hs, r, hr, hr0⟩ := hall i List.mem_cons_self
    have e' := e fun j hj => hall j (List.mem_cons_of_mem _ hj)
    have c' := c r hs hr hr0
    simp only [sealedRun, List.map_cons, List.sum_cons]
    simp only [hr, nn, Option.getD_some] at e' ⊢
    linarith

example : sealedRun (2 : ℚ) 0 [⟨false, some 3, none⟩, ⟨false, some 0, some (1/2)⟩] =
    (3/2, [⟨0, 1⟩, ⟨1/2, 0⟩]) := by norm_num [sealedRun, sealedStep, nn]

end Verif.Evapo
