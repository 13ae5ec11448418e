import Verif.Model.SoilWater
import Verif.Props.Evapo
import Mathlib.Tactic.Linarith
import Mathlib.Tactic.NormNum
import Mathlib.Tactic.Positivity
import Mathlib.Tactic.IntervalCases

/-!
# C107: soil water parameters
-/

set_option linter.unusedSectionVars false

namespace Verif.SoilWater

variable {K : Type*} [Field K] [LinearOrder K] [IsStrictOrderedRing K]

/-- Field capacity, wilting point, readily evaporable water and adjustment of a class. -/
theorem tables (t : ℤ) (h1 : 1 ≤ t) (h9 : t ≤ 9) : ∃ fc wp rew adj : K,
    fieldCapacity t = some fc ∧ wiltingPoint t = some wp ∧ readilyEvaporable t = some rew ∧
    depletionAdj t = some adj ∧ 0 < wp ∧ wp < fc ∧ 0 < rew ∧ 9 / 10 ≤ adj ∧ adj ≤ 11 / 10 ∧
    (5 ≤ t → adj ≤ 1) ∧ rew ≤ 1000 * (fc - 1 / 2 * wp) * (12 / 235) := by
  interval_cases t <;>
    refine ⟨_, _, _, _, rfl, rfl, rfl, rfl, ?_, ?_, ?_, ?_, ?_, ?_, ?_⟩ <;>
    first | norm_num | (intro h; exfalso; omega)

/-- **C107 (evaporation layer).** Total evaporable water exceeds readily evaporable water for every soil
texture class if the evaporation layer is deeper than 12/235 m (5.1 cm; the default is 12.5 cm). -/
theorem C107_evaporable_partial (depth : K) (hd : 12 / 235 < depth) (t : ℤ) (h1 : 1 ≤ t) (h9 : t ≤ 9)
    (lc : Option (Lc K)) (p : Px K) (h : setup depth t lc = some p) :
    ∃ tew rew, p.tew = some tew ∧ p.rew = some rew ∧ 0 < rew ∧ rew < tew := by
  obtain ⟨fc, wp, rew, adj, e1, e2, e3, e4, hwp, hfc, hrew, -, -, -, hb⟩ := tables (K := K) t h1 h9
  have hc : 0 < 1000 * (fc - 1 / 2 * wp) := by linarith
  have hlt : rew < 1000 * (fc - 1 / 2 * wp) * depth :=
    lt_of_le_of_lt hb (mul_lt_mul_of_pos_left hd hc)
  have ht : t > 0 := by omega
  refine ⟨1000 * (fc - 1 / 2 * wp) * depth, rew, ?_, ?_, hrew, hlt⟩
  all_goals
    rcases lc with - | ⟨- | df, - | rd⟩ <;>
      simp [setup, ht, e1, e2, e3, e4] at h <;> subst h <;> simp

/-- Specification: soil water characteristics of FAO-56, table 19: texture class, range of field capacity and of
wilting point in percent, range of readily evaporable water in mm, and the change of the depletion fraction with texture
in per mille (+10 % for the coarsest to -10 % for the finest class in equal steps). -/
def fao19 : List (ℤ × (ℕ × ℕ) × (ℕ × ℕ) × (ℕ × ℕ) × ℤ) :=
  [(1, (7, 17), (2, 7), (2, 7), 100), (2, (11, 19), (3, 10), (4, 8), 75), (3, (18, 28), (6, 16), (6, 10), 50),
   (4, (20, 30), (7, 17), (8, 10), 25), (5, (22, 36), (9, 21), (8, 11), 0), (6, (28, 36), (12, 22), (8, 11), -25),
   (7, (30, 37), (17, 24), (8, 11), -50), (8, (30, 42), (17, 29), (8, 12), -75), (9, (32, 40), (20, 24), (8, 12), -100)]

/-- **C107.** Total and readily evaporable water, total and readily available water of every texture class are those of
FAO-56 with the centres of the tabulated ranges, and the root zone starts at field capacity. -/
theorem C107_fao (depth df rd : K) (e : ℤ × (ℕ × ℕ) × (ℕ × ℕ) × (ℕ × ℕ) × ℤ) (he : e ∈ fao19) :
    let fc : K := ((e.2.1.1 : K) + e.2.1.2) / 200
    let wp : K := ((e.2.2.1.1 : K) + e.2.2.1.2) / 200
    let taw : K := 1000 * (fc - wp) * rd
    setup depth e.1 (some ⟨some df, some rd⟩) = some ⟨some (1000 * (fc - wp / 2) * depth),
      some (((e.2.2.2.1.1 : K) + e.2.2.2.1.2) / 2), some taw, some (df * (1 + (e.2.2.2.2 : K) / 1000) * taw),
      some 0⟩ := by
  simp only [fao19, List.mem_cons, List.not_mem_nil, or_false] at he
  rcases he with rfl | rfl | rfl | rfl | rfl | rfl | rfl | rfl | rfl <;>
    simp [setup, fieldCapacity, wiltingPoint, readilyEvaporable, depletionAdj] <;> norm_num <;>
    (try constructor) <;> ring

/-- **C107 fails for shallow evaporation layers** (the depth is not limited by the configuration schema): for
loamy sand and depths up to 12/235 m total does not exceed readily evaporable water. -/
theorem C107_evaporable_false (depth : K) (hd : depth ≤ 12 / 235) (lc : Option (Lc K)) (p : Px K)
    (h : setup depth 2 lc = some p) :
    ∃ tew rew, p.tew = some tew ∧ p.rew = some rew ∧ tew ≤ rew := by
  have hlt : 1000 * ((11 / 100 + 19 / 100) / 2 - 1 / 2 * ((3 / 100 + 10 / 100) / 2)) * depth
      ≤ (4 + 8) / 2 := by linarith
  refine ⟨_, _, ?_, ?_, hlt⟩
  all_goals
    rcases lc with - | ⟨- | df, - | rd⟩ <;>
      simp [setup, fieldCapacity, wiltingPoint, readilyEvaporable, depletionAdj] at h <;>
      subst h <;> simp

/-- **C107 (root zone).** For a positive rooting depth total available water is positive; readily available
water is non-negative for non-negative depletion fractions and at most the total available water for depletion
fractions up to 10/11, for silt loam and finer textures up to 1. The root zone is filled to field capacity at
the beginning. -/
theorem C107_available_partial (depth df rd : K) (hdf : 0 ≤ df) (hrd : 0 < rd) (t : ℤ) (h1 : 1 ≤ t)
    (h9 : t ≤ 9) : ∃ p taw raw, setup depth t (some ⟨some df, some rd⟩) = some p ∧
      p.taw = some taw ∧ p.raw = some raw ∧ p.dr = some 0 ∧ 0 < taw ∧ 0 ≤ raw ∧
      (df ≤ 10 / 11 → raw ≤ taw) ∧ (df < 10 / 11 → raw < taw) ∧ (5 ≤ t → df ≤ 1 → raw ≤ taw) := by
  obtain ⟨fc, wp, rew, adj, e1, e2, e3, e4, hwp, hfc, hrew, ha, ha', ha5, -⟩ := tables (K := K) t h1 h9
  have ht : t > 0 := by omega
  have htaw : 0 < 1000 * (fc - wp) * rd := mul_pos (by linarith) hrd
  have hadj : 0 ≤ adj := by linarith
  refine ⟨_, 1000 * (fc - wp) * rd, df * adj * (1000 * (fc - wp) * rd),
    by simp [setup, ht, e1, e2, e3, e4]; rfl, by simp, by simp, by simp, htaw, by positivity,
    ?_, ?_, ?_⟩
  · intro h
    have : df * adj ≤ 1 := by nlinarith
    nlinarith
  · intro h
    have : df * adj < 1 := by nlinarith
    nlinarith
  · intro h5 h
    have : df * adj ≤ 1 := by nlinarith [ha5 h5]
    nlinarith

/-- **C107 fails for coarse soils**: with a depletion fraction of 1 readily available water of a sandy soil
exceeds total available water. -/
theorem C107_available_false (depth rd : K) (hrd : 0 < rd) :
    ∃ p taw raw, setup depth 1 (some ⟨some 1, some rd⟩) = some p ∧ p.taw = some taw ∧
      p.raw = some raw ∧ taw < raw := by
  refine ⟨_, 1000 * ((7 / 100 + 17 / 100) / 2 - (2 / 100 + 7 / 100) / 2) * rd, _,
    by simp [setup, fieldCapacity, wiltingPoint, readilyEvaporable, depletionAdj]; rfl,
    rfl, rfl, ?_⟩
  nlinarith

/-- **C107 (no texture).** Pixels without a soil texture have no evapotranspiration parameters. -/
theorem C107_no_texture (depth : K) (t : ℤ) (h0 : t ≤ 0) (lc : Option (Lc K)) (p : Px K)
    (h : setup depth t lc = some p) :
    p.tew = none ∧ p.rew = none ∧ p.taw = none ∧ p.raw = none ∧ p.dr = none := by
  have ht : ¬ t > 0 := by omega
  rcases lc with - | ⟨- | df, - | rd⟩ <;> simp [setup, ht] at h <;> subst h <;> simp

/-- Pixels without land cover parameters have no readily available water. -/
theorem C107_no_land_cover (depth : K) (t : ℤ) (p : Px K) (h : setup depth t none = some p) :
    p.raw = none ∧ p.soil = none := by
  have hr : p.raw = none := by
    by_cases ht : t > 0
    · simp only [setup, ht, if_true] at h
      revert h
      cases fieldCapacity (K := K) t <;> cases wiltingPoint (K := K) t <;>
        cases readilyEvaporable (K := K) t <;> cases depletionAdj (K := K) t <;>
        simp
      rintro rfl
      rfl
    · simp [setup, ht] at h
      subst h
      rfl
  refine ⟨hr, ?_⟩
  simp only [Px.soil, hr]
  cases p.tew <;> cases p.rew <;> cases p.taw <;> rfl

/-- **C107 (classes).** The initialization raises exactly for unknown soil texture classes and for land cover
classes without a depletion fraction or rooting depth. -/
theorem C107_raises (depth : K) (t : ℤ) (lc : Option (Lc K)) :
    setup depth t lc = none ↔
      9 < t ∨ ∃ p, lc = some p ∧ (p.depletionFraction = none ∨ p.rootingDepth = none) := by
  by_cases ht : t > 0
  · by_cases h9 : t ≤ 9
    · obtain ⟨fc, wp, rew, adj, e1, e2, e3, e4, -⟩ := tables (K := K) t (by omega) h9
      have h9' : ¬ 9 < t := by omega
      rcases lc with - | ⟨- | df, - | rd⟩ <;> simp [setup, ht, e1, e2, e3, e4, h9']
    · have hfc : fieldCapacity (K := K) t = none := by
        unfold fieldCapacity
        split <;> first | omega | rfl
      have h9' : 9 < t := by omega
      rcases lc with - | ⟨- | df, - | rd⟩ <;> simp [setup, ht, hfc, h9']
  · have h9' : ¬ 9 < t := by omega
    rcases lc with - | ⟨- | df, - | rd⟩ <;> simp [setup, ht, h9']

/-- **C107 (runs).** With the parameters set up here, depletion fractions in [0, 10/11), positive rooting depth
and positive evaporation depth, runs of any length with single and dual crop coefficients succeed from the
initial state and keep both depletions between 0 and the available or evaporable water. -/
theorem C107_run (depth df rd : K) (hd : 0 < depth) (hdf : 0 ≤ df) (hdf' : df < 10 / 11) (hrd : 0 < rd)
    (t : ℤ) (h1 : 1 ≤ t) (h9 : t ≤ 9) (is : List (Evapo.EtIn K)) (hf : ∀ i ∈ is, i.few ≠ 0) :
    ∃ p s, setup depth t (some ⟨some df, some rd⟩) = some p ∧ p.soil = some s ∧
      (∃ st os, Evapo.runSteps (Evapo.singleStep s) Evapo.init is = some (st, os) ∧
        0 ≤ st.dr ∧ st.dr ≤ s.taw) ∧
      (∃ st os, Evapo.runSteps (Evapo.dualStep s) Evapo.init is = some (st, os) ∧
        0 ≤ st.dr ∧ st.dr ≤ s.taw ∧ 0 ≤ st.de ∧ st.de ≤ s.tew) := by
  obtain ⟨p, taw, raw, hp, ht, hr, -, h0, -, -, hlt, -⟩ :=
    C107_available_partial depth df rd hdf hrd t h1 h9
  have hq : ∃ tew rew, p.tew = some tew ∧ p.rew = some rew ∧ 0 ≤ tew := by
    obtain ⟨fc, wp, rew, adj, e1, e2, e3, e4, hwp, hfc, -⟩ := tables (K := K) t h1 h9
    have ht' : t > 0 := by omega
    simp [setup, ht', e1, e2, e3, e4] at hp
    subst hp
    refine ⟨_, _, rfl, rfl, ?_⟩
    have : 0 ≤ fc - 1 / 2 * wp := by linarith
    simp only [one_div] at this
    positivity
  obtain ⟨tew, rew, he, hw, h0e⟩ := hq
  refine ⟨p, ⟨tew, rew, taw, raw⟩, hp, by simp [Px.soil, he, hw, ht, hr], ?_, ?_⟩
  · obtain ⟨st, os, cut, hrun, -, hok, -⟩ := Evapo.C38_single_run ⟨tew, rew, taw, raw⟩ (hlt hdf') h0.le is
      Evapo.init (Evapo.init_ok _ h0e h0.le)
    exact ⟨st, os, hrun, hok.2.2.1, hok.2.2.2.1⟩
  · obtain ⟨st, os, cut, hrun, -, hok, -⟩ := Evapo.C38_dual_run ⟨tew, rew, taw, raw⟩ (hlt hdf') h0.le h0e is
      hf Evapo.init (Evapo.init_ok _ h0e h0.le)
    exact ⟨st, os, hrun, hok.2.2.1, hok.2.2.2.1, hok.1, hok.2.1⟩

/-- Non-vacuity: loam with the default evaporation depth, rooting depth 1 m and depletion fraction 0.5. -/
example : (setup (1 / 8 : ℚ) 4 (some ⟨some (1 / 2), some 1⟩)).map
    (fun p => (p.tew, p.rew, p.taw, p.raw, p.dr)) =
    some (some (95 / 4), some 9, some 130, some (1066 / 16), some 0) := by
  simp only [setup, fieldCapacity, wiltingPoint, readilyEvaporable, depletionAdj]
  norm_num

example : (12 / 235 : ℚ) < 1 / 8 ∧ (1 : ℤ) ≤ 4 ∧ (4 : ℤ) ≤ 9 ∧ (0 : ℚ) ≤ 1 / 2 ∧ (1 / 2 : ℚ) < 10 / 11 := by
  norm_num

end Verif.SoilWater
