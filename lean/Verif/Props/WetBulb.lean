import Verif.Lemmas.WetBulb
import Verif.Props.DerivedMeteo
import Verif.Model.WetBulbGrid

/-!
# C128: the wet-bulb iteration always ends
-/

namespace Verif.WetBulb

open Verif.Atmosphere

section aux

variable {ψ tc e : ℝ}

/-- The saturation vapor pressure of the model in terms of its continuous part. -/
theorem svp_eq {t : ℝ} (h : -200 ≤ t) : svp (Atmosphere.T0 + t) = some (cont t - eta t) := by
  unfold svp cont eta
  rw [show Atmosphere.T0 + t - Atmosphere.T0 = t by ring]
  by_cases h0 : 0 ≤ t
  · rw [if_pos h0, if_pos h0, if_pos h0, svpOver_some _ (by rw [show Atmosphere.T0 + t - Atmosphere.T0 = t by ring]; exact cpos h),
      show Atmosphere.T0 + t - Atmosphere.T0 = t by ring]
    simp [val]
  · rw [if_neg h0, if_neg h0, if_neg h0, svpOver_some _ (by rw [show Atmosphere.T0 + t - Atmosphere.T0 = t by ring]; exact cpos h),
      show Atmosphere.T0 + t - Atmosphere.T0 = t by ring]
    simp [val]

theorem vpDiff_eq {t : ℝ} (h : -200 ≤ t) :
    vpDiff (Atmosphere.T0 + tc) (Atmosphere.T0 + t) e ψ = some (-res ψ tc e t) := by
  simp only [vpDiff, svp_eq h, Option.map_some, res, bal]
  congr 1
  ring

/-- One round of the loop. -/
theorem iter_step {w p x : ℝ} (h : Air ψ tc e w) (hp : Pair tc w p x) (n : ℕ) :
    wetBulbIter (Atmosphere.T0 + tc) e ψ (1 / 100) (n + 1) (Atmosphere.T0 + p) (Atmosphere.T0 + x)
        (-res ψ tc e p) (-res ψ tc e x) =
      if |delta ψ tc e p x| ≤ 1 / 100 then some (some (Atmosphere.T0 + x))
      else wetBulbIter (Atmosphere.T0 + tc) e ψ (1 / 100) n (Atmosphere.T0 + x)
        (Atmosphere.T0 + (x - delta ψ tc e p x)) (-res ψ tc e x) (-res ψ tc e (x - delta ψ tc e p x)) := by
  obtain ⟨h1, -, -, -, h5⟩ := secant_step h hp
  have hd : (Atmosphere.T0 + x - (Atmosphere.T0 + p)) / (-res ψ tc e x - -res ψ tc e p) * -res ψ tc e x =
      delta ψ tc e p x := by
    unfold delta
    rw [show Atmosphere.T0 + x - (Atmosphere.T0 + p) = x - p by ring,
      show -res ψ tc e x - -res ψ tc e p = -(res ψ tc e x - res ψ tc e p) by ring, div_neg, neg_mul_neg]
  simp only [wetBulbIter, hd]
  rw [if_neg (by intro h; apply h1; linarith)]
  by_cases hc : |delta ψ tc e p x| ≤ 1 / 100
  · rw [if_pos hc, if_pos hc]
  · rw [if_neg hc, if_neg hc]
    have hpair := h5 (not_le.mp hc)
    rw [show Atmosphere.T0 + x - delta ψ tc e p x = Atmosphere.T0 + (x - delta ψ tc e p x) by ring,
      vpDiff_eq (by linarith [hpair.down, h.w_ge])]

/-- The loop ends with a value close to the root. -/
def Ends (ψ tc e w : ℝ) (n : ℕ) (p x : ℝ) : Prop :=
  ∃ r, wetBulbIter (Atmosphere.T0 + tc) e ψ (1 / 100) n (Atmosphere.T0 + p) (Atmosphere.T0 + x)
      (-res ψ tc e p) (-res ψ tc e x) = some (some (Atmosphere.T0 + r)) ∧ |r - w| ≤ 14 / 100

theorem ends_near {w : ℝ} (h : Air ψ tc e w) : ∀ (n : ℕ) (p x : ℝ), Pair tc w p x → |p - w| ≤ 1 / 2 →
    |x - w| ≤ 1 / 2 → |x - w| ≤ 4 / 1000 + 1 / 1000 * (5 / 2) ^ n → Ends ψ tc e w (n + 1) p x
  | 0, p, x, hp, h1, h2, h3 => by
    obtain ⟨-, -, k3, k4, -⟩ := secant_step h hp
    have hc : |delta ψ tc e p x| ≤ 1 / 100 := by
      have := k3 h1 h2
      have h4 := abs_sub_abs_le_abs_sub (delta ψ tc e p x) (x - w)
      have h5 : |delta ψ tc e p x - (x - w)| = |x - delta ψ tc e p x - w| := by
        rw [← abs_neg]; congr 1; ring
      norm_num at h3
      linarith
    refine ⟨x, ?_, k4 hc⟩
    rw [iter_step h hp, if_pos hc]
  | n + 1, p, x, hp, h1, h2, h3 => by
    obtain ⟨-, -, k3, k4, k5⟩ := secant_step h hp
    by_cases hc : |delta ψ tc e p x| ≤ 1 / 100
    · exact ⟨x, by rw [iter_step h hp, if_pos hc], k4 hc⟩
    · have k6 := k3 h1 h2
      have := ends_near h n x _ (k5 (not_le.mp hc)) h2 (by linarith) (by
        rw [pow_succ] at h3
        linarith)
      unfold Ends at this ⊢
      rw [iter_step h hp, if_neg hc]
      exact this

theorem ends_far {w : ℝ} (h : Air ψ tc e w) : ∀ (n : ℕ) (p x : ℝ), Pair tc w p x →
    |x - w| ≤ 32 / 1000 + 468 / 1000 * (40 / 37) ^ n → Ends ψ tc e w (n + 9) p x
  | 0, p, x, hp, h3 => by
    obtain ⟨-, k2, -, k4, k5⟩ := secant_step h hp
    by_cases hc : |delta ψ tc e p x| ≤ 1 / 100
    · exact ⟨x, by rw [iter_step h hp, if_pos hc], k4 hc⟩
    · norm_num at h3
      have := ends_near h 7 x _ (k5 (not_le.mp hc)) (by linarith) (by linarith) (by norm_num; linarith)
      unfold Ends at this ⊢
      rw [iter_step h hp, if_neg hc]
      exact this
  | n + 1, p, x, hp, h3 => by
    obtain ⟨-, k2, -, k4, k5⟩ := secant_step h hp
    by_cases hc : |delta ψ tc e p x| ≤ 1 / 100
    · exact ⟨x, by rw [show n + 1 + 9 = n + 9 + 1 by ring, iter_step h hp, if_pos hc], k4 hc⟩
    · have := ends_far h n x _ (k5 (not_le.mp hc)) (by
        rw [pow_succ] at h3
        linarith)
      unfold Ends at this ⊢
      rw [show n + 1 + 9 = n + 9 + 1 by ring, iter_step h hp, if_neg hc]
      exact this

theorem exists_root (hψ : 30 ≤ ψ) (hc : -50 ≤ tc) (hh : tc ≤ 50) (he : 0 ≤ e) (hs : e ≤ cont tc) :
    ∃ w, Air ψ tc e w := by
  have h0 : bal ψ tc e (-200) ≤ 0 := by
    have h1 := cont_mono (u := -200) (v := 0) le_rfl (by norm_num)
    have h2 : cont 0 = 61078 / 100 := by norm_num [cont, val, Over.a]
    simp only [bal]
    nlinarith
  have h1 : 0 ≤ bal ψ tc e tc := by simp only [bal]; linarith
  have hcont : ContinuousOn (bal ψ tc e) (Set.Icc (-200) tc) := by
    unfold bal
    exact ((cont_continuousOn.mono fun x hx => hx.1).add (by fun_prop)).sub continuousOn_const
  obtain ⟨w, hw, hr⟩ := intermediate_value_Icc (by linarith : (-200 : ℝ) ≤ tc) hcont ⟨h0, h1⟩
  exact ⟨w, hψ, hc, hh, he, hr, hw.2, hw.1⟩

theorem start_pair {w : ℝ} (h : Air ψ tc e w) : Pair tc w (tc - 10) tc := by
  have h1 := h.le
  refine ⟨le_max_left _ _, by linarith, ?_, fun _ h2 => absurd h2 (not_lt.mpr h1), ?_⟩
  · rcases le_or_gt 0 (tc - 10 - w) with h2 | h2
    · exact Or.inl ⟨h2, le_trans (by linarith) (le_max_left _ _)⟩
    · exact Or.inr ⟨by linarith, h2, by linarith⟩
  · rw [show tc - (tc - 10) = 10 by ring]
    norm_num

theorem res_sign {w t : ℝ} (h : Air ψ tc e w) (ht : -200 ≤ t) :
    (t ≤ w → res ψ tc e t ≤ ψ * (t - w)) ∧ (w ≤ t → ψ * (t - w) - 7 / 100 ≤ res ψ tc e t) := by
  have hr := h.root
  have he := eta_range t
  simp only [res, bal] at hr ⊢
  constructor
  · intro h1
    have := cont_mono ht h1
    nlinarith
  · intro h1
    have := cont_mono h.ge h1
    nlinarith

end aux

/-- Specification: the psychrometric balance at a wet-bulb temperature `t`: vapor pressure at saturation minus the vapor
pressure supported by the cooling from the air temperature to `t`. `none` where the vapor pressure is undefined. -/
noncomputable def balance (temp e psych t : ℝ) : Option ℝ := (svp t).map fun s => s - (e + psych * (temp - t))

/-- **C128.** The loop ends after at most 69 rounds, whatever the input, with a temperature 0.15 K above which the
psychrometric balance is positive, 0.15 K below which it is negative, and which exceeds the air temperature by at most
0.15 K; it is not below -72 °C. -/
theorem C128_terminates (temp e psych s : ℝ) (n : ℕ) (hn : 69 ≤ n) (hc : Atmosphere.T0 - 50 ≤ temp)
    (hh : temp ≤ Atmosphere.T0 + 50) (hp : 30 ≤ psych) (he : 0 ≤ e) (hs : svp temp = some s) (hes : e ≤ s) :
    ∃ r, wetBulb n temp e psych = some (some r) ∧ Atmosphere.T0 - 72 ≤ r ∧ r ≤ temp + 15 / 100 ∧
      (∀ t, r + 15 / 100 ≤ t → ∃ b, balance temp e psych t = some b ∧ 0 < b) ∧
      (∀ t, Atmosphere.T0 - 200 ≤ t → t ≤ r - 15 / 100 → ∃ b, balance temp e psych t = some b ∧ b < 0) := by
  obtain ⟨tc, rfl⟩ : ∃ tc, temp = Atmosphere.T0 + tc := ⟨temp - Atmosphere.T0, by ring⟩
  have hc' : -50 ≤ tc := by linarith
  have hh' : tc ≤ 50 := by linarith
  rw [svp_eq (by linarith), Option.some.injEq] at hs
  obtain ⟨w, hA⟩ := exists_root hp hc' hh' he (by linarith [(eta_range tc).1])
  obtain ⟨m, rfl⟩ : ∃ m, n = m + 9 := ⟨n - 9, by omega⟩
  have hm : 60 ≤ m := by omega
  have hfar : far tc w ≤ 50 := by
    rcases le_or_gt 0 w with h0 | h0
    · exact (hA.far_warm h0).1
    · exact (hA.far_cold h0).trans (by norm_num)
  have hpow : (107 : ℝ) ≤ (40 / 37) ^ m :=
    le_trans (by norm_num) (pow_le_pow_right₀ (by norm_num : (1 : ℝ) ≤ 40 / 37) hm)
  obtain ⟨r, hr, hrw⟩ := ends_far hA m (tc - 10) tc (start_pair hA) (by
    rw [abs_of_nonneg (by linarith [hA.le])]
    have : tc - w ≤ far tc w := le_max_left _ _
    linarith)
  have hw71 := hA.w_ge
  rw [abs_le] at hrw
  have hbal : ∀ t, -200 ≤ t → balance (Atmosphere.T0 + tc) e psych (Atmosphere.T0 + t) = some (res psych tc e t) := by
    intro t ht
    simp only [balance, svp_eq ht, Option.map_some, res, bal]
    congr 1
    ring
  refine ⟨Atmosphere.T0 + r, ?_, by linarith, by linarith [hA.le], ?_, ?_⟩
  · have e1 : Atmosphere.T0 + tc - 10 = Atmosphere.T0 + (tc - 10) := by ring
    simp only [wetBulb, e1]
    rw [vpDiff_eq (by linarith), vpDiff_eq (by linarith)]
    exact hr
  · intro t ht
    obtain ⟨u, rfl⟩ : ∃ u, t = Atmosphere.T0 + u := ⟨t - Atmosphere.T0, by ring⟩
    have hu : -200 ≤ u := by linarith
    refine ⟨_, hbal u hu, ?_⟩
    have := (res_sign hA hu).2 (by linarith)
    nlinarith
  · intro t h0 ht
    obtain ⟨u, rfl⟩ : ∃ u, t = Atmosphere.T0 + u := ⟨t - Atmosphere.T0, by ring⟩
    have hu : -200 ≤ u := by linarith
    refine ⟨_, hbal u hu, ?_⟩
    have := (res_sign hA hu).1 (by linarith)
    nlinarith

/-- Dry air of 20 °C at sea level meets the conditions. -/
example : ∃ s, svp (Atmosphere.T0 + 20) = some s ∧ (0 : ℝ) ≤ s := by
  obtain ⟨s, h, h0, -⟩ := DerivedMeteo.svp_high (Atmosphere.T0 + 20) (by norm_num [Atmosphere.T0]) (by linarith)
  exact ⟨s, h, h0.le⟩

theorem pressure_5000 (elev : ℝ) (h : elev ≤ 5000) : ∃ p, pressure elev = some p ∧ 51000 < p := by
  have hb : 83 / 100 ≤ 1 - grav * elev / (cp * tSea) := by
    have hs := scale_pos
    have : grav * elev / (cp * tSea) ≤ 17 / 100 := by
      rw [div_le_iff₀ hs]
      have : grav * elev ≤ grav * 5000 := mul_le_mul_of_nonneg_left h grav_pos.le
      refine this.trans ?_
      norm_num [grav, cp, tSea, Atmosphere.T0]
    linarith
  refine ⟨_, if_neg (not_lt.mpr (by linarith)), ?_⟩
  have hexp : expo ≤ 18 / 5 := by norm_num [expo, cp, molar, gasConst]
  have h1 : (83 / 100 : ℝ) ^ expo ≤ (1 - grav * elev / (cp * tSea)) ^ expo :=
    Real.rpow_le_rpow (by norm_num) hb expo_pos.le
  have h2 : (83 / 100 : ℝ) ^ (18 / 5 : ℝ) ≤ (83 / 100 : ℝ) ^ expo :=
    Real.rpow_le_rpow_of_exponent_ge (by norm_num) (by norm_num) hexp
  have h3 : (51 / 100 : ℝ) ≤ (83 / 100 : ℝ) ^ (18 / 5 : ℝ) := by
    have h4 : ((83 / 100 : ℝ) ^ (18 / 5 : ℝ)) ^ (5 : ℕ) = (83 / 100 : ℝ) ^ (18 : ℕ) := by
      rw [← Real.rpow_natCast, ← Real.rpow_mul (by norm_num), ← Real.rpow_natCast]
      norm_num
    refine le_of_pow_le_pow_left₀ (by norm_num : (5 : ℕ) ≠ 0) (by positivity) ?_
    rw [h4]
    norm_num
  have h5 : (51 / 100 : ℝ) ≤ (1 - grav * elev / (cp * tSea)) ^ expo := by linarith
  have : P0 * (51 / 100) ≤ P0 * (1 - grav * elev / (cp * tSea)) ^ expo :=
    mul_le_mul_of_nonneg_left h5 P0_pos.le
  have h6 : (51000 : ℝ) < P0 * (51 / 100) := by norm_num [P0]
  linarith

/-- **C128.** In every pixel up to 5000 m with a temperature between -50 and 50 °C and a relative humidity between 0 and
100 % the wet-bulb temperature of the model is a number, after at most 69 rounds of the loop, and at most 0.15 K above
the air temperature; unless the air is completely dry, the dew point is a number as well. -/
theorem C128_pixel (fuel : ℕ) (hf : 69 ≤ fuel) (elev temp rh : ℝ) (hz : elev ≤ 5000) (hc : Atmosphere.T0 - 50 ≤ temp)
    (hh : temp ≤ Atmosphere.T0 + 50) (hr0 : 0 ≤ rh) (hr1 : rh ≤ 100) :
    (∃ e g w, (DerivedMeteo.process fuel elev temp rh).vap = some e ∧
      (DerivedMeteo.process fuel elev temp rh).psych = some g ∧ 30 ≤ g ∧
      (DerivedMeteo.process fuel elev temp rh).wet = some (some w) ∧ Atmosphere.T0 - 72 ≤ w ∧ w ≤ temp + 15 / 100 ∧
      (∀ t, w + 15 / 100 ≤ t → ∃ b, balance temp e g t = some b ∧ 0 < b) ∧
      (∀ t, Atmosphere.T0 - 200 ≤ t → t ≤ w - 15 / 100 → ∃ b, balance temp e g t = some b ∧ b < 0)) ∧
    (0 < rh → ∃ td, (DerivedMeteo.process fuel elev temp rh).dew = some td) := by
  have hT : Atmosphere.T0 = 27315 / 100 := rfl
  obtain ⟨p, s, e, q, c, l, g, x, r, h1, h2, h3, h4, h5, h6, h7, -, -, h10, h11, -, -, -, h12, -, h13, h14, h15, -, -⟩ :=
    DerivedMeteo.C105_consistent fuel elev temp rh (by linarith) (by linarith) hh hr0 hr1
  obtain ⟨p', hp', hp⟩ := pressure_5000 elev hz
  have hpp : p' = p := by
    have : (DerivedMeteo.process fuel elev temp rh).press = pressure elev := rfl
    rw [this, hp', Option.some.injEq] at h1
    exact h1
  have hlat : l = latentHeat temp := by
    have : (DerivedMeteo.process fuel elev temp rh).lat = some (latentHeat temp) := rfl
    rw [this, Option.some.injEq] at h6
    exact h6.symm
  have hg : 30 ≤ g := by
    have e1 : (DerivedMeteo.process fuel elev temp rh).psych = some (psychrometric p c l) := by
      have e2 : (DerivedMeteo.process fuel elev temp rh).psych =
        (DerivedMeteo.process fuel elev temp rh).press.bind fun p =>
          (DerivedMeteo.process fuel elev temp rh).cap.bind fun c =>
            if latentHeat temp = 0 then none else some (psychrometric p c (latentHeat temp)) := rfl
      rw [e2, h1, h5]
      simp only [Option.bind_some]
      rw [if_neg (by rw [← hlat]; exact h14.ne'), ← hlat]
    rw [e1, Option.some.injEq] at h7
    rw [← h7]
    unfold psychrometric
    rw [le_div_iff₀ (by positivity), hlat]
    unfold latentHeat
    rw [hpp] at hp
    have : 2501000 - 2361 * (temp - Atmosphere.T0) ≤ 2620000 := by linarith
    nlinarith
  have hes : svp temp = some s := h2
  obtain ⟨w, hw1, hw0, hw2, hw3, hw4⟩ := C128_terminates temp e g s fuel hf hc hh hg h10 hes h11
  refine ⟨⟨e, g, w, h3, h7, hg, ?_, hw0, hw2, hw3, hw4⟩, fun hr => ?_⟩
  · have e2 : (DerivedMeteo.process fuel elev temp rh).wet =
        match (DerivedMeteo.process fuel elev temp rh).vap, (DerivedMeteo.process fuel elev temp rh).psych with
        | some e, some g => wetBulb fuel temp e g
        | _, _ => some none := rfl
    rw [e2, h3, h7]
    exact hw1
  · obtain ⟨⟨td, h, -⟩, -⟩ := DerivedMeteo.C105_pixel fuel elev temp rh hr hr1 (by linarith)
    exact ⟨td, h⟩

/-- A pixel that meets the conditions: 2000 m, -10 °C, 50 %. -/
example : (2000 : ℝ) ≤ 5000 ∧ Atmosphere.T0 - 50 ≤ 26315 / 100 ∧ (26315 / 100 : ℝ) ≤ Atmosphere.T0 + 50 := by
  norm_num [Atmosphere.T0]

/-! ## Whole grids -/

section Grid

open Verif.WetBulbGrid

/-- The iteration of one element of the grid on its own. -/
noncomputable def alone (n : ℕ) : Option Run → Option (Option ℝ)
  | none => some none
  | some r => wetBulbIter r.cell.temp r.cell.vap r.cell.psych (1 / 100) n r.x0 r.x1 r.y0 r.y1

theorem alone_rest (n : ℕ) (s : Option Run) (h : ¬ moving s) : alone (n + 1) s = some (value s) := by
  cases s with
  | none => rfl
  | some r =>
    simp only [moving, not_and, not_lt, Run.d] at h
    simp only [alone, wetBulbIter, value, Option.bind_some]
    by_cases h0 : r.y1 - r.y0 = 0
    · rw [if_pos h0, if_pos h0]
    · rw [if_neg h0, if_neg h0, if_pos (h h0)]

theorem alone_step (n : ℕ) (s : Option Run) (h : moving s) : alone (n + 1) s = alone n (step s) := by
  cases s with
  | none => exact h.elim
  | some r =>
    have h' := h
    simp only [moving, Run.d] at h'
    simp only [step, if_pos h, Option.bind_some]
    simp only [alone, wetBulbIter, Run.d]
    rw [if_neg h'.1, if_neg (not_le.mpr h'.2)]
    cases hv : vpDiff r.cell.temp (r.x1 - (r.x1 - r.x0) / (r.y1 - r.y0) * r.y1) r.cell.vap r.cell.psych with
    | none => simp
    | some y => simp

/-- An element is at rest with value `v` or reaches it within `n` rounds. -/
def Reaches (n : ℕ) (s : Option Run) (v : Option ℝ) : Prop :=
  (¬ moving s ∧ value s = v) ∨ (moving s ∧ alone n s = some v)

theorem reaches_of_alone {n : ℕ} {s : Option Run} {v : Option ℝ} (h : alone n s = some v) : Reaches n s v := by
  by_cases hm : moving s
  · exact Or.inr ⟨hm, h⟩
  · refine Or.inl ⟨hm, ?_⟩
    cases n with
    | zero =>
      cases s with
      | none => simpa [alone, value] using h
      | some r => simp [alone, wetBulbIter] at h
    | succ n =>
      rw [alone_rest n s hm, Option.some.injEq] at h
      exact h

theorem reaches_step {n : ℕ} {s : Option Run} {v : Option ℝ} (h : Reaches (n + 1) s v) : Reaches n (step s) v := by
  rcases h with ⟨h1, h2⟩ | ⟨h1, h2⟩
  · rw [step, if_neg h1]
    exact Or.inl ⟨h1, h2⟩
  · rw [alone_step n s h1] at h2
    exact reaches_of_alone h2

/-- The elements of a grid do not influence each other: one round after every element has ended on its own, the loop
over the grid has ended with the same values. -/
theorem loop_reaches (n : ℕ) : ∀ (l : List (Option Run)) (vs : List (Option ℝ)),
    List.Forall₂ (Reaches n) l vs → loop (n + 1) l = some vs := by
  have hrest : ∀ n (l : List (Option Run)) (vs : List (Option ℝ)), List.Forall₂ (Reaches n) l vs →
      (¬ ∃ s ∈ l, moving s) → l.map value = vs := by
    intro n l vs h
    induction h with
    | nil => intro _; rfl
    | @cons s v l vs h1 _ ih =>
      intro hm
      rw [List.map_cons, ih (fun ⟨s, hs, hm'⟩ => hm ⟨s, List.mem_cons_of_mem _ hs, hm'⟩)]
      rcases h1 with ⟨-, h⟩ | ⟨h, -⟩
      · rw [h]
      · exact absurd ⟨s, List.mem_cons_self, h⟩ hm
  induction n with
  | zero =>
    intro l vs h
    have hm : ¬ ∃ s ∈ l, moving s := by
      rintro ⟨s, hs, hm⟩
      obtain ⟨v, -, hv⟩ : ∃ v, v ∈ vs ∧ Reaches 0 s v := by
        clear hrest
        induction h with
        | nil => simp at hs
        | cons h1 _ ih =>
          rcases List.mem_cons.mp hs with rfl | hs
          · exact ⟨_, List.mem_cons_self, h1⟩
          · obtain ⟨v, hv, h⟩ := ih hs
            exact ⟨v, List.mem_cons_of_mem _ hv, h⟩
      rcases hv with ⟨h, -⟩ | ⟨-, h⟩
      · exact h hm
      · cases s with
        | none => exact hm
        | some r => simp [alone, wetBulbIter] at h
    rw [loop, if_neg hm, hrest 0 l vs h hm]
  | succ n ih =>
    intro l vs h
    by_cases hm : ∃ s ∈ l, moving s
    · rw [loop, if_pos hm]
      refine ih _ _ ?_
      rw [List.forall₂_map_left_iff]
      exact h.imp fun _ _ => reaches_step
    · rw [loop, if_neg hm, hrest _ l vs h hm]

/-- What the returned array has to contain for an element: NaN for a missing element, and otherwise a temperature
within 0.15 K of the change of sign of the balance. -/
def Solves (c : Option Cell) (v : Option ℝ) : Prop :=
  match c with
  | none => v = none
  | some c => ∃ r, v = some r ∧ Atmosphere.T0 - 72 ≤ r ∧ r ≤ c.temp + 15 / 100 ∧
      (∀ t, r + 15 / 100 ≤ t → ∃ b, balance c.temp c.vap c.psych t = some b ∧ 0 < b) ∧
      (∀ t, Atmosphere.T0 - 200 ≤ t → t ≤ r - 15 / 100 → ∃ b, balance c.temp c.vap c.psych t = some b ∧ b < 0)

/-- Missing elements are left alone by the loop, the others have natural inputs. -/
def Usual (c : Cell) : Prop :=
  Atmosphere.T0 - 50 ≤ c.temp ∧ c.temp ≤ Atmosphere.T0 + 50 ∧ 30 ≤ c.psych ∧ 0 ≤ c.vap ∧
    ∃ s, svp c.temp = some s ∧ c.vap ≤ s

/-- **C128.** The loop over a grid of any size, with missing values anywhere, ends after at most 70 rounds, and every
element gets the solution of its own balance. -/
theorem C128_grid (l : List (Option Cell)) (hl : ∀ c, some c ∈ l → Usual c) (n : ℕ) (hn : 70 ≤ n) :
    ∃ vs, wetBulbs n l = some vs ∧ List.Forall₂ Solves l vs := by
  obtain ⟨m, rfl⟩ : ∃ m, n = m + 1 := ⟨n - 1, by omega⟩
  have hm : 69 ≤ m := by omega
  suffices h : ∃ vs, List.Forall₂ (fun c v => Solves c v ∧ Reaches m (startRun c) v) l vs by
    obtain ⟨vs, h⟩ := h
    refine ⟨vs, loop_reaches m _ _ ?_, h.imp fun _ _ h => h.1⟩
    rw [List.forall₂_map_left_iff]
    exact h.imp fun _ _ h => h.2
  induction l with
  | nil => exact ⟨[], .nil⟩
  | cons c l ih =>
    obtain ⟨vs, h⟩ := ih fun c hc => hl c (List.mem_cons_of_mem _ hc)
    suffices h : ∃ v, Solves c v ∧ Reaches m (startRun c) v by
      obtain ⟨v, hv⟩ := h
      exact ⟨v :: vs, .cons hv h⟩
    cases c with
    | none => exact ⟨none, rfl, Or.inl ⟨id, rfl⟩⟩
    | some c =>
      obtain ⟨h1, h2, h3, h4, s, h5, h6⟩ := hl c List.mem_cons_self
      obtain ⟨r, hr, h7⟩ := C128_terminates c.temp c.vap c.psych s m hm h1 h2 h3 h4 h5 h6
      refine ⟨some r, ⟨r, rfl, h7⟩, reaches_of_alone ?_⟩
      rw [← hr]
      obtain ⟨b0, hb0⟩ : ∃ b, vpDiff c.temp (c.temp - 10) c.vap c.psych = some b := by
        have e1 : c.temp - 10 = Atmosphere.T0 + (c.temp - 10 - Atmosphere.T0) := by ring
        obtain ⟨s0, hs0⟩ : ∃ s, svp (c.temp - 10) = some s := by
          rw [e1, svp_eq (by linarith)]
          exact ⟨_, rfl⟩
        exact ⟨_, by unfold vpDiff; rw [hs0]; rfl⟩
      obtain ⟨b1, hb1⟩ : ∃ b, vpDiff c.temp c.temp c.vap c.psych = some b :=
        ⟨_, by unfold vpDiff; rw [h5]; rfl⟩
      simp only [startRun, Option.bind_some, wetBulb, hb0, hb1, alone]

/-- A grid with a missing element and a saturated one meets the conditions. -/
example : ∃ s, ∀ c, some c ∈ [none, some (⟨Atmosphere.T0 + 20, s, 60⟩ : Cell)] → Usual c := by
  obtain ⟨s, h, h0, -⟩ := DerivedMeteo.svp_high (Atmosphere.T0 + 20) (by norm_num [Atmosphere.T0]) (by linarith)
  refine ⟨s, fun c hc => ?_⟩
  simp only [List.mem_cons, reduceCtorEq, Option.some.injEq, List.not_mem_nil, or_false, false_or] at hc
  subst hc
  exact ⟨by linarith, by linarith, by norm_num, h0.le, s, h, le_rfl⟩

end Grid

end Verif.WetBulb
