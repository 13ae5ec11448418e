import Verif.Props.SkyView

/-!
# C161: higher surroundings never let in more light
-/

namespace Verif.Shadows

/-! ## Specification -/

/-- Specification: the same raster with terrain raised anywhere but in the cell `p`. -/
def Raised (d d' : Dem) (p : Cell) : Prop :=
  d'.n = d.n ∧ d'.m = d.m ∧ d'.z p = d.z p ∧
    ∀ c, (d.z c = none ∧ d'.z c = none) ∨ ∃ a a', d.z c = some a ∧ d'.z c = some a' ∧ a ≤ a'

/-! ## Theorems -/

/-- **C161.** A cell in shadow stays in shadow if terrain around it is raised. -/
theorem C161_shadow (d d' : Dem) (res : ℝ) (s : SunVec) (h : s.Slanted) (sweeps : Option ℤ) (p : Cell)
    (hr : Raised d d' p) (hs : Shaded d res s sweeps p) : Shaded d' res s sweeps p := by
  obtain ⟨hn, hm, hp, hz⟩ := hr
  have hin : ∀ c, d'.Inside c ↔ d.Inside c := fun c => by simp only [Dem.Inside, hn, hm]
  rw [C72_shaded_iff _ _ _ h] at hs ⊢
  obtain ⟨o, ho, t, u, hu, h1, h2, h3, a, b, ha, hb, hh⟩ := hs
  refine ⟨o, ?_, t, u, hu, fun v hv => (hin _).2 (h1 v hv), h2, fun v g1 g2 e => ?_, ?_⟩
  · simpa only [isStart, Dem.Inside, hn, hm] using ho
  · rcases hz (pos s o v) with ⟨k, -⟩ | ⟨_, _, -, k, -⟩
    · exact h3 v g1 g2 k
    · rw [e] at k; cases k
  · rcases hz (pos s o u) with ⟨k, -⟩ | ⟨x, x', k, k', hle⟩
    · rw [ha] at k; cases k
    · rw [ha] at k
      cases k
      exact ⟨x', b, k', hp.trans hb, lt_of_lt_of_le hh hle⟩

/-- The horizon search with fewer lit elevations and at least the same upper limit. -/
theorem svfCur_mono (lit lit' : ℕ → Prop) (M M' : ℕ) (hM : 1 ≤ M) (hMM : M ≤ M')
    (h : ∀ e, 1 ≤ e → e ≤ M' → lit' e → lit e) : svfCur lit M ≤ svfCur lit' M' := by
  obtain ⟨-, a2, a3, -⟩ := C73_lowest lit M hM
  obtain ⟨b1, b2, b3, b4⟩ := C73_lowest lit' M' (hM.trans hMM)
  by_cases hex : ∃ e, 1 ≤ e ∧ e ≤ M' ∧ lit' e
  · obtain ⟨e, g1, g2, g3⟩ := hex
    have hl := h _ b1 b2 (b3 e g1 g2 g3).2
    by_cases hle : svfCur lit' M' ≤ M
    · exact (a3 _ b1 hle hl).1
    · omega
  · push Not at hex
    rw [b4 hex]
    exact a2.trans hMM

/-- **C161.** The sky view factor does not grow if terrain around a cell is raised, provided that the
horizon search does not end at a lower elevation (`maxElev` is the steepest slope of the whole raster,
below 90 degrees). Missing for the full claim: rasters whose steepest slope gets smaller, see
`C161_search_false`. -/
theorem C161_skyview_partial (d d' : Dem) (res : ℝ) (sweeps : Option ℤ) (azims : List ℝ) (M M' : ℕ)
    (hM : 1 ≤ M) (hMM : M ≤ M') (h90 : M' < 90) (p : Cell) (hr : Raised d d' p) :
    skyView d' res sweeps azims M' p ≤ skyView d res sweeps azims M p := by
  have hcos : ∀ a, Real.cos (svfCur (Lit d' res sweeps a p) M' * (Real.pi / 180)) ^ 2 ≤
      Real.cos (svfCur (Lit d res sweeps a p) M * (Real.pi / 180)) ^ 2 := by
    intro a
    have hle := svfCur_mono (Lit d res sweeps a p) (Lit d' res sweeps a p) M M' hM hMM
      fun e _ he hl hs => hl (C161_shadow d d' res _ (sunDir_slanted a (by omega)) sweeps p hr hs)
    have hlt : svfCur (Lit d' res sweeps a p) M' < 90 :=
      (C73_lowest _ M' (hM.trans hMM)).2.1.trans_lt h90
    have h0 := cos_deg_pos hlt
    have hpi := Real.pi_pos
    refine pow_le_pow_left₀ h0.le (Real.cos_le_cos_of_nonneg_of_le_pi (by positivity) ?_ ?_) 2
    · have : ((svfCur (Lit d' res sweeps a p) M' : ℕ) : ℝ) ≤ 90 := by exact_mod_cast hlt.le
      nlinarith
    · exact mul_le_mul_of_nonneg_right (by exact_mod_cast hle) (by positivity)
  unfold skyView
  rw [hr.1, hr.2.1]
  split_ifs
  · exact le_rfl
  · refine div_le_div_of_nonneg_right ?_ (Nat.cast_nonneg _)
    exact List.sum_le_sum fun a _ => hcos a

/-- **C161.** If no elevation up to the limit is lit, the limit itself is taken as the horizon, so that a
lower limit gives a larger sky view factor for the same cell in the same terrain. -/
theorem C161_search_false (d : Dem) (res : ℝ) (sweeps : Option ℤ) (azims : List ℝ) (ha : azims ≠ [])
    (M M' : ℕ) (hM' : 1 ≤ M') (hMM : M' < M) (h90 : M < 90) (p : Cell) (h1 : ¬ (d.n = 1 ∧ d.m = 1))
    (hdark : ∀ a ∈ azims, ∀ e, 1 ≤ e → e ≤ M → ¬ Lit d res sweeps a p e) :
    skyView d res sweeps azims M p < skyView d res sweeps azims M' p := by
  have hpi := Real.pi_pos
  have hlt : Real.cos (M * (Real.pi / 180)) ^ 2 < Real.cos (M' * (Real.pi / 180)) ^ 2 := by
    have hM90 : ((M : ℕ) : ℝ) ≤ 90 := by exact_mod_cast h90.le
    refine pow_lt_pow_left₀ (Real.cos_lt_cos_of_nonneg_of_le_pi (by positivity) ?_ ?_) (cos_deg_pos h90).le
      two_ne_zero
    · nlinarith
    · exact mul_lt_mul_of_pos_right (by exact_mod_cast hMM) (by positivity)
  have hv : ∀ N, 1 ≤ N → N ≤ M → (azims.map fun a =>
      Real.cos (svfCur (Lit d res sweeps a p) N * (Real.pi / 180)) ^ 2) =
      azims.map fun _ => Real.cos (N * (Real.pi / 180)) ^ 2 := by
    intro N h1N hN
    refine List.map_congr_left fun a haz => ?_
    rw [(C73_lowest _ N h1N).2.2.2 fun e g1 g2 => hdark a haz e g1 (g2.trans hN)]
  have hlen : (0 : ℝ) < azims.length := by
    exact_mod_cast List.length_pos_iff.2 ha
  unfold skyView
  rw [if_neg h1, if_neg h1, hv M (by omega) le_rfl, hv M' hM' hMM.le]
  simp only [List.map_const', List.sum_replicate, nsmul_eq_mul]
  exact div_lt_div_of_pos_right (mul_lt_mul_of_pos_left hlt hlen) hlen

/-! ## Examples -/

/-- A row of three cells, the first of height `h`. -/
noncomputable def exWall (h : ℝ) : Dem := ⟨1, 3, fun c => if c = (0, 0) then some h else some 0⟩

example : Raised (exWall 5) (exWall 9) (0, 1) ∧ SunVec.Slanted ⟨-1, 0, 1⟩ := by
  refine ⟨⟨rfl, rfl, rfl, fun c => Or.inr ?_⟩, by simp [SunVec.Slanted]⟩
  by_cases h : c = (0, 0)
  · exact ⟨5, 9, by simp [exWall, h], by simp [exWall, h], by norm_num⟩
  · exact ⟨0, 0, by simp [exWall, h], by simp [exWall, h], le_rfl⟩

theorem inv_west {e : ℕ} (h : e < 90) : inv (sunDir (-90) e) = (1, 0) := by
  have hc := cos_deg_pos h
  have e1 : (-90 : ℝ) * (Real.pi / 180) = -(Real.pi / 2) := by ring
  simp only [inv, sunDir, e1, Real.sin_neg, Real.sin_pi_div_two, Real.cos_neg, Real.cos_pi_div_two, neg_zero,
    zero_mul, abs_zero, neg_mul, one_mul, neg_neg, abs_neg, abs_of_pos hc, zero_div, max_eq_left hc.le,
    div_self hc.ne']

/-- A cell behind a wall is not lit from any elevation up to 2 degrees. -/
example : ∀ a ∈ [(-90 : ℝ)], ∀ e, 1 ≤ e → e ≤ 2 → ¬ Lit (exWall 100) 1 none a (0, 1) e := by
  intro a ha e h1 h2 hl
  simp only [List.mem_singleton] at ha
  subst ha
  have h90 : e < 90 := by omega
  have hpos : ∀ t : ℕ, pos (sunDir (-90) e) (0, 0) t = (0, (t : ℤ)) := by
    intro t
    simp only [pos, inv_west h90, zero_mul, add_zero, one_mul, Int.cast_zero, zero_add]
    rw [show ((t : ℝ)) = ((t : ℤ) : ℝ) by push_cast; rfl, roundEven_int]
    rw [show (0 : ℝ) = ((0 : ℤ) : ℝ) by norm_num, roundEven_int]
  refine hl ((C72_shaded_iff _ _ _ (sunDir_slanted _ h90) _ _).2 ⟨(0, 0), ?_, 1, 0, by omega, fun v hv => ?_, ?_,
    fun v g1 g2 => by omega, 100, 0, ?_, ?_, ?_⟩)
  · simp [isStart, Dem.Inside, exWall]
  · rw [hpos]; simp only [Dem.Inside, exWall]; omega
  · rw [hpos]; rfl
  · rw [hpos]; simp [exWall]
  · simp [exWall]
  · have ht : Real.tan (e * (Real.pi / 180)) ≤ 1 := by
      rw [← Real.tan_pi_div_four]
      have hpi := Real.pi_pos
      have h3 : (e : ℝ) ≤ 2 := by exact_mod_cast h2
      refine Real.strictMonoOn_tan.monotoneOn ⟨?_, ?_⟩ ⟨?_, ?_⟩ ?_
      · have : (0 : ℝ) ≤ e * (Real.pi / 180) := by positivity
        linarith
      all_goals nlinarith
    rw [Hides, lineLength, tanElevation_sunDir _ h90, inv_west h90]
    norm_num
    linarith

end Verif.Shadows
