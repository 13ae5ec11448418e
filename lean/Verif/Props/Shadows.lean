import Verif.Lemmas.Shadows

/-!
# Terrain shadows (C72)
-/

namespace Verif.Shadows

open Classical

/-! ## Specification -/

/-- The sun is not in the zenith. -/
def SunVec.Slanted (s : SunVec) : Prop := ¬(s.x = 0 ∧ s.y = 0)

/-- Tangent of the sun's elevation. -/
noncomputable def tanElevation (s : SunVec) : ℝ := s.z / Real.sqrt (s.x ^ 2 + s.y ^ 2)

/-- Horizontal length of `k` steps along a scanning line, in metres. -/
noncomputable def lineLength (res : ℝ) (s : SunVec) (k : ℝ) : ℝ :=
  k * res * Real.sqrt ((inv s).1 ^ 2 + (inv s).2 ^ 2)

/-- Terrain of height `a` hides terrain of height `b` that lies `dist` behind it. -/
def Hides (s : SunVec) (dist a b : ℝ) : Prop := b + dist * tanElevation s < a

/-- Cell `p` is hidden on the line from `o`: an earlier cell on the line hides it, the line does not leave the
raster and no elevation in between is missing. -/
def HiddenOn (d : Dem) (res : ℝ) (s : SunVec) (o p : Cell) : Prop :=
  ∃ t u : ℕ, u < t ∧ (∀ v ≤ t, d.Inside (pos s o v)) ∧ pos s o t = p ∧
    (∀ v, u < v → v < t → d.z (pos s o v) ≠ none) ∧
    ∃ a b, d.z (pos s o u) = some a ∧ d.z p = some b ∧ Hides s (lineLength res s (t - u)) a b

theorem inv_scale (s : SunVec) (h : s.Slanted) :
    Real.sqrt ((inv s).1 ^ 2 + (inv s).2 ^ 2) = Real.sqrt (s.x ^ 2 + s.y ^ 2) / max |s.x| |s.y| := by
  obtain ⟨hM, hH⟩ := horiz_pos h
  simp only [inv]
  rw [show (-s.x / max |s.x| |s.y|) ^ 2 + (-s.y / max |s.x| |s.y|) ^ 2 =
    (s.x ^ 2 + s.y ^ 2) / (max |s.x| |s.y|) ^ 2 by ring, Real.sqrt_div (by positivity),
    Real.sqrt_sq hM.le]

theorem zProj_lt (d : Dem) (res : ℝ) (s : SunVec) (h : s.Slanted) (o : Cell) (t u : ℕ) (a b : ℝ) :
    (inv s).1 * t * res * (normalSun s).1 + (inv s).2 * t * res * (normalSun s).2.1 + b * (normalSun s).2.2 <
    (inv s).1 * u * res * (normalSun s).1 + (inv s).2 * u * res * (normalSun s).2.1 + a * (normalSun s).2.2 ↔
    Hides s (lineLength res s (t - u)) a b := by
  obtain ⟨hM, hH⟩ := horiz_pos h
  rw [proj_eq s h, proj_eq s h, mul_lt_mul_iff_right₀ hH, Hides, lineLength, inv_scale s h, tanElevation]
  have e : ((t : ℝ) - u) * res * (Real.sqrt (s.x ^ 2 + s.y ^ 2) / max |s.x| |s.y|) *
      (s.z / Real.sqrt (s.x ^ 2 + s.y ^ 2)) = (t - u) * res * (s.z / max |s.x| |s.y|) := by
    field_simp
  rw [e]
  constructor <;> intro h' <;> linarith

/-- **C72.** Every scanning line leaves the raster after at most as many steps as the raster has rows or columns;
more iterations than that change nothing, so the unbounded loop of the code ends with this result. -/
theorem C72_terminates (d : Dem) (res : ℝ) (s : SunVec) (h : s.Slanted) (o : Cell) (ho : d.Inside o) :
    ¬ d.Inside (pos s o (steps d)) ∧ ∀ k, sweep d res s o (steps d + k) 0 none = written d res s o := by
  obtain ⟨hM, -⟩ := horiz_pos h
  obtain ⟨h1, h2, h3, h4⟩ := ho
  have hout : ¬ d.Inside (pos s o (steps d)) := by
    have hcast : ((steps d : ℕ) : ℝ) = ((max d.n d.m : ℤ) : ℝ) := by
      rw [steps, ← Int.cast_natCast, Int.toNat_of_nonneg (by omega)]
    rintro ⟨g1, g2, g3, g4⟩
    simp only [pos, hcast] at g1 g2 g3 g4
    rcases max_choice |s.x| |s.y| with hm | hm
    · rw [hm] at hM
      have hx : (inv s).1 = 1 ∨ (inv s).1 = -1 := by
        simp only [inv, hm]
        rcases abs_cases s.x with ⟨e, hp⟩ | ⟨e, hp⟩ <;> rw [e] at hM ⊢
        · right; field_simp
        · left; exact div_self hM.ne'
      rcases hx with e | e <;> rw [e] at g1 g2
      · rw [show ((o.2 : ℝ) + 1 * ((max d.n d.m : ℤ) : ℝ)) = ((o.2 + max d.n d.m : ℤ) : ℝ) by push_cast; ring,
          roundEven_int] at g2
        omega
      · rw [show ((o.2 : ℝ) + -1 * ((max d.n d.m : ℤ) : ℝ)) = ((o.2 - max d.n d.m : ℤ) : ℝ) by
          push_cast; ring, roundEven_int] at g1
        omega
    · rw [hm] at hM
      have hx : (inv s).2 = 1 ∨ (inv s).2 = -1 := by
        simp only [inv, hm]
        rcases abs_cases s.y with ⟨e, hp⟩ | ⟨e, hp⟩ <;> rw [e] at hM ⊢
        · right; field_simp
        · left; exact div_self hM.ne'
      rcases hx with e | e <;> rw [e] at g3 g4
      · rw [show ((o.1 : ℝ) + 1 * ((max d.n d.m : ℤ) : ℝ)) = ((o.1 + max d.n d.m : ℤ) : ℝ) by push_cast; ring,
          roundEven_int] at g4
        omega
      · rw [show ((o.1 : ℝ) + -1 * ((max d.n d.m : ℤ) : ℝ)) = ((o.1 - max d.n d.m : ℤ) : ℝ) by
          push_cast; ring, roundEven_int] at g3
        omega
  refine ⟨hout, fun k => ?_⟩
  have one : ∀ (fuel t : ℕ) (mx : Option (Option ℝ)), t ≤ steps d → steps d ≤ t + fuel →
      sweep d res s o (fuel + 1) t mx = sweep d res s o fuel t mx := by
    intro fuel
    induction fuel with
    | zero =>
      intro t mx ha hb
      obtain rfl : t = steps d := by omega
      rw [sweep.eq_2, if_pos hout, sweep.eq_1]
    | succ fuel ih =>
      intro t mx ha hb
      by_cases he : t = steps d
      · subst he; rw [sweep, if_pos hout, sweep, if_pos hout]
      · rw [sweep.eq_2 d res s o t mx (fuel + 1), sweep.eq_2 d res s o t mx fuel,
          ih _ _ (by omega) (by omega), ih _ _ (by omega) (by omega)]
  induction k with
  | zero => rfl
  | succ k ih => rw [← ih, ← add_assoc, one _ _ _ (by omega) (by omega)]

example : SunVec.Slanted ⟨-1, 0, 1⟩ ∧ Dem.Inside ⟨2, 3, fun _ => some 0⟩ (0, 0) := by
  constructor
  · simp [SunVec.Slanted]
  · simp [Dem.Inside]

/-- **C72.** A cell is in shadow exactly if an earlier cell on some scanning line through it rises above the line
to the sun, with no missing elevation in between. -/
theorem C72_shaded_iff (d : Dem) (res : ℝ) (s : SunVec) (h : s.Slanted) (sweeps : Option ℤ) (p : Cell) :
    Shaded d res s sweeps p ↔ ∃ o, isStart d s sweeps o ∧ HiddenOn d res s o p := by
  refine exists_congr fun o => and_congr_right fun ho => ?_
  rw [mem_written]
  constructor
  · rintro ⟨t, ht, hin, hp, u, hu, a, b, ha, hb, hlt, hn⟩
    simp only [zProj, Option.map_eq_some_iff] at ha hb
    obtain ⟨za, hza, rfl⟩ := ha
    obtain ⟨zb, hzb, rfl⟩ := hb
    refine ⟨t, u, hu, hin, hp, fun v h1 h2 h0 => hn v h1 h2 (by simp [zProj, h0]), za, zb, hza, hp ▸ hzb,
      (zProj_lt d res s h o t u za zb).1 hlt⟩
  · rintro ⟨t, u, hu, hin, hp, hn, a, b, ha, hb, hh⟩
    have ht : t < steps d := by
      by_contra hge
      exact (C72_terminates d res s h o ho.1).1 (hin _ (by omega))
    refine ⟨t, ht, hin, hp, u, hu, _, _, by rw [zProj, ha]; rfl, by rw [zProj, hp, hb]; rfl,
      (zProj_lt d res s h o t u a b).2 hh, fun v h1 h2 h0 => hn v h1 h2 (by simpa [zProj] using h0)⟩

/-- **C72.** The shadow mask does not depend on how the parallel loop interleaves its writes. -/
theorem C72_schedule (d : Dem) (res : ℝ) (s : SunVec) (sweeps : Option ℤ) (origins writes : List Cell)
    (ho : ∀ o, o ∈ origins ↔ isStart d s sweeps o) (hw : IsRun d res s origins writes) (p : Cell) :
    illum writes p = if Shaded d res s sweeps p then 0 else 1 := by
  have main : ∀ (l : List Cell) (a : Cell → ℕ),
      l.foldl (fun a c => Function.update a c 0) a p = if p ∈ l then 0 else a p := by
    intro l
    induction l with
    | nil => intro a; simp
    | cons c l ih =>
      intro a
      rw [List.foldl_cons, ih]
      by_cases h1 : p ∈ l
      · simp [h1]
      · by_cases h2 : p = c
        · subst h2; simp
        · simp [h1, h2, Function.update_of_ne h2]
  rw [illum, main]
  have : p ∈ writes ↔ Shaded d res s sweeps p := by
    rw [hw.mem_iff, List.mem_flatMap]
    exact exists_congr fun o => and_congr_left fun _ => ho o
  simp only [this]

/-- **C72.** A scanning line moves one cell per step along the longer of the two components of the sun's direction,
away from the sun, and visits the cells closest to the straight line; of two equally close cells the even one. -/
theorem C72_line (s : SunVec) (o : Cell) (t : ℕ) (r c : ℝ) (hr : r = o.1 - s.y / max |s.x| |s.y| * t)
    (hc : c = o.2 - s.x / max |s.x| |s.y| * t) :
    |(((pos s o t).1 : ℤ) : ℝ) - r| ≤ 1 / 2 ∧ |(((pos s o t).2 : ℤ) : ℝ) - c| ≤ 1 / 2 ∧
    (|(((pos s o t).1 : ℤ) : ℝ) - r| = 1 / 2 → (pos s o t).1 % 2 = 0) ∧
    (|(((pos s o t).2 : ℤ) : ℝ) - c| = 1 / 2 → (pos s o t).2 % 2 = 0) := by
  have key : ∀ x : ℝ, |((roundEven x : ℤ) : ℝ) - x| ≤ 1 / 2 ∧
      (|((roundEven x : ℤ) : ℝ) - x| = 1 / 2 → roundEven x % 2 = 0) := by
    intro x
    have h1 := Int.floor_le x
    have h2 := Int.lt_floor_add_one x
    unfold roundEven
    split_ifs with k1 k2 k3
    · refine ⟨by rw [abs_le]; constructor <;> linarith, fun h => ?_⟩
      rw [abs_eq (by norm_num)] at h
      rcases h with h | h <;> exfalso <;> linarith
    · push_cast
      refine ⟨by rw [abs_le]; constructor <;> linarith, fun h => ?_⟩
      rw [abs_eq (by norm_num)] at h
      rcases h with h | h <;> exfalso <;> linarith
    · have : x - ⌊x⌋ = 1 / 2 := le_antisymm (not_lt.1 k2) (not_lt.1 k1)
      exact ⟨by rw [abs_le]; constructor <;> linarith, fun _ => k3⟩
    · have : x - ⌊x⌋ = 1 / 2 := le_antisymm (not_lt.1 k2) (not_lt.1 k1)
      push_cast
      exact ⟨by rw [abs_le]; constructor <;> linarith, fun _ => by omega⟩
  have e1 : (o.1 : ℝ) + (inv s).2 * t = r := by rw [hr]; simp only [inv]; ring
  have e2 : (o.2 : ℝ) + (inv s).1 * t = c := by rw [hc]; simp only [inv]; ring
  simp only [pos, e1, e2]
  exact ⟨(key r).1, (key c).1, (key r).2, (key c).2⟩

-- A line towards the south-east at a slope of one half: the second cell lies between two columns.
example : pos ⟨-1, -2, 1⟩ (0, 0) 1 = (1, 0) := by
  have h := C72_line ⟨-1, -2, 1⟩ (0, 0) 1 1 (1 / 2) (by norm_num) (by norm_num)
  obtain ⟨h1, h2, -, h4⟩ := h
  rw [abs_le] at h1 h2
  have a1 : (pos ⟨-1, -2, 1⟩ (0, 0) 1).1 = 1 := by
    have l1 : (0 : ℝ) < ((pos ⟨-1, -2, 1⟩ (0, 0) 1).1 : ℤ) := by linarith
    have l2 : ((pos ⟨-1, -2, 1⟩ (0, 0) 1).1 : ℝ) < (2 : ℤ) := by push_cast; linarith
    have l1' : (0 : ℤ) < (pos ⟨-1, -2, 1⟩ (0, 0) 1).1 := by exact_mod_cast l1
    have l2' := Int.cast_lt.1 l2
    omega
  have a2 : (pos ⟨-1, -2, 1⟩ (0, 0) 1).2 = 0 := by
    have l1 : ((0 : ℤ) : ℝ) ≤ ((pos ⟨-1, -2, 1⟩ (0, 0) 1).2 : ℤ) := by push_cast; linarith
    have l2 : ((pos ⟨-1, -2, 1⟩ (0, 0) 1).2 : ℝ) ≤ (1 : ℤ) := by push_cast; linarith
    have l1' := Int.cast_le.1 l1
    have l2' := Int.cast_le.1 l2
    by_contra hne
    have h1 : (pos ⟨-1, -2, 1⟩ (0, 0) 1).2 = 1 := by omega
    rw [h1] at h4
    norm_num at h4
  exact Prod.ext a1 a2

/-- **C72.** With the sun at or above the horizon flat terrain is never shaded. -/
theorem C72_flat (d : Dem) {res : ℝ} (hr : 0 ≤ res) (s : SunVec) (h : s.Slanted) (hz : 0 ≤ s.z)
    (sweeps : Option ℤ) (z : ℝ) (hd : ∀ c, d.Inside c → d.z c = some z) (p : Cell) :
    ¬ Shaded d res s sweeps p := by
  rw [C72_shaded_iff d res s h]
  rintro ⟨o, -, t, u, hu, hin, hp, -, a, b, ha, hb, hh⟩
  rw [hd _ (hin u hu.le)] at ha
  rw [hd _ (hp ▸ hin t le_rfl)] at hb
  obtain rfl : z = a := by simpa using ha
  obtain rfl : z = b := by simpa using hb
  have hu' : (u : ℝ) ≤ t := by exact_mod_cast hu.le
  have h1 : 0 ≤ lineLength res s (t - u) :=
    mul_nonneg (mul_nonneg (by linarith) hr) (Real.sqrt_nonneg _)
  have h2 : 0 ≤ tanElevation s := div_nonneg hz (Real.sqrt_nonneg _)
  have := mul_nonneg h1 h2
  unfold Hides at hh
  linarith

/-- **C72.** Adding a constant to the DEM does not move the shadows. -/
theorem C72_offset (d : Dem) (res : ℝ) (s : SunVec) (h : s.Slanted) (sweeps : Option ℤ) (c : ℝ) (p : Cell) :
    Shaded ⟨d.n, d.m, fun q => (d.z q).map (· + c)⟩ res s sweeps p ↔ Shaded d res s sweeps p := by
  rw [C72_shaded_iff _ res s h, C72_shaded_iff d res s h]
  refine exists_congr fun o => and_congr Iff.rfl ?_
  constructor
  · rintro ⟨t, u, hu, hin, hp, hn, a, b, ha, hb, hh⟩
    simp only [Option.map_eq_some_iff] at ha hb
    obtain ⟨a', ha', rfl⟩ := ha
    obtain ⟨b', hb', rfl⟩ := hb
    refine ⟨t, u, hu, hin, hp, fun v h1 h2 h0 => hn v h1 h2 (by simp [h0]), a', b', ha', hb', ?_⟩
    unfold Hides at *; linarith
  · rintro ⟨t, u, hu, hin, hp, hn, a, b, ha, hb, hh⟩
    refine ⟨t, u, hu, hin, hp, fun v h1 h2 h0 => hn v h1 h2 (by simpa using h0), a + c, b + c,
      by simp [ha], by simp [hb], ?_⟩
    unfold Hides at *; linarith

/-- **C72.** Lowering the sun at equal azimuth never lights a shaded cell. -/
theorem C72_lower_sun (d : Dem) {res : ℝ} (hr : 0 ≤ res) (s s' : SunVec) (h : s.Slanted) (k : ℝ) (hk : 0 < k)
    (hx : s'.x = k * s.x) (hy : s'.y = k * s.y) (he : tanElevation s' ≤ tanElevation s) (sweeps : Option ℤ)
    (p : Cell) (hp : Shaded d res s sweeps p) : Shaded d res s' sweeps p := by
  have h' : s'.Slanted := fun hc => h
    ⟨by simpa [hx, hk.ne'] using hc.1, by simpa [hy, hk.ne'] using hc.2⟩
  obtain ⟨hM, -⟩ := horiz_pos h
  have hinv : inv s' = inv s := by
    have : max |s'.x| |s'.y| = k * max |s.x| |s.y| := by
      rw [hx, hy, abs_mul, abs_mul, abs_of_pos hk, ← mul_max_of_nonneg _ _ hk.le]
    simp only [inv, this]
    rw [hx, hy, ← mul_neg, ← mul_neg, mul_div_mul_left _ _ hk.ne', mul_div_mul_left _ _ hk.ne']
  have hpos : ∀ o t, pos s' o t = pos s o t := fun o t => by rw [pos, pos, hinv]
  have hst : ∀ o, isStart d s' sweeps o ↔ isStart d s sweeps o := by
    intro o
    have e1 : s'.x < 0 ↔ s.x < 0 := by rw [hx]; exact ⟨fun g => by nlinarith, fun g => mul_neg_of_pos_of_neg hk g⟩
    have e2 : s'.y < 0 ↔ s.y < 0 := by rw [hy]; exact ⟨fun g => by nlinarith, fun g => mul_neg_of_pos_of_neg hk g⟩
    simp only [isStart, e1, e2]
  rw [C72_shaded_iff d res s h] at hp
  rw [C72_shaded_iff d res s' h']
  obtain ⟨o, ho, t, u, hu, hin, hp, hn, a, b, ha, hb, hh⟩ := hp
  refine ⟨o, (hst o).2 ho, t, u, hu, fun v hv => by rw [hpos]; exact hin v hv, by rw [hpos]; exact hp,
    fun v h1 h2 => by rw [hpos]; exact hn v h1 h2, a, b, by rw [hpos]; exact ha, hb, ?_⟩
  have hu' : (u : ℝ) ≤ t := by exact_mod_cast hu.le
  have h1 : 0 ≤ lineLength res s (t - u) :=
    mul_nonneg (mul_nonneg (by linarith) hr) (Real.sqrt_nonneg _)
  have hl : lineLength res s' (t - u) = lineLength res s (t - u) := by rw [lineLength, lineLength, hinv]
  unfold Hides at *
  rw [hl]
  have := mul_le_mul_of_nonneg_left he h1
  linarith

/-- **C72.** More sweeps never light a shaded cell. -/
theorem C72_more_sweeps (d : Dem) (res : ℝ) (s : SunVec) (k k' : ℤ) (hk : k ≤ k') (p : Cell)
    (hp : Shaded d res s (some k) p) : Shaded d res s (some k') p := by
  obtain ⟨o, ⟨h1, h2⟩, h3⟩ := hp
  refine ⟨o, ⟨h1, ?_⟩, h3⟩
  simp only [Option.getD_some] at h2 ⊢
  rcases h2 with h2 | h2
  · left; split_ifs at h2 ⊢ <;> omega
  · right; split_ifs at h2 ⊢ <;> omega

/-- A ridge of 100 m in the west, a cell of the given elevation, and a plain in the east. -/
def ridge (middle : Option ℝ) : Dem := ⟨1, 3, fun c => if c.2 = 0 then some 100 else if c.2 = 1 then middle else some 0⟩

theorem pos_west (o : Cell) (t : ℕ) : pos ⟨-1, 0, 1⟩ o t = (o.1, o.2 + t) := by
  simp only [pos, inv]
  norm_num
  constructor
  · exact roundEven_int _
  · rw [show ((o.2 : ℝ) + (t : ℝ)) = ((o.2 + t : ℤ) : ℝ) by push_cast; ring]; exact roundEven_int _

/-- **C72 (negated).** A missing elevation between a ridge and a cell in its shadow lights the cell: with the sun
at 45 degrees in the west, the plain 20 m behind a ridge of 100 m is shaded if the elevation in between is known
and lit if it is missing. -/
theorem C72_missing_false :
    Shaded (ridge (some 0)) 10 ⟨-1, 0, 1⟩ (some 1) (0, 2) ∧
    ∀ sweeps, ¬ Shaded (ridge none) 10 ⟨-1, 0, 1⟩ sweeps (0, 2) := by
  have hs : SunVec.Slanted ⟨-1, 0, 1⟩ := by simp [SunVec.Slanted]
  constructor
  · rw [C72_shaded_iff _ _ _ hs]
    refine ⟨(0, 0), by simp [isStart, Dem.Inside, ridge], 2, 0, by omega, fun v hv => ?_, ?_, ?_, 100, 0, ?_, ?_, ?_⟩
    · rw [pos_west]; simp only [Dem.Inside, ridge]; omega
    · rw [pos_west]; rfl
    · intro v h1 h2
      obtain rfl : v = 1 := by omega
      rw [pos_west]; simp [ridge]
    · rw [pos_west]; simp [ridge]
    · simp [ridge]
    · norm_num [Hides, lineLength, tanElevation, inv]
  · intro sweeps
    rw [C72_shaded_iff _ _ _ hs]
    rintro ⟨o, -, t, u, hu, hin, hp, hn, a, b, ha, -, -⟩
    have h0 := hin 0 (by omega)
    rw [pos_west] at hp ha h0
    simp only [Dem.Inside, ridge, Prod.mk.injEq] at hp h0
    by_cases h : o.2 + (u : ℤ) = 0
    · refine hn (u + 1) (by omega) (by omega) ?_
      rw [pos_west]; simp only [ridge]; push_cast
      rw [if_neg (by omega), if_pos (by omega)]
    · simp only [ridge] at ha
      rw [if_neg h, if_pos (by omega)] at ha
      cases ha

/-- **C72.** With `k` sweeps the lines start at the cells from which `k` steps towards the sun, along the row or along the
column, lead out of the raster; without a limit at all cells. -/
theorem C72_starts (d : Dem) (s : SunVec) (k : ℤ) (hk : 0 ≤ k) (c : Cell) :
    (isStart d s (some k) c ↔ d.Inside c ∧
      (¬ (0 ≤ c.2 + (if s.x < 0 then -k else k) ∧ c.2 + (if s.x < 0 then -k else k) < d.m) ∨
       ¬ (0 ≤ c.1 + (if s.y < 0 then -k else k) ∧ c.1 + (if s.y < 0 then -k else k) < d.n))) ∧
    (isStart d s none c ↔ d.Inside c) := by
  constructor
  · simp only [isStart, Option.getD_some, Dem.Inside]
    refine and_congr_right fun ⟨h1, h2, h3, h4⟩ => ?_
    split_ifs <;> omega
  · simp only [isStart, Option.getD_none, Dem.Inside]
    refine and_iff_left_of_imp fun ⟨h1, h2, h3, h4⟩ => ?_
    have := le_max_left d.n d.m
    have := le_max_right d.n d.m
    split_ifs <;> omega

end Verif.Shadows
