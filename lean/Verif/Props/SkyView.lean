import Verif.Model.SkyView
import Verif.Props.Shadows

/-!
# Sky view factor (C73)
-/

namespace Verif.Shadows

open Classical

theorem elevAngles_succ (k : ℕ) : elevAngles (k + 1) = (k + 1) :: elevAngles k := by
  simp [elevAngles, List.range_succ]

theorem fold_spec (lit : ℕ → Prop) (k cur : ℕ) :
    let r := (elevAngles k).foldl (fun cur e => if lit e then e else cur) cur
    (∀ e, 1 ≤ e → e ≤ k → lit e → 1 ≤ r ∧ r ≤ e ∧ lit r) ∧
    ((∀ e, 1 ≤ e → e ≤ k → ¬ lit e) → r = cur) := by
  induction k generalizing cur with
  | zero => exact ⟨fun e h1 h2 => by omega, fun _ => rfl⟩
  | succ k ih =>
    rw [elevAngles_succ, List.foldl_cons]
    obtain ⟨i1, i2⟩ := ih (if lit (k + 1) then k + 1 else cur)
    refine ⟨fun e h1 h2 hl => ?_, fun hn => ?_⟩
    · by_cases hex : ∃ e', 1 ≤ e' ∧ e' ≤ k ∧ lit e'
      · obtain ⟨e', g1, g2, g3⟩ := hex
        obtain ⟨r1, r2, r3⟩ := i1 e' g1 g2 g3
        refine ⟨r1, ?_, r3⟩
        by_cases he : e = k + 1
        · omega
        · exact (i1 e h1 (by omega) hl).2.1
      · push Not at hex
        obtain rfl : e = k + 1 := by
          by_contra hc; exact hex e h1 (by omega) hl
        have := i2 hex
        rw [if_pos hl] at this
        simp only [if_pos hl]
        rw [this]
        exact ⟨by omega, le_rfl, hl⟩
    · have := i2 fun e h1 h2 => hn e h1 (by omega)
      rw [this, if_neg (hn (k + 1) (by omega) le_rfl)]

/-- **C73.** The angle used for an azimuth is the lowest of the elevations `1, …, maxElev` from which the cell is
lit, or `maxElev` if there is none. -/
theorem C73_lowest (lit : ℕ → Prop) (maxElev : ℕ) (hm : 1 ≤ maxElev) :
    1 ≤ svfCur lit maxElev ∧ svfCur lit maxElev ≤ maxElev ∧
    (∀ e, 1 ≤ e → e ≤ maxElev → lit e → svfCur lit maxElev ≤ e ∧ lit (svfCur lit maxElev)) ∧
    ((∀ e, 1 ≤ e → e ≤ maxElev → ¬ lit e) → svfCur lit maxElev = maxElev) := by
  obtain ⟨h1, h2⟩ := fold_spec lit maxElev maxElev
  by_cases hex : ∃ e, 1 ≤ e ∧ e ≤ maxElev ∧ lit e
  · obtain ⟨e, g1, g2, g3⟩ := hex
    obtain ⟨r1, r2, r3⟩ := h1 e g1 g2 g3
    exact ⟨r1, r2.trans g2, fun e a b c => ⟨(h1 e a b c).2.1, r3⟩, fun hn => h2 hn⟩
  · push Not at hex
    have := h2 hex
    rw [show svfCur lit maxElev = maxElev from this]
    exact ⟨hm, le_rfl, fun e a b c => absurd c (hex e a b), fun _ => rfl⟩

theorem cos_deg_pos {e : ℕ} (h : e < 90) : 0 < Real.cos (e * (Real.pi / 180)) := by
  have hp := Real.pi_pos
  have h' : (e : ℝ) < 90 := by exact_mod_cast h
  have h0 : (0 : ℝ) ≤ e := Nat.cast_nonneg e
  exact Real.cos_pos_of_mem_Ioo ⟨by nlinarith [mul_nonneg h0 hp.le], by nlinarith⟩

theorem sunDir_slanted (a : ℝ) {e : ℕ} (h : e < 90) : (sunDir a e).Slanted := by
  have hc := (cos_deg_pos h).ne'
  rintro ⟨h1, h2⟩
  simp only [sunDir, mul_eq_zero, hc, or_false, neg_eq_zero] at h1 h2
  have := Real.sin_sq_add_cos_sq (a * (Real.pi / 180))
  rw [h1, h2] at this
  norm_num at this

theorem tanElevation_sunDir (a : ℝ) {e : ℕ} (h : e < 90) :
    tanElevation (sunDir a e) = Real.tan (e * (Real.pi / 180)) := by
  have hc := cos_deg_pos h
  simp only [tanElevation, sunDir]
  rw [Real.tan_eq_sin_div_cos]
  congr 1
  rw [show (Real.sin (a * (Real.pi / 180)) * Real.cos (e * (Real.pi / 180))) ^ 2 +
      (-Real.cos (a * (Real.pi / 180)) * Real.cos (e * (Real.pi / 180))) ^ 2 =
      (Real.sin (a * (Real.pi / 180)) ^ 2 + Real.cos (a * (Real.pi / 180)) ^ 2) *
        Real.cos (e * (Real.pi / 180)) ^ 2 by ring, Real.sin_sq_add_cos_sq, one_mul, Real.sqrt_sq hc.le]

/-- **C73.** The angle used is a horizon: from every elevation at or above it at which the cell was ever found lit
the cell is lit. -/
theorem C73_horizon (d : Dem) {res : ℝ} (hr : 0 ≤ res) (sweeps : Option ℤ) (a : ℝ) (c : Cell) (e e' : ℕ)
    (h1 : e ≤ e') (h2 : e' < 90) (hl : Lit d res sweeps a c e) : Lit d res sweeps a c e' := by
  intro hs
  apply hl
  have he : e < 90 := by omega
  have hc := cos_deg_pos he
  have hc' := cos_deg_pos h2
  refine C72_lower_sun d hr (sunDir a e') (sunDir a e) (sunDir_slanted a h2)
    (Real.cos (e * (Real.pi / 180)) / Real.cos (e' * (Real.pi / 180))) (div_pos hc hc') ?_ ?_ ?_ sweeps c hs
  · simp only [sunDir]; rw [div_mul_eq_mul_div, eq_div_iff hc'.ne']; ring
  · simp only [sunDir]; rw [div_mul_eq_mul_div, eq_div_iff hc'.ne']; ring
  · rw [tanElevation_sunDir a he, tanElevation_sunDir a h2]
    have hp := Real.pi_pos
    have g : (e : ℝ) ≤ e' := by exact_mod_cast h1
    have g' : (e' : ℝ) < 90 := by exact_mod_cast h2
    have g0 : (0 : ℝ) ≤ e := Nat.cast_nonneg e
    rcases eq_or_lt_of_le g with heq | hlt
    · rw [heq]
    · refine (Real.tan_lt_tan_of_lt_of_lt_pi_div_two ?_ ?_ ?_).le
      · nlinarith [mul_nonneg g0 hp.le]
      · nlinarith
      · nlinarith

theorem cos_one_deg_lt : Real.cos (1 * (Real.pi / 180)) < 1 := by
  have hp := Real.pi_pos
  have := Real.cos_lt_cos_of_nonneg_of_le_pi le_rfl (show (1 : ℝ) * (Real.pi / 180) ≤ Real.pi by linarith)
    (by positivity)
  rwa [Real.cos_zero] at this

/-- **C73.** The sky view factor lies between 0 and 1; for rasters of more than one cell it never reaches 1, since
no elevation below one degree is looked at. -/
theorem C73_range (d : Dem) (res : ℝ) (sweeps : Option ℤ) (azims : List ℝ) (ha : azims ≠ []) (maxElev : ℕ)
    (hm : 1 ≤ maxElev) (hm' : maxElev ≤ 90) (c : Cell) :
    0 ≤ skyView d res sweeps azims maxElev c ∧ skyView d res sweeps azims maxElev c ≤ 1 ∧
    (¬(d.n = 1 ∧ d.m = 1) → skyView d res sweeps azims maxElev c ≤ Real.cos (1 * (Real.pi / 180)) ^ 2) := by
  have hp := Real.pi_pos
  have hlen : 0 < (azims.length : ℝ) := by exact_mod_cast List.length_pos_iff.2 ha
  have hterm : ∀ a, 0 ≤ Real.cos (svfCur (Lit d res sweeps a c) maxElev * (Real.pi / 180)) ^ 2 ∧
      Real.cos (svfCur (Lit d res sweeps a c) maxElev * (Real.pi / 180)) ^ 2 ≤
        Real.cos (1 * (Real.pi / 180)) ^ 2 := by
    intro a
    obtain ⟨h1, h2, -⟩ := C73_lowest (Lit d res sweeps a c) maxElev hm
    have g1 : (1 : ℝ) ≤ svfCur (Lit d res sweeps a c) maxElev := by exact_mod_cast h1
    have g2 : (svfCur (Lit d res sweeps a c) maxElev : ℝ) ≤ 90 := by exact_mod_cast h2.trans hm'
    refine ⟨sq_nonneg _, pow_le_pow_left₀ (Real.cos_nonneg_of_mem_Icc ⟨?_, ?_⟩) ?_ 2⟩
    · nlinarith
    · nlinarith
    · exact Real.cos_le_cos_of_nonneg_of_le_pi (by positivity) (by nlinarith) (by nlinarith)
  have hsum : ∀ (l : List ℝ) (f : ℝ → ℝ) (B : ℝ), (∀ a, 0 ≤ f a ∧ f a ≤ B) →
      0 ≤ (l.map f).sum ∧ (l.map f).sum ≤ l.length * B := by
    intro l f B h
    induction l with
    | nil => simp
    | cons a l ih =>
      simp only [List.map_cons, List.sum_cons, List.length_cons]; push_cast
      have := h a
      constructor <;> linarith
  obtain ⟨s1, s2⟩ := hsum azims _ _ hterm
  have hub : (azims.map fun a =>
      Real.cos (svfCur (Lit d res sweeps a c) maxElev * (Real.pi / 180)) ^ 2).sum / azims.length ≤
      Real.cos (1 * (Real.pi / 180)) ^ 2 := by rw [div_le_iff₀ hlen]; linarith
  have hle : Real.cos (1 * (Real.pi / 180)) ^ 2 ≤ 1 := Real.cos_sq_le_one _
  unfold skyView
  split_ifs with h
  · exact ⟨by norm_num, le_rfl, fun h' => absurd h h'⟩
  · exact ⟨div_nonneg s1 hlen.le, hub.trans hle, fun _ => hub⟩

/-- **C73 (partial).** Flat terrain is lit from every examined elevation, so the factor is the largest the
procedure can return. The claim that it is 1 is false: see `C73_flat_false`. -/
theorem C73_flat_partial (d : Dem) {res : ℝ} (hr : 0 ≤ res) (sweeps : Option ℤ) (z : ℝ)
    (hd : ∀ c, d.Inside c → d.z c = some z) (a : ℝ) (c : Cell) (e : ℕ) (he : e < 90) :
    Lit d res sweeps a c e := by
  have h0 : (0 : ℝ) ≤ e := Nat.cast_nonneg e
  have h1 : (e : ℝ) < 90 := by exact_mod_cast he
  have hp := Real.pi_pos
  exact C72_flat d hr _ (sunDir_slanted a he)
    (Real.sin_nonneg_of_nonneg_of_le_pi (by positivity) (by nlinarith)) sweeps z hd c

/-- **C73 (negated).** Flat terrain of more than one cell does not have sky view factor 1 but the squared cosine of
one degree, for every list of azimuths; the claim holds for a single cell only. -/
theorem C73_flat_false (d : Dem) {res : ℝ} (hr : 0 ≤ res) (sweeps : Option ℤ) (azims : List ℝ) (ha : azims ≠ [])
    (z : ℝ) (hd : ∀ c, d.Inside c → d.z c = some z) (h1 : ¬(d.n = 1 ∧ d.m = 1))
    (maxElev : ℕ) (hm : 1 ≤ maxElev) (hm' : maxElev < 90) (c : Cell) :
    skyView d res sweeps azims maxElev c = Real.cos (1 * (Real.pi / 180)) ^ 2 ∧
    skyView d res sweeps azims maxElev c < 1 := by
  have hp := Real.pi_pos
  have hcur : ∀ a, svfCur (Lit d res sweeps a c) maxElev = 1 := fun a => by
    obtain ⟨g1, -, g3, -⟩ := C73_lowest (Lit d res sweeps a c) maxElev hm
    have := (g3 1 le_rfl hm (C73_flat_partial d hr sweeps z hd a c 1 (by omega))).1
    omega
  have hlen : (azims.length : ℝ) ≠ 0 := by exact_mod_cast (List.length_pos_iff.2 ha).ne'
  have hv : skyView d res sweeps azims maxElev c = Real.cos (1 * (Real.pi / 180)) ^ 2 := by
    unfold skyView
    rw [if_neg h1]
    simp only [hcur, Nat.cast_one, List.map_const', List.sum_replicate, nsmul_eq_mul]
    field_simp
  have hc0 : 0 ≤ Real.cos (1 * (Real.pi / 180)) := by
    have := (cos_deg_pos (show 1 < 90 by norm_num)).le
    simpa using this
  exact ⟨hv, by rw [hv]; have := cos_one_deg_lt; nlinarith⟩

example : (∀ c, Dem.Inside ⟨2, 2, fun _ => some 5⟩ c → (Dem.mk 2 2 fun _ => some 5).z c = some 5) ∧
    ¬((2 : ℤ) = 1 ∧ (2 : ℤ) = 1) := ⟨fun _ _ => rfl, by norm_num⟩

end Verif.Shadows
