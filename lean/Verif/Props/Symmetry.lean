import Verif.Props.Terrain
import Verif.Props.Shadows

/-!
# C139: no preferred direction
-/

set_option linter.unusedSectionVars false

namespace Verif.Terrain

open Real

/-! ## Specification -/

/-- Raster mirrored east-west. -/
def mirrorEW {K : Type*} (m : ℕ) (d : ℕ → ℕ → K) : ℕ → ℕ → K := fun i j => d i (m - 1 - j)

/-- Raster mirrored north-south. -/
def mirrorNS {K : Type*} (n : ℕ) (d : ℕ → ℕ → K) : ℕ → ℕ → K := fun i j => d (n - 1 - i) j

/-- Raster mirrored at the diagonal from north-west to south-east. -/
def transpose {K : Type*} (d : ℕ → ℕ → K) : ℕ → ℕ → K := fun i j => d j i

/-- Directions (degrees) `a` and `b` with `b` the direction `a` after the mirroring of (east, north) by `f`. -/
def Mirrored (f : ℝ × ℝ → ℝ × ℝ) (a b : ℝ) : Prop :=
  (sin (b * (π / 180)), cos (b * (π / 180))) = f (sin (a * (π / 180)), cos (a * (π / 180)))

/-! ## Slope and aspect -/

section gradient
variable {K : Type*} [Field K] {n m i j : ℕ} (hn : 3 ≤ n) (hm : 3 ≤ m) (hi : i < n) (hj : j < m) (res : K) (d : ℕ → ℕ → K)
include hn hm hi hj

theorem grad_mirrorEW : dzdx n m res (mirrorEW m d) i (m - 1 - j) = -dzdx n m res d i j ∧
    dzdy n m res (mirrorEW m d) i (m - 1 - j) = dzdy n m res d i j := by
  have hj' : m - 1 - j < m := by omega
  simp only [dzdx, dzdy, za_eq hn hm hi hj', zb_eq hn hm hi hj', zc_eq hn hm hi hj', zd_eq hn hm hi hj', zf_eq hn hm hi hj',
    zg_eq hn hm hi hj', zh_eq hn hm hi hj', zi_eq hn hm hi hj', za_eq hn hm hi hj, zb_eq hn hm hi hj, zc_eq hn hm hi hj,
    zd_eq hn hm hi hj, zf_eq hn hm hi hj, zg_eq hn hm hi hj, zh_eq hn hm hi hj, zi_eq hn hm hi hj, mirrorEW]
  rw [show m - 1 - (max (m - 1 - j) 1 - 1) = min j (m - 2) + 1 by omega,
    show m - 1 - (min (m - 1 - j) (m - 2) + 1) = max j 1 - 1 by omega, show m - 1 - (m - 1 - j) = j by omega]
  constructor <;> ring

theorem grad_mirrorNS : dzdx n m res (mirrorNS n d) (n - 1 - i) j = dzdx n m res d i j ∧
    dzdy n m res (mirrorNS n d) (n - 1 - i) j = -dzdy n m res d i j := by
  have hi' : n - 1 - i < n := by omega
  simp only [dzdx, dzdy, za_eq hn hm hi' hj, zb_eq hn hm hi' hj, zc_eq hn hm hi' hj, zd_eq hn hm hi' hj, zf_eq hn hm hi' hj,
    zg_eq hn hm hi' hj, zh_eq hn hm hi' hj, zi_eq hn hm hi' hj, za_eq hn hm hi hj, zb_eq hn hm hi hj, zc_eq hn hm hi hj,
    zd_eq hn hm hi hj, zf_eq hn hm hi hj, zg_eq hn hm hi hj, zh_eq hn hm hi hj, zi_eq hn hm hi hj, mirrorNS]
  rw [show n - 1 - (max (n - 1 - i) 1 - 1) = min i (n - 2) + 1 by omega,
    show n - 1 - (min (n - 1 - i) (n - 2) + 1) = max i 1 - 1 by omega, show n - 1 - (n - 1 - i) = i by omega]
  constructor <;> ring

theorem grad_transpose : dzdx m n res (transpose d) j i = dzdy n m res d i j ∧
    dzdy m n res (transpose d) j i = dzdx n m res d i j := by
  simp only [dzdx, dzdy, za_eq hm hn hj hi, zb_eq hm hn hj hi, zc_eq hm hn hj hi, zd_eq hm hn hj hi, zf_eq hm hn hj hi,
    zg_eq hm hn hj hi, zh_eq hm hn hj hi, zi_eq hm hn hj hi, za_eq hn hm hi hj, zb_eq hn hm hi hj, zc_eq hn hm hi hj,
    zd_eq hn hm hi hj, zf_eq hn hm hi hj, zg_eq hn hm hi hj, zh_eq hn hm hi hj, zi_eq hn hm hi hj, transpose]
  exact ⟨trivial, trivial⟩

end gradient

/-- Two azimuths of directions of the same length. -/
theorem azimuth_eq {a b e n e' n' : ℝ} (ha : IsAzimuth a e n) (hb : IsAzimuth b e' n') (h : e' ^ 2 + n' ^ 2 = e ^ 2 + n ^ 2) :
    ∃ r, 0 < r ∧ e = r * sin (a * (π / 180)) ∧ n = r * cos (a * (π / 180)) ∧ e' = r * sin (b * (π / 180)) ∧
      n' = r * cos (b * (π / 180)) := by
  obtain ⟨-, -, r, hr, h1, h2⟩ := ha
  obtain ⟨-, -, s, hs, h3, h4⟩ := hb
  have e1 : e ^ 2 + n ^ 2 = r ^ 2 := by
    rw [h1, h2]
    linear_combination r ^ 2 * sin_sq_add_cos_sq (a * (π / 180))
  have e2 : e' ^ 2 + n' ^ 2 = s ^ 2 := by
    rw [h3, h4]
    linear_combination s ^ 2 * sin_sq_add_cos_sq (b * (π / 180))
  have : s = r := by
    rw [← sq_eq_sq₀ hs.le hr.le, ← e1, ← e2, h]
  exact ⟨r, hr, h1, h2, this ▸ h3, this ▸ h4⟩

/-- Slope and aspect for a mirrored gradient. -/
theorem slopeAspect_mirrored (f : ℝ × ℝ → ℝ × ℝ) (hf : ∀ r p, f (r * p.1, r * p.2) = (r * (f p).1, r * (f p).2))
    (hl : ∀ p, (f p).1 ^ 2 + (f p).2 ^ 2 = p.1 ^ 2 + p.2 ^ 2) {gx gy gx' gy' : ℝ} (h : (-gx', gy') = f (-gx, gy)) :
    slopeOf gx' gy' = slopeOf gx gy ∧ (¬(gx = 0 ∧ gy = 0) → Mirrored f (aspectOf gx gy) (aspectOf gx' gy')) := by
  have hlen : gx' ^ 2 + gy' ^ 2 = gx ^ 2 + gy ^ 2 := by
    have := hl (-gx, gy)
    rw [← h] at this
    simpa using this
  refine ⟨by rw [slopeOf, slopeOf, hlen], fun hne => ?_⟩
  have hne' : ¬(gx' = 0 ∧ gy' = 0) := by
    rintro ⟨rfl, rfl⟩
    apply hne
    constructor <;> nlinarith [sq_nonneg gx, sq_nonneg gy]
  obtain ⟨r, hr, h1, h2, h3, h4⟩ := azimuth_eq (aspect_azimuth gx gy hne) (aspect_azimuth gx' gy' hne') (by linarith)
  have e1 : (-gx, gy) = (r * sin (aspectOf gx gy * (π / 180)), r * cos (aspectOf gx gy * (π / 180))) := Prod.ext h1 h2
  have e2 : (-gx', gy') = (r * sin (aspectOf gx' gy' * (π / 180)), r * cos (aspectOf gx' gy' * (π / 180))) := Prod.ext h3 h4
  have h' := e2.symm.trans (h.trans ((congrArg f e1).trans (hf r (_, _))))
  simp only [Prod.mk.injEq] at h'
  unfold Mirrored
  ext
  · exact mul_left_cancel₀ hr.ne' h'.1
  · exact mul_left_cancel₀ hr.ne' h'.2

/-- **C139 (slope and aspect).** At every pixel, borders included: slope is the same in the mirrored terrain, and the aspect of
a pixel that is not flat is mirrored. -/
theorem C139_slope {n m i j : ℕ} (hn : 3 ≤ n) (hm : 3 ≤ m) (hi : i < n) (hj : j < m) (res : ℝ) (d : ℕ → ℕ → ℝ) :
    let s := slopeAspect n m res d i j
    let ew := slopeAspect n m res (mirrorEW m d) i (m - 1 - j)
    let ns := slopeAspect n m res (mirrorNS n d) (n - 1 - i) j
    let t := slopeAspect m n res (transpose d) j i
    ew.1 = s.1 ∧ ns.1 = s.1 ∧ t.1 = s.1 ∧ (s.1 ≠ 0 → ∃ a b c e, s.2 = some a ∧ ew.2 = some b ∧ ns.2 = some c ∧ t.2 = some e ∧
      Mirrored (fun p => (-p.1, p.2)) a b ∧ Mirrored (fun p => (p.1, -p.2)) a c ∧ Mirrored (fun p => (-p.2, -p.1)) a e) := by
  obtain ⟨a1, a2⟩ := grad_mirrorEW hn hm hi hj res d
  obtain ⟨b1, b2⟩ := grad_mirrorNS hn hm hi hj res d
  obtain ⟨c1, c2⟩ := grad_transpose hn hm hi hj res d
  have h1 : ¬(n < 3 ∨ m < 3) := by omega
  have h2 : ¬(m < 3 ∨ n < 3) := by omega
  simp only [slopeAspect, if_neg h1, if_neg h2, a1, a2, b1, b2, c1, c2]
  obtain ⟨x, hx⟩ : ∃ x, dzdx n m res d i j = x := ⟨_, rfl⟩
  obtain ⟨y, hy⟩ : ∃ y, dzdy n m res d i j = y := ⟨_, rfl⟩
  rw [hx, hy]
  have p1 := slopeAspect_mirrored (fun p => (-p.1, p.2)) (fun r p => by simp) (fun p => by ring)
    (gx := x) (gy := y) (gx' := -x) (gy' := y) rfl
  have p2 := slopeAspect_mirrored (fun p => (p.1, -p.2)) (fun r p => by simp) (fun p => by ring)
    (gx := x) (gy := y) (gx' := x) (gy' := -y) rfl
  have p3 := slopeAspect_mirrored (fun p => (-p.2, -p.1)) (fun r p => by simp) (fun p => by ring)
    (gx := x) (gy := y) (gx' := y) (gy' := x) (by simp)
  refine ⟨p1.1, p2.1, p3.1, fun hs => ⟨_, _, _, _, rfl, rfl, rfl, rfl, ?_⟩⟩
  have hne : ¬(x = 0 ∧ y = 0) := by
    rintro ⟨rfl, rfl⟩
    exact hs (by simp [slopeOf, deg])
  exact ⟨p1.2 hne, p2.2 hne, p3.2 hne⟩

/-- **C139 (curvature).** Curvature is the same in the mirrored terrain, at every pixel. -/
theorem C139_curvature {n m i j : ℕ} (hi : i < n) (hj : j < m) (k : ℕ) (L : ℝ) (d : ℕ → ℕ → ℝ) :
    curvature n m k L (mirrorEW m d) i (m - 1 - j) = curvature n m k L d i j ∧
    curvature n m k L (mirrorNS n d) (n - 1 - i) j = curvature n m k L d i j ∧
    curvature m n k L (transpose d) j i = curvature n m k L d i j := by
  refine ⟨?_, ?_, ?_⟩
  · simp only [curvature, shiftEdge, shiftIdx, mirrorEW]
    rw [show m - 1 - (min (m - 1 - j + k) (m - 1)) = j - k by omega,
      show m - 1 - (m - 1 - j - k) = min (j + k) (m - 1) by omega, show m - 1 - (m - 1 - j) = j by omega]
    ring
  · simp only [curvature, shiftEdge, shiftIdx, mirrorNS]
    rw [show n - 1 - (min (n - 1 - i + k) (n - 1)) = i - k by omega,
      show n - 1 - (n - 1 - i - k) = min (i + k) (n - 1) by omega, show n - 1 - (n - 1 - i) = i by omega]
    ring
  · simp only [curvature, shiftEdge, shiftIdx, transpose]
    ring

/-! ## Normal vectors -/

/-- **C139 (normal vectors).** In the terrain mirrored east-west a pixel gets the mirrored normal vector of the western
neighbour, in the terrain mirrored north-south that of the southern neighbour. -/
theorem C139_normal_shift {n m i j : ℕ} (hn : 3 ≤ n) (hm : 3 ≤ m) (hi : i < n) (hj : j < m) (res : ℝ) (d : ℕ → ℕ → ℝ) :
    (0 < j → normalVector n m res (mirrorEW m d) i (m - 1 - j) =
      (-(normalVector n m res d i (j - 1)).1, (normalVector n m res d i (j - 1)).2)) ∧
    (i + 1 < n → normalVector n m res (mirrorNS n d) (n - 1 - i) j =
      ((normalVector n m res d (i + 1) j).1, -(normalVector n m res d (i + 1) j).2.1, (normalVector n m res d (i + 1) j).2.2)) := by
  have h1 : ¬(n < 3 ∨ m < 3) := by omega
  constructor
  · intro h0
    have e : rawNormal n m res (mirrorEW m d) i (m - 1 - j) =
        (-(rawNormal n m res d i (j - 1)).1, (rawNormal n m res d i (j - 1)).2) := by
      rw [rawNormal_eq hn hm hi (show m - 1 - j < m by omega), rawNormal_eq hn hm hi (show j - 1 < m by omega)]
      simp only [mirrorEW]
      rw [show m - 1 - min (m - 1 - j) (m - 2) = min (j - 1) (m - 2) + 1 by omega,
        show m - 1 - (min (m - 1 - j) (m - 2) + 1) = min (j - 1) (m - 2) by omega]
      ext
      · ring
      · ring
      · rfl
    simp only [normalVector, if_neg h1, e, neg_sq, neg_div]
  · intro h0
    have e : rawNormal n m res (mirrorNS n d) (n - 1 - i) j =
        ((rawNormal n m res d (i + 1) j).1, -(rawNormal n m res d (i + 1) j).2.1, (rawNormal n m res d (i + 1) j).2.2) := by
      rw [rawNormal_eq hn hm (show n - 1 - i < n by omega) hj, rawNormal_eq hn hm h0 hj]
      simp only [mirrorNS]
      rw [show n - 1 - max (n - 1 - i) 1 = max (i + 1) 1 - 1 by omega,
        show n - 1 - (max (n - 1 - i) 1 - 1) = max (i + 1) 1 by omega]
      ext
      · ring
      · ring
      · rfl
    simp only [normalVector, if_neg h1, e, neg_sq, neg_div]

/-- **C139 fails for normal vectors.** The crest of every ridge that is the same on both sides (`2c+1` columns) faces east: the
sun in the east is steeper on it than the sun at the same place in the west. -/
theorem C139_normal_false {n c i : ℕ} (hn : 3 ≤ n) (hc : 1 ≤ c) (hi : i < n) {res : ℝ} (hr : 0 < res) (d : ℕ → ℕ → ℝ)
    (_hd : ∀ i j, j < 2 * c + 1 → mirrorEW (2 * c + 1) d i j = d i j) (hcrest : ∀ i, i < n → d i (c + 1) < d i c) :
    0 < (normalVector n (2 * c + 1) res d i c).1 ∧ ∀ x y z : ℝ, 0 < x →
      incidence (-x, y, z) (normalVector n (2 * c + 1) res d i c) < incidence (x, y, z) (normalVector n (2 * c + 1) res d i c) := by
  have hm : 3 ≤ 2 * c + 1 := by omega
  have h1 : ¬(n < 3 ∨ 2 * c + 1 < 3) := by omega
  have hx : 0 < (normalVector n (2 * c + 1) res d i c).1 := by
    simp only [normalVector, if_neg h1, rawNormal_eq hn hm hi (show c < 2 * c + 1 by omega)]
    rw [show min c (2 * c + 1 - 2) = c by omega]
    have a := hcrest (max i 1) (by omega)
    have b := hcrest (max i 1 - 1) (by omega)
    apply div_pos
    · have : 0 < d (max i 1) c - d (max i 1) (c + 1) + d (max i 1 - 1) c - d (max i 1 - 1) (c + 1) := by linarith
      positivity
    · apply Real.sqrt_pos.mpr
      positivity
  refine ⟨hx, fun x y z h => ?_⟩
  simp only [incidence]
  have := mul_pos h hx
  linarith

/-- A ridge of three columns. -/
example : ∃ d : ℕ → ℕ → ℝ, (∀ i j, j < 2 * 1 + 1 → mirrorEW (2 * 1 + 1) d i j = d i j) ∧ ∀ i, i < 3 → d i (1 + 1) < d i 1 := by
  refine ⟨fun _ j => if j = 1 then 10 else 0, fun i j hj => ?_, fun i _ => by norm_num⟩
  simp only [mirrorEW]
  by_cases h : j = 1
  · simp [h]
  · rw [if_neg h, if_neg (by omega)]

/-- The border of a sloping raster is not flat. -/
example : (slopeAspect 3 3 1 (fun _ j => (j : ℝ)) 0 0).1 ≠ 0 := by
  simp only [slopeAspect, dzdx, dzdy, za_eq (show 3 ≤ 3 by omega) (show 3 ≤ 3 by omega) (show 0 < 3 by omega) (show 0 < 3 by omega)]
  rw [zb_eq (n := 3) (m := 3) (i := 0) (j := 0) (by omega) (by omega) (by omega) (by omega),
    zd_eq (n := 3) (m := 3) (i := 0) (j := 0) (by omega) (by omega) (by omega) (by omega),
    zf_eq (n := 3) (m := 3) (i := 0) (j := 0) (by omega) (by omega) (by omega) (by omega),
    zh_eq (n := 3) (m := 3) (i := 0) (j := 0) (by omega) (by omega) (by omega) (by omega)]
  norm_num [slopeOf, deg, zc_eq, zg_eq, zi_eq]

end Verif.Terrain

namespace Verif.Shadows

open Classical

/-! ## Specification: mirrored terrain and sun -/

def Dem.mirrorEW (d : Dem) : Dem := ⟨d.n, d.m, fun c => d.z (c.1, d.m - 1 - c.2)⟩
def Dem.mirrorNS (d : Dem) : Dem := ⟨d.n, d.m, fun c => d.z (d.n - 1 - c.1, c.2)⟩
def Dem.transpose (d : Dem) : Dem := ⟨d.m, d.n, fun c => d.z (c.2, c.1)⟩

def SunVec.mirrorEW (s : SunVec) : SunVec := ⟨-s.x, s.y, s.z⟩
def SunVec.mirrorNS (s : SunVec) : SunVec := ⟨s.x, -s.y, s.z⟩
def SunVec.transpose (s : SunVec) : SunVec := ⟨s.y, s.x, s.z⟩

/-- No step of a line with increment `v` per step ends exactly between two cells. -/
def NoTie (v : ℝ) : Prop := ∀ (t : ℕ) (k : ℤ), v * t ≠ k + 1 / 2

/-! ## Lines -/

theorem roundEven_sub (k : ℤ) (x : ℝ) (h : k % 2 = 0 ∨ ∀ l : ℤ, x ≠ l + 1 / 2) : roundEven (k - x) = k - roundEven x := by
  obtain ⟨f, hf⟩ : ∃ f, ⌊x⌋ = f := ⟨_, rfl⟩
  have l1 : (f : ℝ) ≤ x := hf ▸ Int.floor_le x
  have l2 : x < f + 1 := hf ▸ Int.lt_floor_add_one x
  rcases eq_or_lt_of_le l1 with e | l1
  · rw [← e, roundEven_int]
    have := roundEven_int (k - f)
    push_cast at this
    exact this
  have hg : ⌊(k : ℝ) - x⌋ = k - f - 1 := by
    rw [Int.floor_eq_iff]
    push_cast
    constructor <;> linarith
  unfold roundEven
  rw [hf, hg]
  push_cast
  rcases lt_trichotomy (x - f) (1 / 2) with c | c | c
  · rw [if_pos c, if_neg (by linarith), if_pos (by linarith)]
    ring
  · rw [if_neg (show ¬ x - f < 1 / 2 by linarith), if_neg (show ¬ 1 / 2 < x - f by linarith),
      if_neg (show ¬ (k : ℝ) - x - (k - f - 1) < 1 / 2 by linarith), if_neg (show ¬ 1 / 2 < (k : ℝ) - x - (k - f - 1) by linarith)]
    have hk : k % 2 = 0 := h.resolve_right fun h' => h' f (by linarith)
    by_cases hp : f % 2 = 0
    · rw [if_pos hp, if_neg (by omega)]
      ring
    · rw [if_neg hp, if_pos (by omega)]
      ring
  · rw [if_neg (show ¬ x - f < 1 / 2 by linarith), if_pos c, if_pos (show (k : ℝ) - x - (k - f - 1) < 1 / 2 by linarith)]
    ring

theorem noTie_add {v : ℝ} (h : NoTie v) (c : ℤ) (t : ℕ) (l : ℤ) : (c : ℝ) + v * t ≠ l + 1 / 2 := fun e =>
  h t (l - c) (by push_cast; linarith)

section map
variable (φ : Cell → Cell) (hφ : Function.Bijective φ) {d d' : Dem} {s s' : SunVec} {res : ℝ} {sweeps : Option ℤ}
  (hin : ∀ c, d'.Inside (φ c) ↔ d.Inside c) (hpos : ∀ o t, pos s' (φ o) t = φ (pos s o t))
  (hz : ∀ o t, zProj d' res s' (φ o) t = zProj d res s o t)
include hin hpos hz

theorem sweep_map (o : Cell) (fuel : ℕ) : ∀ t mx, sweep d' res s' (φ o) fuel t mx = (sweep d res s o fuel t mx).map φ := by
  induction fuel with
  | zero => intros; rfl
  | succ k ih =>
    intro t mx
    rw [sweep, sweep, hpos, hz]
    by_cases h1 : d.Inside (pos s o t)
    · rw [if_neg (not_not.mpr h1), if_neg (not_not.mpr ((hin _).mpr h1))]
      by_cases h2 : below (zProj d res s o t) mx = true
      · rw [if_pos h2, if_pos h2, ih, List.map_cons]
      · rw [if_neg h2, if_neg h2, ih]
    · rw [if_pos h1, if_pos (mt (hin _).mp h1), List.map_nil]

include hφ

theorem shaded_map (hst : ∀ o, isStart d' s' sweeps (φ o) ↔ isStart d s sweeps o) (hsteps : steps d' = steps d) (c : Cell) :
    Shaded d' res s' sweeps (φ c) ↔ Shaded d res s sweeps c := by
  unfold Shaded written
  constructor
  · rintro ⟨o', h1, h2⟩
    obtain ⟨o, rfl⟩ := hφ.2 o'
    rw [sweep_map φ hin hpos hz, hsteps, List.mem_map_of_injective hφ.1] at h2
    exact ⟨o, (hst o).mp h1, h2⟩
  · rintro ⟨o, h1, h2⟩
    refine ⟨φ o, (hst o).mpr h1, ?_⟩
    rw [sweep_map φ hin hpos hz, hsteps, List.mem_map_of_injective hφ.1]
    exact h2

end map

theorem isStart_ew (d : Dem) (s : SunVec) (sweeps : Option ℤ) (hx : s.x ≠ 0) (o : Cell) :
    isStart d.mirrorEW s.mirrorEW sweeps (o.1, d.m - 1 - o.2) ↔ isStart d s sweeps o := by
  simp only [isStart, Dem.mirrorEW, SunVec.mirrorEW, Dem.Inside, Left.neg_neg_iff]
  rcases lt_or_gt_of_ne hx with h | h
  · rw [if_neg h.le.not_gt, if_pos h]
    constructor
    · rintro ⟨a, b⟩
      exact ⟨by omega, b.imp (by omega) id⟩
    · rintro ⟨a, b⟩
      exact ⟨by omega, b.imp (by omega) id⟩
  · rw [if_pos h, if_neg h.le.not_gt]
    constructor
    · rintro ⟨a, b⟩
      exact ⟨by omega, b.imp (by omega) id⟩
    · rintro ⟨a, b⟩
      exact ⟨by omega, b.imp (by omega) id⟩

/-- **C139 (shadows, mirrored at the diagonal).** A cell is shaded in the transposed terrain with the transposed sun exactly if
it is shaded. -/
theorem C139_shadows_transpose (d : Dem) (res : ℝ) (s : SunVec) (sweeps : Option ℤ) (c : Cell) :
    Shaded d.transpose res s.transpose sweeps (c.2, c.1) ↔ Shaded d res s sweeps c := by
  have hinv : inv s.transpose = ((inv s).2, (inv s).1) := by
    simp only [inv, SunVec.transpose, max_comm]
  have hsun : normalSun s.transpose = ((normalSun s).2.1, (normalSun s).1, (normalSun s).2.2) := by
    simp only [normalSun, SunVec.transpose, add_comm]
  have hpos : ∀ (o : Cell) t, pos s.transpose (o.2, o.1) t = ((pos s o t).2, (pos s o t).1) := by
    intro o t
    simp only [pos, hinv]
  refine shaded_map (fun c => (c.2, c.1)) ⟨fun a b h => ?_, fun b => ⟨(b.2, b.1), rfl⟩⟩ (fun o => ?_) hpos (fun o t => ?_)
    (fun o => ?_) ?_ c
  · simp only [Prod.mk.injEq] at h
    exact Prod.ext h.2 h.1
  · simp only [Dem.Inside, Dem.transpose]
    omega
  · simp only [zProj, hpos, hinv, hsun, Dem.transpose]
    congr 1
    funext z
    ring
  · simp only [isStart, Dem.Inside, Dem.transpose, SunVec.transpose, max_comm]
    rw [or_comm]
    exact and_congr_left fun _ => by omega
  · simp only [steps, Dem.transpose, max_comm]

/-- The sun not in the north or south. -/
theorem shadows_mirrorEW_ne (d : Dem) (res : ℝ) (s : SunVec) (hx : s.x ≠ 0) (sweeps : Option ℤ) (c : Cell)
    (h : d.m % 2 = 1 ∨ NoTie (inv s).1) :
    Shaded d.mirrorEW res s.mirrorEW sweeps (c.1, d.m - 1 - c.2) ↔ Shaded d res s sweeps c := by
  have hinv : inv s.mirrorEW = (-(inv s).1, (inv s).2) := by
    simp only [inv, SunVec.mirrorEW, abs_neg, neg_div]
  have hsun : normalSun s.mirrorEW = (-(normalSun s).1, (normalSun s).2) := by
    simp only [normalSun, SunVec.mirrorEW, neg_sq, neg_mul, neg_div]
  have hpos : ∀ (o : Cell) t, pos s.mirrorEW (o.1, d.m - 1 - o.2) t = ((pos s o t).1, d.m - 1 - (pos s o t).2) := by
    intro o t
    simp only [pos, hinv]
    congr 1
    rw [← roundEven_sub]
    · push_cast
      congr 1
      ring
    · rcases h with h | h
      · left
        omega
      · right
        exact noTie_add h _ _
  refine shaded_map (fun c => (c.1, d.m - 1 - c.2)) ⟨fun a b h => ?_, fun b => ⟨(b.1, d.m - 1 - b.2), by simp⟩⟩ (fun o => ?_) hpos
    (fun o t => ?_) (isStart_ew d s sweeps hx) rfl c
  · simp only [Prod.mk.injEq] at h
    exact Prod.ext h.1 (by omega)
  · simp only [Dem.Inside, Dem.mirrorEW]
    omega
  · simp only [zProj, hpos, hinv, hsun, Dem.mirrorEW, sub_sub_cancel]
    congr 1
    funext z
    ring

/-! The sun exactly in the north or south: the lines that start within a column add nothing. -/

/-- First row of the raster, seen from a sun in the north or south. -/
noncomputable def edge (d : Dem) (s : SunVec) : ℤ := if s.y < 0 then 0 else d.n - 1

/-- Step in row direction. -/
noncomputable def rowStep (s : SunVec) : ℤ := if s.y < 0 then 1 else -1

theorem pos_meridian (s : SunVec) (hx : s.x = 0) (hy : s.y ≠ 0) (o : Cell) (t : ℕ) :
    pos s o t = (o.1 + rowStep s * t, o.2) := by
  have h1 : inv s = (0, (rowStep s : ℝ)) := by
    simp only [inv, rowStep, hx, abs_zero, neg_zero, zero_div, max_eq_right (abs_nonneg s.y)]
    congr 1
    rcases lt_or_gt_of_ne hy with h | h
    · rw [if_pos h, abs_of_neg h]
      push_cast
      exact div_self (by linarith)
    · rw [if_neg h.le.not_gt, abs_of_pos h, neg_div, div_self hy]
      push_cast
      rfl
  simp only [pos, h1, zero_mul, add_zero, roundEven_int]
  congr 1
  have := roundEven_int (o.1 + rowStep s * t)
  push_cast at this
  exact this

theorem shaded_meridian (d : Dem) (res : ℝ) (s : SunVec) (hx : s.x = 0) (hy : s.y ≠ 0) (sweeps : Option ℤ) (p : Cell) :
    Shaded d res s sweeps p ↔ ∃ o, (d.Inside o ∧ 1 ≤ sweeps.getD (max d.n d.m) ∧ o.1 = edge d s) ∧ HiddenOn d res s o p := by
  rw [C72_shaded_iff d res s fun h => hy h.2]
  constructor
  · rintro ⟨o, h1, t, u, hu, hin, hp, hn, a, b, ha, hb, hh⟩
    obtain ⟨⟨i1, i2, i3, i4⟩, h2⟩ := h1
    have hk : 1 ≤ sweeps.getD (max d.n d.m) := by
      simp only [hx, lt_irrefl, if_false] at h2
      rcases h2 with h2 | h2
      · omega
      · split_ifs at h2 <;> omega
    obtain ⟨δ, hδ⟩ : ∃ δ : ℕ, o.1 = edge d s + rowStep s * δ := by
      unfold edge rowStep
      split_ifs
      · exact ⟨o.1.toNat, by omega⟩
      · exact ⟨(d.n - 1 - o.1).toNat, by omega⟩
    have hpos : ∀ v, pos s (edge d s, o.2) (v + δ) = pos s o v := by
      intro v
      rw [pos_meridian s hx hy, pos_meridian s hx hy, hδ]
      push_cast
      congr 1
      ring
    have hlast := hin t le_rfl
    refine ⟨(edge d s, o.2), ⟨?_, hk, rfl⟩, t + δ, u + δ, by omega, fun v hv => ?_, (hpos t).trans hp, fun v h3 h4 => ?_, a, b,
      by rw [hpos]; exact ha, hb, ?_⟩
    · simp only [Dem.Inside, edge]
      split_ifs <;> omega
    · rw [pos_meridian s hx hy] at hlast ⊢
      simp only [Dem.Inside] at hlast ⊢
      rw [hδ] at hlast
      revert hlast
      unfold edge rowStep
      split_ifs <;> intro hlast <;> refine ⟨i1, i2, ?_, ?_⟩ <;> push_cast at * <;> omega
    · obtain ⟨w, rfl⟩ : ∃ w, v = w + δ := ⟨v - δ, by omega⟩
      rw [hpos]
      exact hn w (by omega) (by omega)
    · push_cast
      rw [show (t : ℝ) + δ - (u + δ) = t - u by ring]
      exact hh
  · rintro ⟨o, ⟨h1, h2, h3⟩, h4⟩
    refine ⟨o, ⟨h1, Or.inr ?_⟩, h4⟩
    rw [h3]
    unfold edge
    split_ifs <;> omega

theorem hiddenOn_meridian (d : Dem) (res : ℝ) (s : SunVec) (hx : s.x = 0) (hy : s.y ≠ 0) (o p : Cell) :
    HiddenOn d.mirrorEW res s (o.1, d.m - 1 - o.2) (p.1, d.m - 1 - p.2) ↔ HiddenOn d res s o p := by
  unfold HiddenOn
  simp only [pos_meridian s hx hy, Dem.mirrorEW, sub_sub_cancel, Dem.Inside]
  refine exists_congr fun t => exists_congr fun u => and_congr_right fun _ => and_congr (forall_congr' fun v => ?_)
    (and_congr_left fun _ => ?_)
  · exact imp_congr_right fun _ => by omega
  · rw [Prod.ext_iff, Prod.ext_iff]
    simp only
    omega

theorem shadows_meridian (d : Dem) (res : ℝ) (s : SunVec) (hx : s.x = 0) (hy : s.y ≠ 0) (sweeps : Option ℤ) (c : Cell) :
    Shaded d.mirrorEW res s.mirrorEW sweeps (c.1, d.m - 1 - c.2) ↔ Shaded d res s sweeps c := by
  have hs : s.mirrorEW = s := by
    obtain ⟨x, y, z⟩ := s
    simp only at hx
    simp [SunVec.mirrorEW, hx]
  rw [hs, shaded_meridian _ _ _ hx hy, shaded_meridian _ _ _ hx hy]
  constructor
  · rintro ⟨o, ⟨h1, h2, h3⟩, h4⟩
    refine ⟨(o.1, d.m - 1 - o.2), ⟨?_, h2, h3⟩, ?_⟩
    · simp only [Dem.Inside, Dem.mirrorEW] at h1 ⊢
      omega
    · rw [← hiddenOn_meridian d res s hx hy]
      simpa only [sub_sub_cancel] using h4
  · rintro ⟨o, ⟨h1, h2, h3⟩, h4⟩
    refine ⟨(o.1, d.m - 1 - o.2), ⟨?_, h2, h3⟩, (hiddenOn_meridian d res s hx hy o c).mpr h4⟩
    simp only [Dem.Inside, Dem.mirrorEW] at h1 ⊢
    omega

theorem shadows_mirrorEW (d : Dem) (res : ℝ) (s : SunVec) (hs : s.Slanted) (sweeps : Option ℤ) (c : Cell)
    (h : d.m % 2 = 1 ∨ NoTie (inv s).1) :
    Shaded d.mirrorEW res s.mirrorEW sweeps (c.1, d.m - 1 - c.2) ↔ Shaded d res s sweeps c := by
  by_cases hx : s.x = 0
  · exact shadows_meridian d res s hx (fun hy => hs ⟨hx, hy⟩) sweeps c
  · exact shadows_mirrorEW_ne d res s hx sweeps c h

/-- **C139 (shadows, mirrored).** A cell is shaded in the mirrored terrain with the mirrored sun exactly if it is shaded, if the
number of columns (rows) is odd or no line passes exactly between two cells. Missing: even numbers with such lines, see
`C139_shadows_false`. -/
theorem C139_shadows_mirror_partial (d : Dem) (res : ℝ) (s : SunVec) (hs : s.Slanted) (sweeps : Option ℤ) (c : Cell) :
    (d.m % 2 = 1 ∨ NoTie (inv s).1 →
      (Shaded d.mirrorEW res s.mirrorEW sweeps (c.1, d.m - 1 - c.2) ↔ Shaded d res s sweeps c)) ∧
    (d.n % 2 = 1 ∨ NoTie (inv s).2 →
      (Shaded d.mirrorNS res s.mirrorNS sweeps (d.n - 1 - c.1, c.2) ↔ Shaded d res s sweeps c)) := by
  refine ⟨shadows_mirrorEW d res s hs sweeps c, fun h => ?_⟩
  have hinv : (inv s.transpose).1 = (inv s).2 := by simp only [inv, SunVec.transpose, max_comm]
  have h1 := shadows_mirrorEW d.transpose res s.transpose (fun e => hs ⟨e.2, e.1⟩) sweeps (c.2, c.1) (by rw [hinv]; exact h)
  rw [C139_shadows_transpose d res s sweeps c] at h1
  rw [← h1]
  exact C139_shadows_transpose d.transpose.mirrorEW res s.transpose.mirrorEW sweeps (c.2, d.n - 1 - c.1)

/-- A tower of 100 m in the south-east of four cells. -/
def tower : Dem := ⟨2, 2, fun c => if c = (1, 1) then some 100 else some 0⟩

theorem pos_tower (o : Cell) (t : ℕ) (x : ℝ) (hx : |x| = 1 / 2) :
    pos ⟨x, 1, 1⟩ o t = (o.1 - t, roundEven (o.2 - x * t)) := by
  have h : max |x| |(1 : ℝ)| = 1 := by
    rw [hx]
    norm_num
  simp only [pos, inv, h, div_one]
  congr 1
  · have := roundEven_int (o.1 - t)
    push_cast at this
    rw [neg_one_mul, ← sub_eq_add_neg]
    exact this
  · rw [neg_mul, ← sub_eq_add_neg]

theorem roundEven_half : roundEven (1 / 2) = 0 := by
  have : ⌊(1 / 2 : ℝ)⌋ = 0 := by norm_num
  unfold roundEven
  rw [this]
  norm_num

/-- **C139 fails for an even number of columns.** The tower, lit from the south-south-east, shades the cell in the north-west;
mirrored, lit from the south-south-west, it does not shade the cell in the north-east. -/
theorem C139_shadows_false :
    Shaded tower 10 ⟨1 / 2, 1, 1⟩ (some 1) (0, 0) ∧
    ∀ sweeps, ¬ Shaded tower.mirrorEW 10 (SunVec.mirrorEW ⟨1 / 2, 1, 1⟩) sweeps (0, tower.m - 1 - 0) := by
  constructor
  · rw [C72_shaded_iff _ _ _ (by simp [SunVec.Slanted])]
    have h1 : pos ⟨1 / 2, 1, 1⟩ (1, 1) 0 = (1, 1) := by
      rw [pos_tower _ _ _ (by norm_num)]
      simpa using roundEven_int 1
    have h2 : pos ⟨1 / 2, 1, 1⟩ (1, 1) 1 = (0, 0) := by
      rw [pos_tower _ _ _ (by norm_num)]
      norm_num
      rw [← roundEven_half]
    refine ⟨(1, 1), by norm_num [isStart, Dem.Inside, tower], 1, 0, by omega, fun v hv => ?_, h2, fun v h3 h4 => by omega, 100, 0,
      by rw [h1]; simp [tower], by simp [tower], ?_⟩
    · obtain rfl | rfl : v = 0 ∨ v = 1 := by omega
      · rw [h1]; norm_num [Dem.Inside, tower]
      · rw [h2]; norm_num [Dem.Inside, tower]
    · norm_num [Hides, lineLength, tanElevation, inv]
      have e : Real.sqrt (5 / 4) ≠ 0 := by positivity
      field_simp
      norm_num
  · intro sweeps
    rw [C72_shaded_iff _ _ _ (by simp [SunVec.Slanted, SunVec.mirrorEW])]
    rintro ⟨o, ⟨ho, -⟩, t, u, hu, hin, hp, -, a, b, ha, hb, hh⟩
    have hpos : ∀ t, pos (SunVec.mirrorEW ⟨1 / 2, 1, 1⟩) o t = (o.1 - t, roundEven (o.2 - -(1 / 2) * t)) := fun t =>
      pos_tower o t (-(1 / 2)) (by norm_num)
    have htop := hin t le_rfl
    rw [hpos] at hp ha htop
    simp only [Dem.Inside, tower, Dem.mirrorEW, Prod.mk.injEq] at ho hp ha hb htop
    have hu0 : u = 0 := by omega
    have ht1 : t = 1 := by omega
    have ho1 : o.1 = 1 := by omega
    subst hu0 ht1
    have ho2 : o.2 = 0 ∨ o.2 = 1 := by omega
    rcases ho2 with e | e
    · rw [e] at hp
      have := hp.2
      norm_num at this
      rw [roundEven_half] at this
      omega
    · have h3 := roundEven_int 1
      push_cast at h3
      rw [e, ho1] at ha
      norm_num [h3] at ha
      simp only [Hides] at hh
      have hb' : b = 0 := by
        norm_num at hb
        exact hb.symm
      have : 0 ≤ lineLength 10 (SunVec.mirrorEW ⟨1 / 2, 1, 1⟩) ((1 : ℕ) - (0 : ℕ)) * tanElevation (SunVec.mirrorEW ⟨1 / 2, 1, 1⟩) := by
        norm_num [lineLength, tanElevation, SunVec.mirrorEW]
      rw [hb', ← ha] at hh
      linarith

example : SunVec.Slanted ⟨1, 1, 1⟩ ∧ NoTie (inv ⟨1, 1, 1⟩).1 ∧ NoTie (1 / 3) ∧ (⟨1, 3, fun _ => some 0⟩ : Dem).m % 2 = 1 := by
  refine ⟨by simp [SunVec.Slanted], fun t k e => ?_, fun t k e => ?_, rfl⟩
  · norm_num [inv] at e
    have e' : (-2 * t : ℤ) = 2 * k + 1 := by
      have : (-2 * t : ℝ) = 2 * k + 1 := by linarith
      exact_mod_cast this
    omega
  · have e' : (2 * t : ℤ) = 6 * k + 3 := by
      have : (2 * t : ℝ) = 6 * k + 3 := by linarith
      exact_mod_cast this
    omega

end Verif.Shadows
