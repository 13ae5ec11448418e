import Verif.Lemmas.Rounded
import Mathlib.Algebra.Order.Ring.Pow

/-!
# C137: the snowpack in floating point arithmetic
-/

set_option linter.unusedSectionVars false

namespace Verif.Rounded

variable {K : Type*} [Field K] [LinearOrder K] [IsStrictOrderedRing K] {u : K} {rd : K → K}

/-! ## Specification -/

/-- Inputs that make sense: precipitation and retention capacities are not negative. -/
def In.Ok (e : In K) : Prop := 0 ≤ e.snow ∧ 0 ≤ e.rain ∧ ∀ c ∈ e.caps, 0 ≤ c

/-- Water that enters the pixel according to inputs and reports: snowfall, rain, deposition. -/
def gain (e : In K) (o : Out K) : K := e.snow + e.rain + max (-o.sublimation) 0

/-- Water that leaves the pixel according to the reports: runoff, sublimation. -/
def loss (o : Out K) : K := o.runoff + max o.sublimation 0

theorem refreeze_length : ∀ (as : List K) (p : Pix K), (refreeze rd as p).length = p.length := by
  intro as p
  induction p generalizing as with
  | nil => cases as <;> simp [refreeze]
  | cons L p ih => cases as <;> simp [refreeze, ih]

theorem melt_length : ∀ (p : Pix K) (d : K), (melt rd d p).length = p.length := by
  intro p
  induction p with
  | nil => intro d; rfl
  | cons L p ih => intro d; simp [melt, ih]

/-- A time step: signs, and stored water plus losses against stored water plus gains. -/
theorem step_spec (h : IsRounding u rd) (hu : u ≤ 1 / 1000) {e : In K} (he : e.Ok) {p : Pix K} (hp : Good p)
    (h4 : p.length = 4) :
    Good (step rd e p).2 ∧ (step rd e p).2.length = 4 ∧ 0 ≤ (step rd e p).1.runoff ∧
      |total (step rd e p).2 + loss (step rd e p).1 - (total p + gain e (step rd e p).1)| ≤
        ((1 + u) ^ 27 - 1) * (total p + gain e (step rd e p).1) := by
  have h0 := h.u_nonneg
  have hu1 : u < 1 := by linarith
  obtain ⟨es, er, ec⟩ := he
  obtain ⟨p1, hp1⟩ : ∃ p1, (if 0 < e.snow then addSnow rd e.snow p else p) = p1 := ⟨_, rfl⟩
  have s1 : Good p1 ∧ p1.length = 4 ∧ |total p1 - (total p + e.snow)| ≤ u * (total p + e.snow) := by
    rw [← hp1]
    split_ifs with hs
    · exact ⟨addSnow_good h es hp, by rw [addSnow_length]; exact h4,
        addSnow_total h es hp (by intro e; simp [e] at h4)⟩
    · refine ⟨hp, h4, ?_⟩
      have : e.snow = 0 := le_antisymm (not_lt.mp hs) es
      rw [this, add_zero, sub_self, abs_zero]
      exact mul_nonneg h0 hp.total
  obtain ⟨g1, l1, b1⟩ := s1
  obtain ⟨p2, hp2⟩ : ∃ p2, refreeze rd e.cold p1 = p2 := ⟨_, rfl⟩
  have s2 := refreeze_spec h e.cold p1 g1
  have l2 : p2.length = 4 := by rw [← hp2, refreeze_length, l1]
  rw [hp2] at s2
  obtain ⟨g2, b2⟩ := s2
  obtain ⟨p3, hp3⟩ : ∃ p3, melt rd e.melt p2 = p3 := ⟨_, rfl⟩
  have s3 := melt_spec h p2 e.melt g2
  have l3 : p3.length = 4 := by rw [← hp3, melt_length, l2]
  rw [hp3] at s3
  obtain ⟨g3, b3⟩ := s3
  obtain ⟨g4, l4, b4⟩ := sublimation_spec h hu e.pot g3 l3
  obtain ⟨s, hs⟩ : ∃ s, sublimation rd e.pot p3 = s := ⟨_, rfl⟩
  rw [hs] at g4 l4 b4
  obtain ⟨r1, g5, l5, b5⟩ := runoff_spec h hu1 s.2 e.rain e.caps er ec g4
  obtain ⟨r, hr⟩ : ∃ r, runoff rd e.rain e.caps s.2 = r := ⟨_, rfl⟩
  rw [hr] at r1 g5 l5 b5
  obtain ⟨g6, l6, b6⟩ := updateLayers_spec h hu1 e.toOld e.toFirn e.toIce g5 (l5.trans l4)
  have hstep : step rd e p = (⟨s.1, r.1⟩, updateLayers rd e.toOld e.toFirn e.toIce r.2) := by
    simp only [step, hp1, hp2, hp3, hs, hr]
  rw [hstep]
  refine ⟨g6, l6, r1, ?_⟩
  obtain ⟨q, hq⟩ : ∃ q, updateLayers rd e.toOld e.toFirn e.toIce r.2 = q := ⟨_, rfl⟩
  rw [hq] at g6 b6 ⊢
  rw [l4] at b5
  have hm : max (-s.1) 0 = -min s.1 0 := by
    rcases le_total s.1 0 with hs' | hs'
    · rw [min_eq_left hs', max_eq_left (by linarith)]
    · rw [min_eq_right hs', max_eq_right (by linarith), neg_zero]
  have hmm : s.1 = max s.1 0 - -min s.1 0 := by rw [sub_neg_eq_add, max_add_min, add_zero]
  simp only [loss, gain, hm]
  obtain ⟨D, hD⟩ : ∃ D, -min s.1 0 = D := ⟨_, rfl⟩
  obtain ⟨S, hS⟩ : ∃ S, max s.1 0 = S := ⟨_, rfl⟩
  rw [hD, hS] at hmm
  rw [hD] at b4
  rw [hD, hS]
  have hD0 : 0 ≤ D := by rw [← hD, ← hm]; exact le_max_right _ _
  have hS0 : 0 ≤ S := hS ▸ le_max_right _ _
  have t0 := hp.total
  have t1 := g1.total
  have t2 := g2.total
  have t3 := g3.total
  have t4 := g4.total
  have t5 := g5.total
  -- stages with everything that enters and leaves counted from the beginning
  have c1 : |total p1 + e.rain + D - (total p + (e.snow + e.rain + D))| ≤ u * (total p + (e.snow + e.rain + D)) := by
    calc _ = |total p1 - (total p + e.snow)| := by congr 1; ring
      _ ≤ _ := b1
      _ ≤ _ := mul_le_mul_of_nonneg_left (by linarith) h0
  have c2 : |total p2 + e.rain + D - (total p1 + e.rain + D)| ≤ u * (total p1 + e.rain + D) := by
    calc _ = |total p2 - total p1| := by congr 1; ring
      _ ≤ _ := b2
      _ ≤ _ := mul_le_mul_of_nonneg_left (by linarith) h0
  have c3 : |total p3 + e.rain + D - (total p2 + e.rain + D)| ≤ u * (total p2 + e.rain + D) := by
    calc _ = |total p3 - total p2| := by congr 1; ring
      _ ≤ _ := b3
      _ ≤ _ := mul_le_mul_of_nonneg_left (by linarith) h0
  have c4 : |total s.2 + e.rain + S - (total p3 + e.rain + D)| ≤ ((1 + u) ^ 13 - 1) * (total p3 + e.rain + D) := by
    have hb : 13 * u ≤ (1 + u) ^ 13 - 1 := by
      have := one_add_mul_le_pow (a := u) (by linarith) 13
      push_cast at this
      linarith
    calc _ = |total s.2 + s.1 - total p3| := by congr 1; rw [hmm]; ring
      _ ≤ _ := b4
      _ ≤ _ := mul_le_mul hb (by linarith) (by linarith) (by linarith)
  have c5 : |total r.2 + r.1 + S - (total s.2 + e.rain + S)| ≤ ((1 + u) ^ 8 - 1) * (total s.2 + e.rain + S) := by
    calc _ = |r.1 + total r.2 - (e.rain + total s.2)| := by congr 1; ring
      _ ≤ _ := b5
      _ = ((1 + u) ^ 8 - 1) * (e.rain + total s.2) := by congr 2; ring
      _ ≤ _ := mul_le_mul_of_nonneg_left (by linarith) (by linarith [one_le_pow₀ (a := 1 + u) (n := 8) (by linarith)])
  have c6 : |total q + r.1 + S - (total r.2 + r.1 + S)| ≤ ((1 + u) ^ 3 - 1) * (total r.2 + r.1 + S) := by
    calc _ = |total q - total r.2| := by congr 1; ring
      _ ≤ _ := b6
      _ ≤ _ := mul_le_mul_of_nonneg_left (by linarith) (by linarith [one_le_pow₀ (a := 1 + u) (n := 3) (by linarith)])
  have hx : 0 ≤ total p + (e.snow + e.rain + D) := by linarith
  have pw : ∀ n : ℕ, 0 ≤ (1 + u) ^ n - 1 := fun n => by linarith [one_le_pow₀ (a := 1 + u) (n := n) (by linarith)]
  have step' : ∀ {y z : K} (m n : ℕ), |y - (total p + (e.snow + e.rain + D))| ≤
      ((1 + u) ^ m - 1) * (total p + (e.snow + e.rain + D)) → |z - y| ≤ ((1 + u) ^ n - 1) * y →
      |z - (total p + (e.snow + e.rain + D))| ≤ ((1 + u) ^ (m + n) - 1) * (total p + (e.snow + e.rain + D)) := by
    intro y z m n h1 h2
    have := chain (pw m) (pw n) hx h1 h2
    rw [pow_add]
    calc _ ≤ _ := this
      _ = _ := by ring
  have u1 : (1 + u) ^ 1 - 1 = u := by ring
  have d1 := step' 1 1 (by rw [u1]; exact c1) (by rw [u1]; exact c2)
  have d2 := step' 2 1 d1 (by rw [u1]; exact c3)
  have d3 := step' 3 13 d2 c4
  have d4 := step' 16 8 d3 c5
  have d5 := step' 24 3 d4 c6
  calc _ = |total q + r.1 + S - (total p + (e.snow + e.rain + D))| := by congr 1; ring
    _ ≤ _ := d5
    _ = _ := by ring

/-- **C137.** Contents never become negative, however the operations are rounded: every state of a run. -/
theorem C137_signs (h : IsRounding u rd) (hu : u ≤ 1 / 1000) : ∀ (es : List (In K)) (p : Pix K), (∀ e ∈ es, e.Ok) →
    (∀ L ∈ p, 0 ≤ L.ice ∧ 0 ≤ L.lwc) → p.length = 4 →
    (∀ L ∈ (run rd es p).2, 0 ≤ L.ice ∧ 0 ≤ L.lwc) ∧ ∀ o ∈ (run rd es p).1, 0 ≤ o.runoff := by
  intro es
  induction es with
  | nil => intro p _ hp _; simpa [run] using fun L hL => hp L hL
  | cons e es ih =>
    intro p he hp h4
    obtain ⟨g, l, r, -⟩ := step_spec h hu (he e (by simp)) hp h4
    obtain ⟨i1, i2⟩ := ih (step rd e p).2 (fun e' h' => he e' (by simp [h'])) g l
    refine ⟨i1, fun o ho => ?_⟩
    simp only [run, List.mem_cons] at ho
    rcases ho with rfl | ho
    · exact r
    · exact i2 o ho

/-- Gains of a run. -/
def gains (es : List (In K)) (os : List (Out K)) : K := (List.zipWith gain es os).sum

/-- Losses of a run. -/
def losses (os : List (Out K)) : K := (os.map loss).sum

theorem run_balance (h : IsRounding u rd) (hu : u ≤ 1 / 1000) : ∀ (es : List (In K)) (p : Pix K), (∀ e ∈ es, e.Ok) →
    Good p → p.length = 4 → 0 ≤ gains es (run rd es p).1 ∧
    |total (run rd es p).2 + losses (run rd es p).1 - (total p + gains es (run rd es p).1)| ≤
      ((1 + u) ^ (27 * es.length) - 1) * (total p + gains es (run rd es p).1) := by
  have h0 := h.u_nonneg
  intro es
  induction es with
  | nil => intro p _ hp _; simp [run, gains, losses]
  | cons e es ih =>
    intro p he hp h4
    have heo := he e (by simp)
    obtain ⟨g, l, r, b⟩ := step_spec h hu heo hp h4
    obtain ⟨i0, i⟩ := ih (step rd e p).2 (fun e' h' => he e' (by simp [h'])) g l
    simp only [run, gains, losses, List.zipWith_cons_cons, List.sum_cons, List.map_cons, List.length_cons] at i0 i ⊢
    obtain ⟨G, hG⟩ : ∃ G, (List.zipWith gain es (run rd es (step rd e p).2).1).sum = G := ⟨_, rfl⟩
    obtain ⟨Lo, hLo⟩ : ∃ Lo, (List.map loss (run rd es (step rd e p).2).1).sum = Lo := ⟨_, rfl⟩
    obtain ⟨q, hq⟩ : ∃ q, (run rd es (step rd e p).2).2 = q := ⟨_, rfl⟩
    obtain ⟨s, hs⟩ : ∃ s, step rd e p = s := ⟨_, rfl⟩
    simp only [hG, hLo, hq] at i0 i ⊢
    rw [hs] at g b i r ⊢
    have hg : 0 ≤ gain e s.1 := by
      obtain ⟨e1, e2, -⟩ := heo
      simp only [gain]
      linarith [le_max_right (-s.1.sublimation) 0]
    have hl : 0 ≤ loss s.1 := by
      simp only [loss]
      linarith [le_max_right s.1.sublimation 0]
    have hx := hp.total
    have hy := g.total
    refine ⟨by linarith, ?_⟩
    have pw : ∀ n : ℕ, 0 ≤ (1 + u) ^ n - 1 := fun n => by linarith [one_le_pow₀ (a := 1 + u) (n := n) (by linarith)]
    have c1 : |total s.2 + loss s.1 + G - (total p + (gain e s.1 + G))| ≤
        ((1 + u) ^ 27 - 1) * (total p + (gain e s.1 + G)) := by
      calc _ = |total s.2 + loss s.1 - (total p + gain e s.1)| := by congr 1; ring
        _ ≤ _ := b
        _ ≤ _ := mul_le_mul_of_nonneg_left (by linarith) (pw 27)
    have c2 : |total q + (loss s.1 + Lo) - (total s.2 + loss s.1 + G)| ≤
        ((1 + u) ^ (27 * es.length) - 1) * (total s.2 + loss s.1 + G) := by
      calc _ = |total q + Lo - (total s.2 + G)| := by congr 1; ring
        _ ≤ _ := i
        _ ≤ _ := mul_le_mul_of_nonneg_left (by linarith) (pw _)
    have := chain (pw 27) (pw _) (by linarith) c1 c2
    calc _ ≤ _ := this
      _ = _ := by rw [show 27 * (es.length + 1) = 27 + 27 * es.length by ring, pow_add]; ring

/-- **C137.** After any run stored water plus reported losses is initial water plus gains, up to a relative error of
`(1 + u)^(27 N) - 1` for `N` time steps. -/
theorem C137_balance (h : IsRounding u rd) (hu : u ≤ 1 / 1000) (es : List (In K)) (p : Pix K) (he : ∀ e ∈ es, e.Ok)
    (hp : ∀ L ∈ p, 0 ≤ L.ice ∧ 0 ≤ L.lwc) (h4 : p.length = 4) :
    |((run rd es p).2.map fun L => L.ice + L.lwc).sum + ((run rd es p).1.map loss).sum -
        ((p.map fun L => L.ice + L.lwc).sum + (List.zipWith gain es (run rd es p).1).sum)| ≤
      ((1 + u) ^ (27 * es.length) - 1) *
        ((p.map fun L => L.ice + L.lwc).sum + (List.zipWith gain es (run rd es p).1).sum) :=
  (run_balance h hu es p he hp h4).2

end Verif.Rounded
