import Verif.Lemmas.RoundedLayers
import Verif.Props.RoundedFormat
import Mathlib.Data.List.GetD
import Mathlib.Algebra.Module.Pi

/-!
# C138: relayering in floating point arithmetic
-/

set_option linter.unusedSectionVars false

namespace Verif.Rounded

variable {K : Type*} [Field K] [LinearOrder K] [IsStrictOrderedRing K] {u : K} {rd : K → K} {ι : Type*}

/-! ## Depth and new thicknesses -/

theorem depth_foldl (h : IsRounding u rd) (hu : u ≤ 1 / 4) {B : K} : ∀ (os : List (Old K ι)) (s : K), 0 ≤ s → rd s = s →
    (∀ o ∈ os, 0 ≤ o.thick ∧ rd o.thick = o.thick) → os.foldl (fun s o => rd (s + o.thick)) s ≤ B →
    rd (os.foldl (fun s o => rd (s + o.thick)) s) = os.foldl (fun s o => rd (s + o.thick)) s ∧ s ≤ B ∧
      (∀ o ∈ os, o.thick ≤ B) ∧
      |os.foldl (fun s o => rd (s + o.thick)) s - (s + thickSum os)| ≤ 2 * u * B * os.length := by
  intro os
  induction os with
  | nil => intro s h0 hs _ hB; simp only [List.foldl_nil] at hB ⊢; exact ⟨hs, hB, by simp, by simp [thickSum]⟩
  | cons o os ih =>
    intro s h0 hs ho hB
    have h0u := h.u_nonneg
    obtain ⟨o1, o2⟩ := ho o (by simp)
    simp only [List.foldl_cons] at hB ⊢
    obtain ⟨g1, g2, g3, g4⟩ := ih (rd (s + o.thick)) (h.nonneg (by linarith)) (h.idem _)
      (fun o' ho' => ho o' (by simp [ho'])) hB
    have a1 : s ≤ B := by
      have := h.mono (show s ≤ s + o.thick by linarith)
      rw [hs] at this
      linarith
    have a2 : o.thick ≤ B := by
      have := h.mono (show o.thick ≤ s + o.thick by linarith)
      rw [o2] at this
      linarith
    refine ⟨g1, a1, ?_, ?_⟩
    · intro o' ho'
      rw [List.mem_cons] at ho'
      rcases ho' with rfl | ho'
      · exact a2
      · exact g3 o' ho'
    · have e := h.err (x := s + o.thick) (by linarith)
      have t1 : thickSum (o :: os) = o.thick + thickSum os := by simp [thickSum]
      obtain ⟨D, hD⟩ : ∃ D, os.foldl (fun s o => rd (s + o.thick)) (rd (s + o.thick)) = D := ⟨_, rfl⟩
      rw [hD] at g4 ⊢
      rw [t1]
      calc |D - (s + (o.thick + thickSum os))|
          = |D - (rd (s + o.thick) + thickSum os) + (rd (s + o.thick) - (s + o.thick))| := by congr 1; ring
        _ ≤ 2 * u * B * os.length + u * (s + o.thick) := abs_two g4 e
        _ ≤ 2 * u * B * os.length + u * (2 * B) := add_le_add le_rfl (mul_le_mul_of_nonneg_left (by linarith) h0u)
        _ = _ := by push_cast [List.length_cons]; ring

theorem newThickness_shape (h : IsRounding u rd) {B : K} (h3 : 3 * u ≤ 1) (hs : 3 * u * B ≤ 1 / 1000000) : ∀ (ms : List K) (d : K),
    ms ≠ [] → 1 / 500000 ≤ d → rd d = d → d ≤ B → (∀ m ∈ ms, 1 / 500000 ≤ m ∧ rd m = m ∧ m ≤ B) →
    ∃ (l : List K) (z : ℕ), newThickness rd d ms = l ++ List.replicate z 0 ∧ l ≠ [] ∧ l.length + z = ms.length ∧
      (∀ t ∈ l, 1 / 1000000 ≤ t ∧ rd t = t ∧ t ≤ 2 * B) ∧ |l.sum - d| ≤ u * B * (l.length + 2) := by
  have h0 := h.u_nonneg
  intro ms
  induction ms with
  | nil => intro d hne; exact absurd rfl hne
  | cons m ms ih =>
    intro d _ hd hdr hdB hm
    obtain ⟨m1, m2, m3⟩ := hm m (by simp)
    have hB : 0 ≤ B := by linarith
    have hab : |d - m| ≤ B := by
      rw [abs_le]
      constructor <;> linarith
    have e1 : |rd (d - m) - (d - m)| ≤ u * B := (h.rel _).trans (mul_le_mul_of_nonneg_left hab h0)
    rw [newThickness]
    by_cases hb : rd (d - m) ≤ m ∨ ms = []
    · rw [if_pos hb]
      have hy : |m + rd (d - m)| ≤ 2 * B := by
        obtain ⟨b1, b2⟩ := abs_le.mp e1
        have : u * B ≤ 1 * B := mul_le_mul_of_nonneg_right (by linarith) hB
        rw [abs_le]
        constructor <;> linarith
      have e2 : |rd (m + rd (d - m)) - (m + rd (d - m))| ≤ u * (2 * B) := (h.rel _).trans (mul_le_mul_of_nonneg_left hy h0)
      have e3 : |rd (m + rd (d - m)) - d| ≤ 3 * u * B := by
        calc _ = |rd (m + rd (d - m)) - (m + rd (d - m)) + (rd (d - m) - (d - m))| := by congr 1; ring
          _ ≤ _ := abs_two e2 e1
          _ = _ := by ring
      refine ⟨[rd (m + rd (d - m))], ms.length, ?_, by simp, by simp [add_comm], ?_, ?_⟩
      · simp
      · intro t ht
        rw [List.mem_singleton] at ht
        obtain ⟨b1, b2⟩ := abs_le.mp e3
        have : 3 * u * B ≤ 1 * B := mul_le_mul_of_nonneg_right h3 hB
        rw [ht]
        exact ⟨by linarith, h.idem _, by linarith⟩
      · simp only [List.sum_cons, List.sum_nil, add_zero, List.length_cons, List.length_nil]
        calc _ ≤ _ := e3
          _ = _ := by push_cast; ring
    · rw [if_neg hb]
      rw [not_or, not_le] at hb
      obtain ⟨l, z, g1, g2, g3, g4, g5⟩ := ih (rd (d - m)) hb.2 (by linarith [hb.1]) (h.idem _)
        ((rep_sub_le h hdr (by linarith)).trans hdB) (fun x hx => hm x (by simp [hx]))
      refine ⟨m :: l, z, by rw [g1]; rfl, by simp, by simp only [List.length_cons]; omega, ?_, ?_⟩
      · intro t ht
        rw [List.mem_cons] at ht
        rcases ht with rfl | ht
        · exact ⟨by linarith, m2, by linarith⟩
        · exact g4 t ht
      · rw [List.sum_cons]
        calc _ = |l.sum - rd (d - m) + (rd (d - m) - (d - m))| := by congr 1; ring
          _ ≤ _ := abs_two g5 e1
          _ = _ := by push_cast [List.length_cons]; ring

theorem dropThin_shape (l : List K) (z : ℕ) (hl : ∀ t ∈ l, 1 / 1000000 ≤ t) :
    MultiLayer.dropThin (l ++ List.replicate z 0) = l ++ List.replicate z 0 ∧
      (l ++ List.replicate z 0).countP (fun t => decide (0 < t)) = l.length := by
  constructor
  · unfold MultiLayer.dropThin
    rw [List.map_append]
    congr 1
    · conv_rhs => rw [← List.map_id l]
      refine List.map_congr_left fun t ht => ?_
      rw [if_neg (not_lt.mpr (hl t ht)), id]
    · rw [List.map_replicate]
      congr 1
      simp
  · rw [List.countP_append, List.countP_eq_length.mpr, List.countP_eq_zero.mpr]
    · simp
    · intro t ht
      rw [List.eq_of_mem_replicate ht]
      simp
    · intro t ht
      have := hl t ht
      simp only [decide_eq_true_eq]
      exact lt_of_lt_of_le (by norm_num) this

theorem sum_getD (l : List K) (z : ℕ) : ∑ k ∈ Finset.range l.length, (l ++ List.replicate z 0).getD k 0 = l.sum := by
  induction l with
  | nil => simp
  | cons a l ih =>
    rw [List.length_cons, Finset.sum_range_succ', List.sum_cons, ← ih, add_comm]
    simp

/-! ## Properties -/

/-- Size of the accumulated error of thicknesses: `B` bounds depth and minimum thicknesses, `n` layers, `m` slots. -/
def thickErr (u B : K) (n m : ℕ) : K := 9 * u * B * (n + m)

/-- **C138.** If the old layers are thicker than the accumulated rounding error of the thicknesses, relayering stays within the
arrays and keeps depth and contents up to rounding; contents stay non-negative, slots behind the new layers stay empty, and if
every old layer contains something, so does every new one. -/
theorem C138_bounds (h : IsRounding u rd) (hu : u ≤ 1 / 4) (hd : DivBelow rd) (ms : List K) (os : List (Old K ι)) (c : ι) (B ρ : K)
    (hms : ms ≠ []) (hm : ∀ m ∈ ms, 1 / 500000 ≤ m ∧ rd m = m ∧ m ≤ B) (hρ : 0 ≤ ρ)
    (ho : ∀ o ∈ os, thickErr u B os.length ms.length < o.thick ∧ rd o.thick = o.thick ∧ 0 ≤ o.cont c ∧ o.cont c ≤ ρ * o.thick)
    (hd1 : 1 / 500000 ≤ depth rd os) (hd2 : depth rd os ≤ B) (hE : thickErr u B os.length ms.length < 1 / 1000000) :
    ∃ (ns : ℕ) (thl : List K) (f : ℕ → ι → K), relayer rd ms os = some (ns, thl, f) ∧
      0 < ns ∧ ns ≤ ms.length ∧ thl.length = ms.length ∧
      (∀ k < ns, 1 / 1000000 ≤ thl.getD k 0) ∧ (∀ k, ns ≤ k → thl.getD k 0 = 0 ∧ f k c = 0) ∧
      |thl.sum - thickSum os| ≤ thickErr u B os.length ms.length ∧
      (∀ k, 0 ≤ f k c) ∧
      |∑ k ∈ Finset.range ns, f k c - contSum c os| ≤ ((1 + u) ^ (2 * (os.length + ms.length)) - 1) * contSum c os +
        ρ * ((1 + u) / (1 - u)) ^ ms.length * thickErr u B os.length ms.length ∧
      ((∀ o ∈ os, 0 < o.cont c) → ∀ k < ns, 0 < f k c) := by
  have h0 := h.u_nonneg
  have hB : 0 ≤ B := by linarith
  have hne : os ≠ [] := by
    rintro rfl
    simp [depth] at hd1
    linarith
  have hn1 : 1 ≤ os.length := List.length_pos_of_ne_nil hne
  have hm1 : 1 ≤ ms.length := List.length_pos_of_ne_nil hms
  have hn1K : (1 : K) ≤ os.length := by exact_mod_cast hn1
  have hm1K : (1 : K) ≤ ms.length := by exact_mod_cast hm1
  have huB : 0 ≤ u * B := by positivity
  have hE0 : 0 ≤ thickErr u B os.length ms.length := by unfold thickErr; positivity
  have hs : 3 * u * B ≤ 1 / 1000000 := by
    refine le_trans ?_ hE.le
    unfold thickErr
    nlinarith
  obtain ⟨d1, -, d3, d4⟩ := depth_foldl h hu (B := B) os 0 le_rfl h.zero
    (fun o hoo => ⟨hE0.trans (ho o hoo).1.le, (ho o hoo).2.1⟩) hd2
  change rd (depth rd os) = depth rd os at d1
  change |depth rd os - (0 + thickSum os)| ≤ _ at d4
  rw [zero_add] at d4
  obtain ⟨l, z, l1, l2, l3, l4, l5⟩ := newThickness_shape h (by linarith) hs ms (depth rd os) hms hd1 d1 hd2 hm
  obtain ⟨p1, p2⟩ := dropThin_shape l z fun t ht => (l4 t ht).1
  have hl1 : 1 ≤ l.length := List.length_pos_of_ne_nil l2
  have hl2 : l.length ≤ ms.length := by omega
  have hl2K : (l.length : K) ≤ ms.length := by exact_mod_cast hl2
  have gl : ∀ k < l.length, (l ++ List.replicate z 0).getD k 0 ∈ l := by
    intro k hk
    rw [List.getD_append _ _ _ _ hk, List.getD_eq_getElem _ _ hk]
    exact List.getElem_mem hk
  have gz : ∀ k, l.length ≤ k → (l ++ List.replicate z (0 : K)).getD k 0 = 0 := by
    intro k hk
    rw [List.getD_append_right _ _ _ _ hk]
    by_cases hkz : k - l.length < z
    · rw [List.getD_eq_getElem _ _ (by simpa using hkz)]
      simp
    · rw [List.getD_eq_default]
      simpa using hkz
  have hN : NewOk rd ms.length l.length (fun k => (l ++ List.replicate z 0).getD k 0) (2 * B) :=
    ⟨hl2, fun k hk => lt_of_lt_of_le (by norm_num) (l4 _ (gl k hk)).1, fun k hk => (l4 _ (gl k hk)).2.1,
      fun k hk => (l4 _ (gl k hk)).2.2⟩
  obtain ⟨T, hT⟩ : ∃ T, (fun k => (l ++ List.replicate z (0 : K)).getD k 0) = T := ⟨_, rfl⟩
  have hT0 : (l ++ List.replicate z (0 : K)).getD 0 0 = T 0 := by rw [← hT]
  have hTs : rem l.length T (⟨0, T 0, fun _ _ => 0⟩ : Acc K ι) = l.sum := by
    rw [rem, ← sum_getD l z, Finset.range_eq_Ico, Finset.sum_eq_sum_Ico_succ_bot hl1, ← hT]
  rw [hT] at hN
  have acc : AccOk rd l.length (2 * B) c (⟨0, T 0, fun _ _ => 0⟩ : Acc K ι) :=
    ⟨hl1, (hN.pos 0 hl1).le, hN.rep 0 hl1, hN.bound 0 hl1, fun _ => le_rfl⟩
  have he : |rem l.length T (⟨0, T 0, fun _ _ => 0⟩ : Acc K ι) - thickSum os| ≤
      u * B * (ms.length + 2) + 2 * u * B * os.length := by
    rw [hTs]
    calc _ = |l.sum - depth rd os + (depth rd os - thickSum os)| := by congr 1; ring
      _ ≤ _ := abs_two l5 d4
      _ ≤ _ := add_le_add (mul_le_mul_of_nonneg_left (by linarith) huB) le_rfl
  obtain ⟨a', x, g1, g2, g3, g4, g5, g6, g7⟩ := relayerLoop_spec h (by linarith) hd (E := thickErr u B os.length ms.length) hN c hρ
    (by linarith) os _ _ acc (fun o hoo => ⟨⟨hE0.trans_lt (ho o hoo).1, (ho o hoo).2.1, (d3 o hoo).trans (by linarith),
      (ho o hoo).2.2.1, (ho o hoo).2.2.2⟩, (ho o hoo).1⟩) he (by
        dsimp only
        rw [Nat.sub_zero]
        unfold thickErr
        have i1 : u * B * l.length ≤ u * B * ms.length := mul_le_mul_of_nonneg_left hl2K huB
        have i2 : u * B * 1 ≤ u * B * os.length := mul_le_mul_of_nonneg_left hn1K huB
        have i3 : u * B * 1 ≤ u * B * ms.length := mul_le_mul_of_nonneg_left hm1K huB
        linarith)
  dsimp only at g3 g6 g7
  rw [Nat.sub_zero] at g6
  have tz : tot ms.length (fun _ _ => 0 : ℕ → ι → K) c = 0 := by simp [tot]
  rw [tz, zero_add] at g6
  have cs : 0 ≤ contSum c os := by
    apply List.sum_nonneg
    intro y hy
    rw [List.mem_map] at hy
    obtain ⟨o', ho', rfl⟩ := hy
    exact (ho o' ho').2.2.1
  have r1 : (1 : K) ≤ (1 + u) / (1 - u) := by
    rw [le_div_iff₀ (by linarith)]
    linarith
  refine ⟨l.length, l ++ List.replicate z 0, a'.cont, ?_, hl1, hl2, by simpa using l3, fun k hk => (l4 _ (gl k hk)).1,
    fun k hk => ⟨gz k hk, g3 k hk⟩, ?_, g2, ?_, ?_⟩
  · rw [relayer, if_pos (by linarith)]
    simp only [l1, p1, p2, hT, hT0, g1, Option.map_some]
  · have : (l ++ List.replicate z (0 : K)).sum = l.sum := by simp
    rw [this, ← hTs]
    refine he.trans ?_
    unfold thickErr
    have i2 : u * B * 1 ≤ u * B * os.length := mul_le_mul_of_nonneg_left hn1K huB
    have i3 : u * B * 1 ≤ u * B * ms.length := mul_le_mul_of_nonneg_left hm1K huB
    linarith
  · have ts : tot ms.length a'.cont c = ∑ k ∈ Finset.range l.length, a'.cont k c := by
      unfold tot
      symm
      refine Finset.sum_subset (Finset.range_subset_range.mpr hl2) fun k _ hk => ?_
      rw [Finset.mem_range, not_lt] at hk
      exact g3 k hk
    rw [← ts]
    have hx := ((abs_neg x).trans (abs_of_nonneg g4)).le.trans g5
    calc _ = |tot ms.length a'.cont c + x - contSum c os + -x| := by congr 1; ring
      _ ≤ _ := abs_two g6 hx
      _ ≤ _ := by
        refine add_le_add (mul_le_mul_of_nonneg_right ?_ cs) (mul_le_mul_of_nonneg_right
          (mul_le_mul_of_nonneg_left (pow_le r1 hl2) hρ) hE0)
        have := pow_le (a := 1 + u) (m := 2 * (os.length + l.length)) (n := 2 * (os.length + ms.length)) (by linarith) (by omega)
        linarith
  · intro hco
    exact g7 (fun k hk => lt_of_lt_of_le hE (by rw [← hT]; exact (l4 _ (gl k hk)).1)) hco (by simp) (Or.inl (hN.pos 0 hl1))
      (Or.inl hne)

/-- **C138.** The assumption on quotients holds for all floating point formats and rounding directions. -/
theorem C138_format [FloorRing K] {δ : K} {r : K → ℤ} (hr : IntRounding δ r) {p : ℕ} (hp : 1 ≤ p) : DivBelow (flt r p) := by
  intro x y hx hy h0 hxy
  rcases eq_or_lt_of_le h0 with rfl | hx0
  · rw [zero_div]
    simp [flt]
  have hy0 := hx0.trans hxy
  obtain ⟨n, hn1, hn2, hn0⟩ := int_pow (K := K) p hp
  have hP : (0 : K) < 2 ^ (p : ℤ) := by positivity
  have h2 : (2 : K) ^ (p : ℤ) * 2 ^ (-(p : ℤ)) = 1 := by rw [← zpow_add₀ (by norm_num)]; simp
  have rep : ∀ {w : K}, 0 < w → flt r p w = w → ∃ (a : ℤ) (e : ℤ), w = a * 2 ^ e ∧ n ≤ a ∧ a < 2 * n ∧ e = Int.log 2 w - p + 1 := by
    intro w hw hww
    obtain ⟨Y, e, e1, e2, e3, e4⟩ := normal (p := p) hw
    have h3 : flt r p w = r Y * 2 ^ e := by rw [flt, if_pos hw, fltPos_eq r e1 e2 e3]
    rw [hww, e1] at h3
    have h4 : Y = r Y := mul_right_cancel₀ (by positivity) h3
    refine ⟨r Y, e, by rw [← h4]; exact e1, ?_, ?_, e4⟩
    · rw [hn1, h4] at e2
      exact_mod_cast e2
    · rw [hn2, h4] at e3
      exact_mod_cast e3
  obtain ⟨a, e, a1, a2, a3, a4⟩ := rep hx0 hx
  obtain ⟨b, f, b1, b2, b3, b4⟩ := rep hy0 hy
  have hef : e ≤ f := by
    have := Int.log_mono_right (b := 2) hx0 hxy.le
    omega
  have he : (0 : K) < 2 ^ e := by positivity
  have hN : (2 : K) ^ (p : ℤ) = 2 * n := by rw [hn2]; push_cast; ring
  have hnK : (0 : K) < n := by exact_mod_cast hn0
  have main : x ≤ y * (1 - 2 ^ (-(p : ℤ))) := by
    have h5 : (2 : K) ^ (-(p : ℤ)) = 1 / (2 * n) := by rw [zpow_neg, hN, one_div]
    rw [h5]
    rcases eq_or_lt_of_le hef with rfl | hlt
    · have hab : a < b := by
        rw [a1, b1] at hxy
        have := lt_of_mul_lt_mul_right hxy he.le
        exact_mod_cast this
      have hab' : (a : K) ≤ b - 1 := by
        have : a ≤ b - 1 := by omega
        exact_mod_cast this
      have hbK : (b : K) < 2 * n := by exact_mod_cast b3
      have : (b : K) * (1 / (2 * n)) ≤ 1 := by
        rw [mul_one_div, div_le_one (by linarith)]
        exact hbK.le
      rw [a1, b1]
      calc (a : K) * 2 ^ e ≤ (b - b * (1 / (2 * n))) * 2 ^ e := mul_le_mul_of_nonneg_right (by linarith) he.le
        _ = _ := by ring
    · have ha' : (a : K) ≤ 2 * n - 1 := by
        have : a ≤ 2 * n - 1 := by omega
        exact_mod_cast this
      have hb' : (n : K) ≤ b := by exact_mod_cast b2
      have hf : 2 * (2 : K) ^ e ≤ 2 ^ f := by
        calc 2 * (2 : K) ^ e = 2 ^ (e + 1) := by rw [zpow_add₀ (by norm_num)]; norm_num; ring
          _ ≤ _ := zpow_le_zpow_right₀ (by norm_num) (by omega)
      have hy' : 2 * n * 2 ^ e ≤ y := by
        rw [b1]
        calc 2 * (n : K) * 2 ^ e = n * (2 * 2 ^ e) := by ring
          _ ≤ b * 2 ^ f := mul_le_mul hb' hf (by positivity) (by linarith)
      have h6 : (0 : K) ≤ 1 - 1 / (2 * n) := by
        rw [sub_nonneg, div_le_one (by linarith)]
        have : 1 ≤ n := hn0
        have : (1 : K) ≤ n := by exact_mod_cast this
        linarith
      calc x ≤ (2 * n - 1) * 2 ^ e := by rw [a1]; exact mul_le_mul_of_nonneg_right ha' he.le
        _ = 2 * n * 2 ^ e * (1 - 1 / (2 * n)) := by field_simp
        _ ≤ _ := mul_le_mul_of_nonneg_right hy' h6
  have hq : x / y ≤ 1 - 2 ^ (-(p : ℤ)) := by
    rw [div_le_iff₀ hy0, mul_comm]
    exact main
  have hmono := (C137_format hr hp).mono hq
  have hqe : (1 : K) - 2 ^ (-(p : ℤ)) = ((2 * n - 1 : ℤ) : K) * 2 ^ (-(p : ℤ)) := by
    push_cast
    rw [sub_mul, one_mul, ← hN, h2]
  have hn1' : (1 : K) ≤ n := by
    have : 1 ≤ n := hn0
    exact_mod_cast this
  have hqpos : (0 : K) < 1 - 2 ^ (-(p : ℤ)) := by
    rw [hqe]
    push_cast
    have : (0 : K) < 2 * n - 1 := by linarith
    positivity
  have hfl : flt r p ((1 : K) - 2 ^ (-(p : ℤ))) = 1 - 2 ^ (-(p : ℤ)) := by
    rw [flt, if_pos hqpos, fltPos_eq r hqe, hr.int, ← hqe]
    · rw [hn1]; push_cast; linarith
    · rw [hN]; push_cast; linarith
  rw [hfl] at hmono
  have : (0 : K) < 2 ^ (-(p : ℤ)) := by positivity
  linarith

/-! ### Exact arithmetic -/

theorem newThickness_exact : ∀ (ms : List K) (d : K), newThickness id d ms = MultiLayer.newThickness d ms := by
  intro ms
  induction ms with
  | nil => intro d; rfl
  | cons m ms ih => intro d; simp only [newThickness, MultiLayer.newThickness, id, ih]

theorem depth_exact (os : List (Old K ι)) : depth id os = thickSum os := by
  have : ∀ (os : List (Old K ι)) (s : K), os.foldl (fun s o => id (s + o.thick)) s = s + thickSum os := by
    intro os
    induction os with
    | nil => intro s; simp [thickSum]
    | cons o os ih => intro s; rw [List.foldl_cons, ih]; simp [thickSum, add_assoc]
  rw [depth, this, zero_add]

/-- The same state in the exact model. -/
def Acc.exact (a : Acc K ι) : MultiLayer.RelayerAcc K (ι → K) := ⟨a.kNew, a.newTh, a.cont⟩

theorem relayerOld_exact (maxL ns : ℕ) (ths : ℕ → K) : ∀ (m : ℕ) (o : Old K ι) (a : Acc K ι), ns - a.kNew = m →
    (relayerOld id maxL ns ths o a).map Acc.exact = MultiLayer.relayerOld maxL ns ths ⟨o.thick, o.cont⟩ a.exact := by
  intro m
  induction m with
  | zero =>
    intro o ⟨kN, nT, ct⟩ hm
    have hwt : MultiLayer.weight nT o.thick = weight id nT o.thick := rfl
    have hns : ns ≤ kN + 1 := by dsimp only at hm; omega
    rw [relayerOld, MultiLayer.relayerOld]
    simp only [Acc.exact, hwt]
    by_cases h1 : maxL ≤ kN
    · simp [h1]
    · simp only [h1, if_false]
      cases weight id nT o.thick with
      | none => rfl
      | some w =>
        dsimp only
        by_cases h2 : w = 1
        · simp only [h2, if_true]; rfl
        · simp only [h2, hns, if_false, if_true]; rfl
  | succ m ih =>
    intro o ⟨kN, nT, ct⟩ hm
    have hwt : MultiLayer.weight nT o.thick = weight id nT o.thick := rfl
    rw [relayerOld, MultiLayer.relayerOld]
    simp only [Acc.exact, hwt]
    by_cases h1 : maxL ≤ kN
    · simp [h1]
    · simp only [h1, if_false]
      cases weight id nT o.thick with
      | none => rfl
      | some w =>
        dsimp only
        by_cases h2 : w = 1
        · simp only [h2, if_true]; rfl
        · simp only [h2, if_false]
          by_cases hns : ns ≤ kN + 1
          · simp only [hns, if_true]; rfl
          · simp only [hns, if_false, id]
            have := ih ⟨o.thick * (1 - w), fun c => o.cont c * (1 - w)⟩ ⟨kN + 1, if w < 1 then ths (kN + 1) else nT,
              Function.update ct kN fun c => ct kN c + w * o.cont c⟩ (by dsimp only at hm ⊢; omega)
            have hc : ((1 - w) • o.cont) = fun c => o.cont c * (1 - w) := by
              funext c
              simp [mul_comm]
            rw [hc]
            exact this

/-- **C138.** Without rounding the loop is the one of the exact model (C16, C122). -/
theorem C138_exact (maxL ns : ℕ) (ths : ℕ → K) (os : List (Old K ι)) (a : Acc K ι) :
    (relayerLoop id maxL ns ths os a).map Acc.exact =
      MultiLayer.relayerLoop maxL ns ths (os.map fun o => ⟨o.thick, o.cont⟩) a.exact := by
  induction os generalizing a with
  | nil => rfl
  | cons o os ih =>
    rw [relayerLoop, List.map_cons, MultiLayer.relayerLoop, ← relayerOld_exact maxL ns ths _ o a rfl]
    cases relayerOld id maxL ns ths o a with
    | none => rfl
    | some a1 => exact ih a1

theorem exactRounding : IsRounding (0 : K) id where
  mono := monotone_id
  one := rfl
  idem := fun _ => rfl
  rel := fun x => by simp

theorem exactDiv : DivBelow (id : K → K) := by
  intro x y _ _ h0 hxy
  rw [id, div_lt_one (h0.trans_lt hxy)]
  exact hxy

/-! ### Too thin layers -/

theorem even [FloorRing K] : IntRounding (1 / 2 : K) roundEven where
  mono := by
    intro x y hxy
    have hf := Int.floor_le_floor hxy
    unfold roundEven
    rcases eq_or_lt_of_le hf with he | hlt
    · rw [← he]
      by_cases h1 : y - ⌊x⌋ < 1 / 2 ∨ (y - ⌊x⌋ = 1 / 2 ∧ ⌊x⌋ % 2 = 0)
      · rw [if_pos h1, if_pos]
        rcases h1 with h1 | ⟨h1, h2⟩
        · exact Or.inl (by linarith)
        · rcases eq_or_lt_of_le hxy with rfl | hl
          · exact Or.inr ⟨h1, h2⟩
          · exact Or.inl (by linarith)
      · rw [if_neg h1]
        split_ifs <;> omega
    · split_ifs <;> omega
  int := by
    intro n
    simp [roundEven]
  err := by
    intro x
    have h1 := Int.floor_le x
    have h2 := Int.lt_floor_add_one x
    unfold roundEven
    split_ifs with h
    · have : x - ⌊x⌋ ≤ 1 / 2 := by
        rcases h with h | h
        · exact h.le
        · exact h.1.le
      rw [abs_le]
      constructor <;> linarith
    · have : 1 / 2 ≤ x - ⌊x⌋ := by
        by_contra hc
        exact h (Or.inl (not_le.mp hc))
      push_cast
      rw [abs_le]
      constructor <;> linarith

/-- Double precision satisfies the assumptions. -/
theorem dblRounding : IsRounding (1 / 2 ^ 53 : ℚ) dbl ∧ DivBelow dbl := by
  refine ⟨?_, C138_format (p := 53) even (by norm_num)⟩
  have := C137_format (K := ℚ) even (p := 53) (by norm_num)
  norm_num at this ⊢
  exact this

/-- **C138.** It is false without the condition: in double precision with the minimum thicknesses 0.1, 0.2 and 0.4 m of the
default configuration, relayering a snowpack of 2 m on top of a layer of `2^-57` m writes behind the end of the arrays, whatever
the contents; in exact arithmetic it does not. -/
theorem C138_bounds_false : ∃ minTh : List ℚ, ∃ a b : ℚ, minTh = [dbl (1 / 10), dbl (2 / 10), dbl (4 / 10)] ∧
    dbl a = a ∧ dbl b = b ∧ 0 < a ∧ 0 < b ∧
    ∀ x y : Fin 3 → ℚ, relayer dbl minTh [⟨a, x⟩, ⟨b, y⟩] = none ∧
      ((∀ c, 0 ≤ x c) → (∀ c, 0 ≤ y c) → (relayer id minTh [⟨a, x⟩, ⟨b, y⟩]).isSome) := by
  refine ⟨_, 2, 1 / 2 ^ 57, rfl, by decide +kernel, by decide +kernel, by norm_num, by norm_num, fun x y => ⟨?_, fun hx hy => ?_⟩⟩
  · have d1 : depth dbl [(⟨2, x⟩ : Old ℚ (Fin 3)), ⟨1 / 2 ^ 57, y⟩] = 2 := by
      change dbl (dbl (0 + 2) + 1 / 2 ^ 57) = 2
      decide +kernel
    have d2 : MultiLayer.dropThin (newThickness dbl 2 [dbl (1 / 10), dbl (2 / 10), dbl (4 / 10)]) =
        [3602879701896397 / 2 ^ 55, 3602879701896397 / 2 ^ 54, 3828059683264921 / 2 ^ 51] := by
      have m1 : dbl (1 / 10) = 3602879701896397 / 2 ^ 55 := by decide +kernel
      have m2 : dbl (2 / 10) = 3602879701896397 / 2 ^ 54 := by decide +kernel
      have m3 : dbl (4 / 10) = 3602879701896397 / 2 ^ 53 := by decide +kernel
      have n1 : dbl (2 - 3602879701896397 / 2 ^ 55) = 8556839292003942 / 2 ^ 52 := by decide +kernel
      have n2 : dbl (8556839292003942 / 2 ^ 52 - 3602879701896397 / 2 ^ 54) = 7656119366529843 / 2 ^ 52 := by decide +kernel
      have n3 : dbl (3602879701896397 / 2 ^ 53 + dbl (7656119366529843 / 2 ^ 52 - 3602879701896397 / 2 ^ 53)) =
          3828059683264921 / 2 ^ 51 := by decide +kernel
      rw [m1, m2, m3, newThickness, n1, if_neg (by simp; norm_num), newThickness, n2,
        if_neg (by simp; norm_num), newThickness,
        if_pos (Or.inr rfl), n3]
      norm_num [MultiLayer.dropThin]
    have d3 : [(3602879701896397 / 2 ^ 55 : ℚ), 3602879701896397 / 2 ^ 54, 3828059683264921 / 2 ^ 51].countP
        (fun t => decide (0 < t)) = 3 := by decide +kernel
    have w1 : weight dbl (3602879701896397 / 2 ^ 55) 2 = some (3602879701896397 / 2 ^ 56) := by decide +kernel
    have t1 : dbl (2 * dbl (1 - 3602879701896397 / 2 ^ 56)) = 4278419646001971 / 2 ^ 51 := by decide +kernel
    have w2 : weight dbl (3602879701896397 / 2 ^ 54) (4278419646001971 / 2 ^ 51) = some (7585009898729257 / 2 ^ 56) := by
      decide +kernel
    have t2 : dbl (4278419646001971 / 2 ^ 51 * dbl (1 - 7585009898729257 / 2 ^ 56)) = 7656119366529843 / 2 ^ 52 := by decide +kernel
    have w3 : weight dbl (3828059683264921 / 2 ^ 51) (7656119366529843 / 2 ^ 52) = some (9007199254740991 / 2 ^ 53) := by
      decide +kernel
    rw [relayer, if_pos (by rw [d1]; norm_num), d1, d2]
    simp only [d3, List.length_cons, List.length_nil]
    rw [relayerLoop, relayerOld]
    simp only [List.getD_cons_zero, w1]
    rw [if_neg (by norm_num), if_neg (by norm_num), if_neg (by norm_num), if_pos (by norm_num), t1, relayerOld]
    simp only [List.getD_cons_zero, List.getD_cons_succ, w2]
    rw [if_neg (by norm_num), if_neg (by norm_num), if_neg (by norm_num), if_pos (by norm_num), t2, relayerOld]
    simp only [List.getD_cons_zero, List.getD_cons_succ, w3]
    rw [if_neg (by norm_num), if_neg (by norm_num), if_pos (by norm_num), Option.bind_some, relayerLoop, relayerOld]
    simp
  · obtain ⟨ns, thl, f, hf, -⟩ := C138_bounds (exactRounding (K := ℚ)) (by norm_num) exactDiv [dbl (1 / 10), dbl (2 / 10), dbl (4 / 10)]
      [⟨2, x⟩, ⟨1 / 2 ^ 57, y⟩] 0 3 (max (x 0) (y 0 * 2 ^ 57)) (by simp) (by decide +kernel) (le_max_of_le_left (hx 0)) (by
        intro o ho
        simp only [List.mem_cons, List.not_mem_nil, or_false] at ho
        rcases ho with rfl | rfl
        · have := le_max_left (x 0) (y 0 * 2 ^ 57)
          exact ⟨by norm_num [thickErr], rfl, hx 0, by dsimp only; linarith [hx 0]⟩
        · have := le_max_right (x 0) (y 0 * 2 ^ 57)
          exact ⟨by norm_num [thickErr], rfl, hy 0, by dsimp only; rw [mul_one_div, le_div_iff₀ (by norm_num)]; exact this⟩)
      (by rw [depth_exact]; norm_num [thickSum]) (by rw [depth_exact]; norm_num [thickSum]) (by norm_num [thickErr])
    rw [hf]
    rfl

/-! ## Examples -/

-- C138_bounds: ice of layers of 12.5 cm and 1 m in double precision with the default minimum thicknesses
example : ∃ (ns : ℕ) (thl : List ℚ) (f : ℕ → Unit → ℚ),
    relayer dbl [dbl (1 / 10), dbl (2 / 10), dbl (4 / 10)] [⟨1 / 8, fun _ => 20⟩, ⟨1, fun _ => 300⟩] = some (ns, thl, f) ∧
      0 < ns ∧ (∀ k < ns, 0 < f k ()) ∧ |∑ k ∈ Finset.range ns, f k () - 320| ≤ 1 / 10 ^ 9 := by
  obtain ⟨h, hd⟩ := dblRounding
  obtain ⟨ns, thl, f, h1, h2, -, -, -, -, -, -, h8, h9⟩ := C138_bounds h (by norm_num) hd [dbl (1 / 10), dbl (2 / 10), dbl (4 / 10)]
    [⟨1 / 8, fun _ => 20⟩, ⟨1, fun _ => 300⟩] () 4 300 (by simp) (by decide +kernel) (by norm_num)
    (by
      intro o ho
      simp only [List.mem_cons, List.not_mem_nil, or_false] at ho
      rcases ho with rfl | rfl
      · exact ⟨by norm_num [thickErr], by decide +kernel, by norm_num, by norm_num⟩
      · exact ⟨by norm_num [thickErr], by decide +kernel, by norm_num, by norm_num⟩)
    (by decide +kernel) (by decide +kernel) (by norm_num [thickErr])
  refine ⟨ns, thl, f, h1, h2, h9 (by simp), ?_⟩
  norm_num [contSum, thickErr] at h8
  refine h8.trans ?_
  norm_num

-- C138_format: double precision
example : DivBelow dbl := dblRounding.2

-- C138_exact: a layer distributed to three slots
example : (relayerLoop (ι := Unit) id 3 3 (fun k => ([1 / 10, 2 / 10, 7 / 10] : List ℚ).getD k 0) [⟨1, fun _ => 300⟩]
    ⟨0, 1 / 10, fun _ _ => 0⟩).isSome ∧ (MultiLayer.relayerLoop 3 3 (fun k => ([1 / 10, 2 / 10, 7 / 10] : List ℚ).getD k 0)
      [⟨1, fun _ : Unit => (300 : ℚ)⟩] ⟨0, 1 / 10, fun _ _ => 0⟩).isSome := by
  have h := C138_exact 3 3 (fun k => ([1 / 10, 2 / 10, 7 / 10] : List ℚ).getD k 0) [⟨1, fun _ : Unit => 300⟩]
    ⟨0, 1 / 10, fun _ _ => 0⟩
  have h1 : (relayerLoop (ι := Unit) id 3 3 (fun k => ([1 / 10, 2 / 10, 7 / 10] : List ℚ).getD k 0) [⟨1, fun _ => 300⟩]
      ⟨0, 1 / 10, fun _ _ => 0⟩).isSome := by
    rw [relayerLoop, relayerOld]
    norm_num [weight]
    rw [relayerOld]
    norm_num [weight]
    rw [relayerOld]
    norm_num [weight, relayerLoop]
  refine ⟨h1, ?_⟩
  rw [show (MultiLayer.relayerLoop 3 3 (fun k => ([1 / 10, 2 / 10, 7 / 10] : List ℚ).getD k 0)
      [⟨1, fun _ : Unit => (300 : ℚ)⟩] ⟨0, 1 / 10, fun _ _ => 0⟩) = _ from h.symm]
  simpa using h1

end Verif.Rounded
