import Verif.Props.StepDef

/-!
# Lemmas for C123: temperatures through melt, sublimation, runoff and relayering
-/

set_option linter.unusedSectionVars false

namespace Verif.MultiLayer

variable {K : Type*} [Field K] [LinearOrder K] [IsStrictOrderedRing K]

/-! ## Relayering keeps contents in a convex cone -/

theorem weight_spec {new old w : K} (hn : 0 ≤ new) (ho : 0 ≤ old) (h : weight new old = some w) :
    0 ≤ w ∧ w ≤ 1 ∧ (w = 1 → old ≤ new) := by
  unfold weight at h
  split_ifs at h with h0 h1
  · simp only [Option.some.injEq] at h
    subst h
    exact ⟨zero_le_one, le_rfl, fun _ => by rw [h0]; exact hn⟩
  · simp only [Option.some.injEq] at h
    have hp : 0 < old := lt_of_le_of_ne ho (Ne.symm h0)
    subst h
    refine ⟨le_min (div_nonneg hn ho) zero_le_one, min_le_right _ _, fun e => ?_⟩
    have : 1 ≤ new / old := by rw [← e]; exact min_le_left _ _
    rwa [le_div_iff₀ hp, one_mul] at this

theorem relayerOld_cone {M : Type*} [AddCommGroup M] [Module K M] {C : M → Prop}
    (hadd : ∀ x y, C x → C y → C (x + y)) (hsmul : ∀ (r : K) x, 0 ≤ r → C x → C (r • x))
    (maxL ns : ℕ) {ths : ℕ → K} (hths : ∀ k, 0 ≤ ths k) :
    ∀ (m : ℕ) (o : OldLayer K M) (a a' : RelayerAcc K M), ns - a.kNew ≤ m → 0 ≤ o.thick → C o.cont →
      0 ≤ a.newTh → (∀ k, C (a.cont k)) → relayerOld maxL ns ths o a = some a' →
      0 ≤ a'.newTh ∧ ∀ k, C (a'.cont k) := by
  intro m
  induction m with
  | zero =>
    intro o a a' hm ho hC hn ha h
    unfold relayerOld at h
    split_ifs at h
    split at h
    · simp at h
    rename_i w hw
    obtain ⟨w0, w1, w2⟩ := weight_spec hn ho hw
    have hup : ∀ k, C (Function.update a.cont a.kNew (a.cont a.kNew + w • o.cont) k) := by
      intro k
      by_cases hk : k = a.kNew
      · subst hk; rw [Function.update_self]; exact hadd _ _ (ha _) (hsmul _ _ w0 hC)
      · rw [Function.update_of_ne hk]; exact ha k
    simp only at h
    split_ifs at h with h1 h2
    · simp only [Option.some.injEq] at h
      subst h
      exact ⟨sub_nonneg.mpr (w2 h1), hup⟩
    · simp only [Option.some.injEq] at h
      subst h
      exact ⟨hn, hup⟩
    · omega
  | succ m ih =>
    intro o a a' hm ho hC hn ha h
    unfold relayerOld at h
    by_cases hmax : maxL ≤ a.kNew
    · rw [if_pos hmax] at h; simp at h
    rw [if_neg hmax] at h
    split at h
    · simp at h
    rename_i w hw
    obtain ⟨w0, w1, w2⟩ := weight_spec hn ho hw
    have hup : ∀ k, C (Function.update a.cont a.kNew (a.cont a.kNew + w • o.cont) k) := by
      intro k
      by_cases hk : k = a.kNew
      · subst hk; rw [Function.update_self]; exact hadd _ _ (ha _) (hsmul _ _ w0 hC)
      · rw [Function.update_of_ne hk]; exact ha k
    simp only at h
    by_cases h1 : w = 1
    · rw [if_pos h1, Option.some.injEq] at h
      subst h
      exact ⟨sub_nonneg.mpr (w2 h1), hup⟩
    rw [if_neg h1] at h
    by_cases h2 : ns ≤ a.kNew + 1
    · rw [if_pos h2, Option.some.injEq] at h
      subst h
      exact ⟨hn, hup⟩
    · rw [if_neg h2] at h
      refine ih _ _ a' ?_ ?_ ?_ ?_ hup h
      · simp only; omega
      · exact mul_nonneg ho (by linarith)
      · exact hsmul _ _ (by linarith) hC
      · simp only
        split_ifs
        · exact hths _
        · exact hn

theorem relayerLoop_cone {M : Type*} [AddCommGroup M] [Module K M] {C : M → Prop}
    (hadd : ∀ x y, C x → C y → C (x + y)) (hsmul : ∀ (r : K) x, 0 ≤ r → C x → C (r • x))
    (maxL ns : ℕ) {ths : ℕ → K} (hths : ∀ k, 0 ≤ ths k) :
    ∀ (os : List (OldLayer K M)) (a a' : RelayerAcc K M), (∀ o ∈ os, 0 ≤ o.thick ∧ C o.cont) →
      0 ≤ a.newTh → (∀ k, C (a.cont k)) → relayerLoop maxL ns ths os a = some a' → ∀ k, C (a'.cont k) := by
  intro os
  induction os with
  | nil =>
    intro a a' _ _ ha h
    simp only [relayerLoop, Option.some.injEq] at h
    subst h
    exact ha
  | cons o os ih =>
    intro a a' ho hn ha h
    simp only [relayerLoop] at h
    cases h1 : relayerOld maxL ns ths o a with
    | none => rw [h1] at h; simp at h
    | some a1 =>
      rw [h1] at h
      simp only [Option.bind_eq_bind, Option.bind_some] at h
      obtain ⟨k1, k2⟩ := relayerOld_cone hadd hsmul maxL ns hths _ o a a1 le_rfl (ho o (by simp)).1
        (ho o (by simp)).2 hn ha h1
      exact ih a1 a' (fun o' ho' => ho o' (by simp [ho'])) k1 k2 h

/-- Relayering a pack of cold layers gives cold layers. -/
theorem updateLayers_cold {minTh : List K} {p q : Pixel K}
    (hp : ∀ L ∈ p.layers.take p.n, 0 ≤ L.thick ∧ 0 ≤ L.ice ∧ 0 ≤ L.lwc ∧ heat L ≤ 0)
    (h : updateLayers minTh p = some q) : ∀ L ∈ q.layers, L.temp ≤ T0 := by
  have hci := cIce_pos (K := K)
  have hcw := cWater_pos (K := K)
  simp only [updateLayers] at h
  obtain ⟨thl, hthl⟩ : ∃ x, dropThin (newThickness (depth p) minTh) = x := ⟨_, rfl⟩
  obtain ⟨ns, hns⟩ : ∃ x, (thl.countP fun t => decide (0 < t)) = x := ⟨_, rfl⟩
  rw [hthl, hns] at h
  by_cases hd : 0 < depth p
  · rw [if_pos hd] at h
    split at h
    · simp at h
    rename_i a ha
    have hq : q.layers = (List.range minTh.length).map fun k => newLayer ns (fun k => thl.getD k 0) a.cont
        (((p.layers[k]?).map Layer.heatCap).getD 0) k := by
      split_ifs at h <;> (simp only [Option.some.injEq] at h; rw [← h])
    have hths : ∀ k, 0 ≤ thl.getD k 0 := by
      intro k
      have hall : ∀ t ∈ thl, 0 ≤ t := by
        intro t ht
        rw [← hthl] at ht
        obtain ⟨u, -, rfl⟩ := List.mem_map.mp ht
        split_ifs with hu
        · exact le_rfl
        · have : (0 : K) < 1 / 1000000 := by norm_num
          linarith
      by_cases hk : k < thl.length
      · have : thl.getD k 0 = thl[k] := by simp [hk]
        rw [this]; exact hall _ (List.getElem_mem hk)
      · have : thl.getD k 0 = 0 := by simp [hk]
        rw [this]
    have hcone := relayerLoop_cone (K := K) (M := K × K × K) (C := fun x => 0 ≤ x.1 ∧ 0 ≤ x.2.1 ∧ x.2.2 ≤ 0)
      (fun x y hx hy => ⟨add_nonneg hx.1 hy.1, add_nonneg hx.2.1 hy.2.1, add_nonpos hx.2.2 hy.2.2⟩)
      (fun r x hr hx => ⟨mul_nonneg hr hx.1, mul_nonneg hr hx.2.1, mul_nonpos_of_nonneg_of_nonpos hr hx.2.2⟩)
      minTh.length ns (ths := fun k => thl.getD k 0) hths _ _ a (by
        intro o ho
        obtain ⟨L, hL, rfl⟩ := List.mem_map.mp ho
        obtain ⟨h1, h2, h3, h4⟩ := hp L hL
        exact ⟨h1, h2, h3, h4⟩) (hths 0) (fun k => ⟨le_rfl, le_rfl, le_rfl⟩) ha
    intro L hL
    rw [hq] at hL
    obtain ⟨k, -, rfl⟩ := List.mem_map.mp hL
    simp only [newLayer]
    split_ifs with hk
    · obtain ⟨c1, c2, c3⟩ := hcone k
      have hpos : 0 ≤ (a.cont k).1 * cIce + (a.cont k).2.1 * cWater := by positivity
      have : (a.cont k).2.2 / ((a.cont k).1 * cIce + (a.cont k).2.1 * cWater) ≤ 0 :=
        div_nonpos_of_nonpos_of_nonneg c3 hpos
      simp only
      linarith
    · exact le_rfl
  · rw [if_neg hd] at h
    simp only [Option.some.injEq] at h
    subst h
    intro L hL
    obtain ⟨k, -, rfl⟩ := List.mem_map.mp hL
    simp [newLayer]

/-! ## Melt, sublimation, runoff -/

theorem meltLoop_cold : ∀ (Ls : List (Layer K)) (s : MeltAcc K), (∀ L ∈ Ls, 0 < L.heatCap) →
    ∀ L ∈ (meltLoop s Ls).2, 0 ≤ L.heatCap ∧ L.temp ≤ T0
  | [], _, _ => by simp [meltLoop]
  | L :: Ls, s, h => by
    intro M hM
    simp only [meltLoop, List.mem_cons] at hM
    rcases hM with rfl | hM
    · have hc := h L (by simp)
      have ht : (if L.heatCap * (T0 - L.temp) < 0 then T0 else L.temp) ≤ T0 := by
        split_ifs with h0
        · exact le_rfl
        · have := nonneg_of_mul_nonneg_right (not_lt.mp h0) hc
          linarith
      obtain ⟨ch, hch⟩ : ∃ x, (if L.heatCap * (T0 - L.temp) < 0 then s.change - L.heatCap * (T0 - L.temp) / LF
        else s.change) = x := ⟨_, rfl⟩
      obtain ⟨tv, htv⟩ : ∃ x, (if L.heatCap * (T0 - L.temp) < 0 then T0 else L.temp) = x := ⟨_, rfl⟩
      rw [htv] at ht
      simp only [meltLayer, hch, htv]
      split_ifs <;> exact ⟨hc.le, ht⟩
    · exact meltLoop_cold Ls _ (fun L' hL' => h L' (by simp [hL'])) M hM

theorem sublLoop_cold : ∀ (Ls : List (Layer K)) (x : K) (r : K × List (Layer K)), sublLoop x Ls = some r →
    (∀ L ∈ Ls, 0 ≤ L.heatCap ∧ L.temp ≤ T0) → ∀ L ∈ r.2, 0 ≤ L.heatCap ∧ L.temp ≤ T0
  | [], x, r, h, _ => by
    simp only [sublLoop, Option.some.injEq] at h
    subst h
    simp
  | L :: Ls, x, r, h, hL => by
    simp only [sublLoop] at h
    cases h1 : sublLayer x L with
    | none => rw [h1] at h; simp at h
    | some y =>
      rw [h1] at h
      simp only [Option.bind_eq_bind, Option.bind_some] at h
      cases h2 : sublLoop y.1 Ls with
      | none => rw [h2] at h; simp at h
      | some z =>
        rw [h2] at h
        simp only [Option.bind_some, Option.pure_def, Option.some.injEq] at h
        subst h
        intro M hM
        simp only [List.mem_cons] at hM
        rcases hM with rfl | hM
        · have h0 := hL L (by simp)
          unfold sublLayer at h1
          split_ifs at h1
          · simp only [Option.some.injEq] at h1; subst h1; exact h0
          · simp only [Option.some.injEq] at h1; subst h1; exact h0
        · exact sublLoop_cold Ls y.1 z h2 (fun L' hL' => hL L' (by simp [hL'])) M hM

theorem sublLoop_len : ∀ (Ls : List (Layer K)) (x : K) (r : K × List (Layer K)), sublLoop x Ls = some r →
    r.2.length = Ls.length
  | [], x, r, h => by
    simp only [sublLoop, Option.some.injEq] at h
    subst h
    rfl
  | L :: Ls, x, r, h => by
    simp only [sublLoop] at h
    cases h1 : sublLayer x L with
    | none => rw [h1] at h; simp at h
    | some y =>
      rw [h1] at h
      simp only [Option.bind_eq_bind, Option.bind_some] at h
      cases h2 : sublLoop y.1 Ls with
      | none => rw [h2] at h; simp at h
      | some z =>
        rw [h2] at h
        simp only [Option.bind_some, Option.pure_def, Option.some.injEq] at h
        subst h
        simp [sublLoop_len Ls y.1 z h2]

theorem runoffLoop_cold : ∀ (Ls : List (Layer K × K)) (s : RunoffAcc K),
    (∀ x ∈ Ls, 0 ≤ x.1.heatCap ∧ x.1.temp ≤ T0) → ∀ L ∈ (runoffLoop s Ls).2, L.temp ≤ T0
  | [], _, _ => by simp [runoffLoop]
  | (L, m) :: Ls, s, h => by
    intro M hM
    simp only [runoffLoop, List.mem_cons] at hM
    rcases hM with rfl | hM
    · obtain ⟨hc, ht⟩ := h (L, m) (by simp)
      simp only at hc ht
      obtain ⟨l2, hl2⟩ : ∃ x, (if m < L.lwc + s.runoff then m else L.lwc + s.runoff) = x := ⟨_, rfl⟩
      obtain ⟨ro, hro⟩ : ∃ x, (if m < L.lwc + s.runoff then L.lwc + s.runoff - m else 0) = x := ⟨_, rfl⟩
      simp only [runoffLayer, hl2, hro]
      split_ifs with h0
      · simp only
        have hcp : 0 < L.heatCap := by
          rcases hc.lt_or_eq with h1 | h1
          · exact h1
          · rw [← h1, zero_mul] at h0; exact absurd h0 (lt_irrefl 0)
        have hLF := LF_pos (K := K)
        have hd : LF * min l2 (L.heatCap * (T0 - L.temp) / LF) ≤ L.heatCap * (T0 - L.temp) := by
          have h1 := min_le_right l2 (L.heatCap * (T0 - L.temp) / LF)
          have h2 := mul_le_mul_of_nonneg_left h1 hLF.le
          rwa [mul_div_cancel₀ _ hLF.ne'] at h2
        have h3 : LF * min l2 (L.heatCap * (T0 - L.temp) / LF) / L.heatCap ≤ T0 - L.temp := by
          rw [div_le_iff₀ hcp]; linarith
        linarith
      · exact ht
    · exact runoffLoop_cold Ls _ (fun x hx => h x (by simp [hx])) M hM

end Verif.MultiLayer
