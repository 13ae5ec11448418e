import Verif.Lemmas.ColdSnow
import Verif.Props.HeatConduction

/-!
# Lemmas for C127: temperature ranges through conduction, melt, sublimation, runoff and relayering
-/

set_option linter.unusedSectionVars false

namespace Verif.Heat

open Finset

variable {K : Type*} [Field K] [LinearOrder K] [IsStrictOrderedRing K]

/-- Maximum principle with a surface heat flux: the top layer counts with the temperature after receiving the flux. -/
theorem range_of_flux {c : Column K} (h : Physical c) {lo hi : K} (hT : ∀ k, k < c.N → 0 < k → lo ≤ c.T k ∧ c.T k ≤ hi)
    (h0 : c.hc 0 * lo ≤ c.hc 0 * c.T 0 + c.dt * c.flux ∧ c.hc 0 * c.T 0 + c.dt * c.flux ≤ c.hc 0 * hi)
    (hb : lo ≤ c.Tbottom ∧ c.Tbottom ≤ hi) {x : List K} (hx : tempChange c = some x) :
    ∀ k, k < c.N → lo ≤ newTemp c x k ∧ newTemp c x k ≤ hi := by
  obtain ⟨_, he⟩ := layer_balance h x hx
  have hdt := h.dt
  have hne : (range c.N).Nonempty := by
    have := h.layers
    exact ⟨0, by simpa using this⟩
  have hres := fun k => halfResistance_pos h k
  have hw : ∀ k, k < c.N → withBottom c (newTemp c x) k = newTemp c x k := by
    intro k hk; simp [withBottom, hk]
  have hcases : ∀ k, withBottom c (newTemp c x) k = c.Tbottom ∨
      (k < c.N ∧ withBottom c (newTemp c x) k = newTemp c x k) := by
    intro k
    unfold withBottom
    split_ifs with hk
    · exact Or.inr ⟨hk, rfl⟩
    · exact Or.inl rfl
  have upper : ∀ k, k < c.N → newTemp c x k ≤ hi := by
    obtain ⟨m, hm, hmax⟩ := Finset.exists_max_image (range c.N) (newTemp c x) hne
    have hmN := Finset.mem_range.mp hm
    have key : newTemp c x m ≤ hi := by
      by_contra hcon
      rw [not_le] at hcon
      have hall : ∀ k, withBottom c (newTemp c x) k ≤ newTemp c x m := by
        intro k
        rcases hcases k with e | ⟨hk, e⟩
        · rw [e]; linarith [hb.2]
        · rw [e]; exact hmax k (Finset.mem_range.mpr hk)
      have hbelow : 0 ≤ fluxBelow c (withBottom c (newTemp c x)) m := by
        unfold fluxBelow
        rw [hw m hmN]
        exact div_nonneg (sub_nonneg.mpr (hall _)) (add_pos (hres _) (hres _)).le
      have h1 := he m hmN
      have hhc := h.hc m hmN
      have hgt := mul_lt_mul_of_pos_left hcon hhc
      have hbd := mul_nonneg hdt.le hbelow
      unfold newTemp at hgt
      rcases Nat.eq_zero_or_pos m with rfl | hpos
      · have e : fluxAbove c (withBottom c (newTemp c x)) 0 = c.flux := by simp [fluxAbove]
        rw [e] at h1
        linarith [h0.2]
      · have habove : fluxAbove c (withBottom c (newTemp c x)) m ≤ 0 := by
          unfold fluxAbove
          rw [if_neg (by omega)]
          unfold fluxBelow
          rw [show m - 1 + 1 = m by omega, hw m hmN]
          exact div_nonpos_of_nonpos_of_nonneg (sub_nonpos.mpr (hall _)) (add_pos (hres _) (hres _)).le
        have hab := mul_nonpos_of_nonneg_of_nonpos hdt.le habove
        have := mul_le_mul_of_nonneg_left (hT m hmN hpos).2 hhc.le
        linarith
    intro k hk
    exact le_trans (hmax k (Finset.mem_range.mpr hk)) key
  have lower : ∀ k, k < c.N → lo ≤ newTemp c x k := by
    obtain ⟨m, hm, hmin⟩ := Finset.exists_min_image (range c.N) (newTemp c x) hne
    have hmN := Finset.mem_range.mp hm
    have key : lo ≤ newTemp c x m := by
      by_contra hcon
      rw [not_le] at hcon
      have hall : ∀ k, newTemp c x m ≤ withBottom c (newTemp c x) k := by
        intro k
        rcases hcases k with e | ⟨hk, e⟩
        · rw [e]; linarith [hb.1]
        · rw [e]; exact hmin k (Finset.mem_range.mpr hk)
      have hbelow : fluxBelow c (withBottom c (newTemp c x)) m ≤ 0 := by
        unfold fluxBelow
        rw [hw m hmN]
        exact div_nonpos_of_nonpos_of_nonneg (sub_nonpos.mpr (hall _))
          (add_pos (hres _) (hres _)).le
      have h1 := he m hmN
      have hhc := h.hc m hmN
      have hgt := mul_lt_mul_of_pos_left hcon hhc
      have hbd := mul_nonpos_of_nonneg_of_nonpos hdt.le hbelow
      unfold newTemp at hgt
      rcases Nat.eq_zero_or_pos m with rfl | hpos
      · have e : fluxAbove c (withBottom c (newTemp c x)) 0 = c.flux := by simp [fluxAbove]
        rw [e] at h1
        linarith [h0.1]
      · have habove : 0 ≤ fluxAbove c (withBottom c (newTemp c x)) m := by
          unfold fluxAbove
          rw [if_neg (by omega)]
          unfold fluxBelow
          rw [show m - 1 + 1 = m by omega, hw m hmN]
          exact div_nonneg (sub_nonneg.mpr (hall _)) (add_pos (hres _) (hres _)).le
        have hab := mul_nonneg hdt.le habove
        have := mul_le_mul_of_nonneg_left (hT m hmN hpos).1 hhc.le
        linarith
    intro k hk
    exact le_trans key (hmin k (Finset.mem_range.mpr hk))
  exact fun k hk => ⟨lower k hk, upper k hk⟩

end Verif.Heat

namespace Verif.MultiLayer

variable {K : Type*} [Field K] [LinearOrder K] [IsStrictOrderedRing K]

/-- Relayering layers not colder than `m` gives layers not colder than `m`. -/
theorem updateLayers_ge {minTh : List K} {p q : Pixel K} {m : K} (hm : m ≤ T0)
    (hp : ∀ L ∈ p.layers.take p.n, 0 ≤ L.thick ∧ 0 ≤ L.ice ∧ 0 ≤ L.lwc ∧
      (L.ice * cIce + L.lwc * cWater) * (m - T0) ≤ heat L)
    (h : updateLayers minTh p = some q) : ∀ L ∈ q.layers, m ≤ L.temp := by
  have hci := cIce_pos (K := K)
  have hcw := cWater_pos (K := K)
  simp only [updateLayers] at h
  obtain ⟨thl, hthl⟩ : ∃ x, dropThin (newThickness (depth p) minTh) = x := ⟨_, rfl⟩
  obtain ⟨ns, hns⟩ : ∃ x, (thl.countP fun t => decide (0 < t)) = x := ⟨_, rfl⟩
  rw [hthl, hns] at h
  by_cases hd : 0 < depth p
  · rw [if_pos hd] at h
    split at h
    · simp at h
    rename_i a ha
    have hq : q.layers = (List.range minTh.length).map fun k => newLayer ns (fun k => thl.getD k 0) a.cont
        (((p.layers[k]?).map Layer.heatCap).getD 0) k := by
      split_ifs at h <;> (simp only [Option.some.injEq] at h; rw [← h])
    have hths : ∀ k, 0 ≤ thl.getD k 0 := by
      intro k
      have hall : ∀ t ∈ thl, 0 ≤ t := by
        intro t ht
        rw [← hthl] at ht
        obtain ⟨u, -, rfl⟩ := List.mem_map.mp ht
        split_ifs with hu
        · exact le_rfl
        · have : (0 : K) < 1 / 1000000 := by norm_num
          linarith
      by_cases hk : k < thl.length
      · have : thl.getD k 0 = thl[k] := by simp [hk]
        rw [this]; exact hall _ (List.getElem_mem hk)
      · have : thl.getD k 0 = 0 := by simp [hk]
        rw [this]
    have hcone := relayerLoop_cone (K := K) (M := K × K × K)
      (C := fun x => 0 ≤ x.1 ∧ 0 ≤ x.2.1 ∧ (x.1 * cIce + x.2.1 * cWater) * (m - T0) ≤ x.2.2)
      (fun x y hx hy => ⟨add_nonneg hx.1 hy.1, add_nonneg hx.2.1 hy.2.1, by
        have h1 := hx.2.2; have h2 := hy.2.2
        simp only [Prod.fst_add, Prod.snd_add]
        linarith⟩)
      (fun r x hr hx => ⟨mul_nonneg hr hx.1, mul_nonneg hr hx.2.1, by
        have h1 := mul_le_mul_of_nonneg_left hx.2.2 hr
        simp only [Prod.smul_fst, Prod.smul_snd, smul_eq_mul]
        linarith⟩)
      minTh.length ns (ths := fun k => thl.getD k 0) hths _ _ a (by
        intro o ho
        obtain ⟨L, hL, rfl⟩ := List.mem_map.mp ho
        obtain ⟨h1, h2, h3, h4⟩ := hp L hL
        exact ⟨h1, h2, h3, h4⟩) (hths 0) (fun k => ⟨le_rfl, le_rfl, by simp⟩) ha
    intro L hL
    rw [hq] at hL
    obtain ⟨k, -, rfl⟩ := List.mem_map.mp hL
    simp only [newLayer]
    split_ifs with hk
    · obtain ⟨c1, c2, c3⟩ := hcone k
      have hpos : 0 ≤ (a.cont k).1 * cIce + (a.cont k).2.1 * cWater := by positivity
      have : m - T0 ≤ (a.cont k).2.2 / ((a.cont k).1 * cIce + (a.cont k).2.1 * cWater) := by
        rcases hpos.eq_or_lt with h0 | h0
        · rw [← h0, div_zero]; linarith
        · rw [le_div_iff₀ h0]; linarith
      simp only
      linarith
    · exact hm
  · rw [if_neg hd] at h
    simp only [Option.some.injEq] at h
    subst h
    intro L hL
    obtain ⟨k, -, rfl⟩ := List.mem_map.mp hL
    simpa [newLayer] using hm

theorem meltLoop_ge {m : K} (hm : m ≤ T0) : ∀ (Ls : List (Layer K)) (s : MeltAcc K), (∀ L ∈ Ls, m ≤ L.temp) →
    ∀ L ∈ (meltLoop s Ls).2, m ≤ L.temp
  | [], _, _ => by simp [meltLoop]
  | L :: Ls, s, h => by
    intro M hM
    simp only [meltLoop, List.mem_cons] at hM
    rcases hM with rfl | hM
    · have hc := h L (by simp)
      have ht : m ≤ (if L.heatCap * (T0 - L.temp) < 0 then T0 else L.temp) := by
        split_ifs
        · exact hm
        · exact hc
      obtain ⟨ch, hch⟩ : ∃ x, (if L.heatCap * (T0 - L.temp) < 0 then s.change - L.heatCap * (T0 - L.temp) / LF
        else s.change) = x := ⟨_, rfl⟩
      obtain ⟨tv, htv⟩ : ∃ x, (if L.heatCap * (T0 - L.temp) < 0 then T0 else L.temp) = x := ⟨_, rfl⟩
      rw [htv] at ht
      simp only [meltLayer, hch, htv]
      split_ifs <;> exact ht
    · exact meltLoop_ge hm Ls _ (fun L' hL' => h L' (by simp [hL'])) M hM

theorem sublLoop_ge {m : K} : ∀ (Ls : List (Layer K)) (x : K) (r : K × List (Layer K)), sublLoop x Ls = some r →
    (∀ L ∈ Ls, m ≤ L.temp) → ∀ L ∈ r.2, m ≤ L.temp
  | [], x, r, h, _ => by
    simp only [sublLoop, Option.some.injEq] at h
    subst h
    simp
  | L :: Ls, x, r, h, hL => by
    simp only [sublLoop] at h
    cases h1 : sublLayer x L with
    | none => rw [h1] at h; simp at h
    | some y =>
      rw [h1] at h
      simp only [Option.bind_eq_bind, Option.bind_some] at h
      cases h2 : sublLoop y.1 Ls with
      | none => rw [h2] at h; simp at h
      | some z =>
        rw [h2] at h
        simp only [Option.bind_some, Option.pure_def, Option.some.injEq] at h
        subst h
        intro M hM
        simp only [List.mem_cons] at hM
        rcases hM with rfl | hM
        · have h0 := hL L (by simp)
          unfold sublLayer at h1
          split_ifs at h1
          · simp only [Option.some.injEq] at h1; subst h1; exact h0
          · simp only [Option.some.injEq] at h1; subst h1; exact h0
        · exact sublLoop_ge Ls y.1 z h2 (fun L' hL' => hL L' (by simp [hL'])) M hM

theorem runoffLoop_ge {lo : K} : ∀ (Ls : List (Layer K × K)) (s : RunoffAcc K), 0 ≤ s.runoff →
    (∀ x ∈ Ls, 0 ≤ x.2 ∧ 0 ≤ x.1.lwc ∧ 0 ≤ x.1.heatCap ∧ lo ≤ x.1.temp) → ∀ L ∈ (runoffLoop s Ls).2, lo ≤ L.temp
  | [], _, _, _ => by simp [runoffLoop]
  | (L, m) :: Ls, s, hs, h => by
    intro M hM
    simp only [runoffLoop, List.mem_cons] at hM
    obtain ⟨hm0, hl0, hc, ht⟩ := h (L, m) (by simp)
    simp only at hm0 hl0 hc ht
    rcases hM with rfl | hM
    · obtain ⟨l2, hl2⟩ : ∃ x, (if m < L.lwc + s.runoff then m else L.lwc + s.runoff) = x := ⟨_, rfl⟩
      obtain ⟨ro, hro⟩ : ∃ x, (if m < L.lwc + s.runoff then L.lwc + s.runoff - m else 0) = x := ⟨_, rfl⟩
      have hl2' : 0 ≤ l2 := by
        rw [← hl2]; split_ifs
        · exact hm0
        · exact add_nonneg hl0 hs
      simp only [runoffLayer, hl2, hro]
      split_ifs with h0
      · simp only
        have hLF := LF_pos (K := K)
        have : 0 ≤ LF * min l2 (L.heatCap * (T0 - L.temp) / LF) / L.heatCap :=
          div_nonneg (mul_nonneg hLF.le (le_min hl2' (div_nonneg h0.le hLF.le))) hc
        linarith
      · exact ht
    · refine runoffLoop_ge Ls _ ?_ (fun x hx => h x (by simp [hx])) M hM
      simp only [runoffLayer]
      split_ifs with h1 h2 h2 <;> simp only <;> first | linarith | exact le_rfl

/-- Through a time step no layer gets colder than `m`. -/
theorem step_ge {m : K} (hm : m ≤ T0) (c : Cfg K) (hc : CfgOK c) (e : StepIn K) (he : InOK c.lwcMethod e) (p q : Pixel K)
    (f : Fluxes K) (hp : Solid c p) (hair : m ≤ e.airTemp)
    (hge : ∀ L ∈ (beforeMelt c e p).layers.take (beforeMelt c e p).n, m ≤ L.temp) (h : step c e p = some (f, q)) :
    ∀ L ∈ q.layers, m ≤ L.temp := by
  have hci := cIce_pos (K := K)
  have hcw := cWater_pos (K := K)
  have hp1 := beforeMelt_solid hc he hp
  have hslots : 1 ≤ c.minThickness.length := List.length_pos_iff.mpr hc.some_layer
  -- heat capacities before melt
  obtain ⟨p2, hp2⟩ : ∃ x, beforeMelt c e p = x := ⟨_, rfl⟩
  have hcap : ∀ L ∈ p2.layers, L.heatCap = L.ice * cIce + L.lwc * cWater := by
    intro L hL
    rw [← hp2] at hL
    simp only [beforeMelt, conduct, Pixel.setActive, List.mem_append] at hL
    rcases hL with hL | hL
    · obtain ⟨k, hk, rfl⟩ := List.mem_mapIdx.mp hL
      have hmem := List.mem_of_mem_take (List.getElem_mem hk)
      simp only [updateHeatCap] at hmem
      obtain ⟨M, -, hM⟩ := List.mem_map.mp hmem
      simp only [updateHeatCap] at hM ⊢
      rw [← hM]
    · have hmem := List.mem_of_mem_drop hL
      simp only [updateHeatCap] at hmem
      obtain ⟨M, -, rfl⟩ := List.mem_map.mp hmem
      rfl
  simp only [step] at h
  split at h
  · simp at h
  rename_i p4 hp4
  split at h
  · simp at h
  rename_i q0 hq0
  simp only [Option.some.injEq, Prod.mk.injEq] at h
  obtain ⟨-, rfl⟩ := h
  have hp4' : (sublimation c.dt e.surfTemp c.albMax e.airTemp e.freshDensity e.moistureFlux
      (melt e.meltDemand p2).2).2 = some p4 := by rw [← hp2]; exact hp4
  rw [hp2] at hp1 hge
  have h3ok := hp1.ok.melt e.meltDemand he.demand
  -- melt
  have h3 : ∀ L ∈ (melt e.meltDemand p2).2.layers.take p2.n, 0 ≤ L.heatCap ∧ L.temp ≤ T0 ∧ m ≤ L.temp := by
    have hlen : (meltLoop ⟨e.meltDemand, 0⟩ (p2.layers.take p2.n)).2.length = (p2.layers.take p2.n).length :=
      meltLoop_length _ _
    intro L hL
    simp only [melt] at hL
    rw [setActive_take p2 _ hp1.ok.wf.n_le (by rw [hlen]) p2.n le_rfl] at hL
    refine (fun a b => ⟨a.1, a.2, b⟩ : (0 ≤ L.heatCap ∧ L.temp ≤ T0) → m ≤ L.temp → _)
      (meltLoop_cold _ _ ?_ L (List.mem_of_mem_take hL)) (meltLoop_ge hm _ _ hge L (List.mem_of_mem_take hL))
    intro M hM
    rw [hcap M (List.mem_of_mem_take hM)]
    have h1 := hp1.ok.ice_pos hM (hp1.thick M hM)
    have h2 := (hp1.ok.wf.active M hM).2.2
    positivity
  have h3d : ∀ L ∈ (melt e.meltDemand p2).2.layers, 0 ≤ L.heatCap := by
    intro L hL
    have hn3 : p2.n ≤ (melt e.meltDemand p2).2.layers.length := h3ok.wf.n_le
    rw [← List.take_append_drop p2.n (melt e.meltDemand p2).2.layers, List.mem_append] at hL
    rcases hL with hL | hL
    · exact (h3 L hL).1
    · have hlen : (meltLoop ⟨e.meltDemand, 0⟩ (p2.layers.take p2.n)).2.length = p2.n := by
        rw [meltLoop_length, List.length_take, min_eq_left hp1.ok.wf.n_le]
      simp only [melt, Pixel.setActive] at hL
      rw [List.drop_append_of_le_length (by rw [hlen]), List.drop_of_length_le (by rw [hlen]), List.nil_append] at hL
      have hL' := List.mem_of_mem_drop hL
      rw [hcap L hL']
      have h1 := hp1.ok.wf.all L hL'
      have h2 := h1.2.1
      have h3 := h1.2.2
      positivity
  obtain ⟨p3, hp3⟩ : ∃ x, (melt e.meltDemand p2).2 = x := ⟨_, rfl⟩
  have hn3 : p3.n = p2.n := by rw [← hp3]; rfl
  rw [hp3] at hp4' h3ok h3 h3d
  rw [← hn3] at h3
  -- hoar, sublimation
  have hker : ∀ (x : K) (r r' : Pixel K), r.n ≤ r.layers.length → sublKernel x r = some r' →
      (∀ L ∈ r.layers.take r.n, 0 ≤ L.heatCap ∧ L.temp ≤ T0 ∧ m ≤ L.temp) →
      ∀ L ∈ r'.layers.take r'.n, 0 ≤ L.heatCap ∧ L.temp ≤ T0 ∧ m ≤ L.temp := by
    intro x r r' hn hr hcold
    simp only [sublKernel] at hr
    split_ifs at hr
    · cases hl : sublLoop (max x 0) (List.take r.n r.layers) with
      | none => rw [hl] at hr; simp at hr
      | some y =>
        rw [hl] at hr
        simp only [Option.bind_eq_bind, Option.bind_some, Option.pure_def, Option.some.injEq] at hr
        subst hr
        have hlen : y.2.length = (r.layers.take r.n).length := sublLoop_len _ _ _ hl
        intro L hL
        have hL' : L ∈ (r.setActive y.2).layers.take r.n := hL
        rw [setActive_take r _ hn (by rw [hlen]) r.n le_rfl] at hL'
        have hcL := sublLoop_cold _ _ _ hl (fun L hL => ⟨(hcold L hL).1, (hcold L hL).2.1⟩) L (List.mem_of_mem_take hL')
        exact ⟨hcL.1, hcL.2, sublLoop_ge _ _ _ hl (fun L hL => (hcold L hL).2.2) L (List.mem_of_mem_take hL')⟩
    · simp only [Option.pure_def, Option.some.injEq] at hr; subst hr; exact hcold
  have h4 : PackOK c.lwcMethod c.minThickness.length p4 ∧
      ∀ L ∈ p4.layers.take p4.n, 0 ≤ L.heatCap ∧ L.temp ≤ T0 ∧ m ≤ L.temp := by
    simp only [sublimation] at hp4'
    split_ifs at hp4' with hfrost
    · have hok := h3ok.addSnow hslots c.albMax e.airTemp e.freshDensity _ he.density_pos he.density_le hfrost
      refine ⟨hok.sublKernel _ hp4', hker _ _ _ hok.wf.n_le hp4' ?_⟩
      obtain ⟨n, layers, alb⟩ := p3
      cases layers with
      | nil => simp [addSnow]
      | cons L Ls =>
        intro M hM
        by_cases hn : n = 0
        · subst hn
          simp [addSnow, nanToZero, hfrost] at hM
          subst hM
          exact ⟨h3d L (by simp), min_le_right _ _, le_min hair hm⟩
        · obtain ⟨k, rfl⟩ : ∃ k, n = k + 1 := ⟨n - 1, by omega⟩
          simp [addSnow, nanToZero] at hM
          rcases hM with rfl | hM
          · exact h3 L (by simp)
          · exact h3 M (by simp [hM])
    · exact ⟨h3ok.sublKernel _ hp4', hker _ _ _ h3ok.wf.n_le hp4' h3⟩
  -- runoff
  have hr' : 0 ≤ e.rainfall.getD 0 := by
    cases hrr : e.rainfall with
    | none => simp
    | some x => simpa using he.rainfall x hrr
  have h5 := h4.1.runoff c.maxFrac e.rainfall hr' hc.frac_nonneg hc.frac_le
  have h5c : ∀ L ∈ (runoff c.lwcMethod c.maxFrac e.rainfall p4).2.2.layers.take p4.n, m ≤ L.temp := by
    intro L hL
    simp only [runoff] at hL
    rw [setActive_take p4 _ h4.1.wf.n_le (runoff_hlen c.lwcMethod c.maxFrac _ p4) p4.n le_rfl] at hL
    refine runoffLoop_ge _ _ (by simpa [nanToZero] using hr') ?_ L (List.mem_of_mem_take hL)
    intro x hx
    obtain ⟨M, hM, rfl⟩ := List.mem_map.mp hx
    have ha := h4.1.wf.active M hM
    exact ⟨(maxLwc_facts (h4.1.layers M hM) hc.frac_nonneg ha.1 ha.2.1 hc.frac_le).1, ha.2.2, (h4.2 M hM).1,
      (h4.2 M hM).2.2⟩
  obtain ⟨p5, hp5⟩ : ∃ x, (runoff c.lwcMethod c.maxFrac e.rainfall p4).2.2 = x := ⟨_, rfl⟩
  have hn5 : p5.n = p4.n := by rw [← hp5]; rfl
  rw [hp5] at h5 h5c hq0
  refine updateLayers_ge hm ?_ hq0
  intro L hL
  have hL' : L ∈ (p5.layers.take p5.n).map fun L => { L with heatCap := L.ice * cIce + L.lwc * cWater } := by
    rw [List.map_take]; exact hL
  obtain ⟨M, hM, rfl⟩ := List.mem_map.mp hL'
  obtain ⟨a1, a2, a3⟩ := h5.wf.active M hM
  refine ⟨a1, a2, a3, ?_⟩
  have ht := h5c M (by rw [← hn5]; exact hM)
  have hpos : 0 ≤ M.ice * cIce + M.lwc * cWater := by positivity
  exact mul_le_mul_of_nonneg_left (by simp only; linarith) hpos

/-! ## Liquid water of a pack with retention proportional to ice -/

theorem runoffLoop_lwc {f : K} (hf : 0 ≤ f) : ∀ (Ls : List (Layer K × K)) (s : RunoffAcc K), 0 ≤ s.runoff →
    (∀ x ∈ Ls, x.2 = f * x.1.ice ∧ 0 ≤ x.1.ice ∧ 0 ≤ x.1.lwc) → ∀ L ∈ (runoffLoop s Ls).2, L.lwc ≤ f * L.ice
  | [], _, _, _ => by simp [runoffLoop]
  | (L, m) :: Ls, s, hs, h => by
    intro M hM
    simp only [runoffLoop, List.mem_cons] at hM
    obtain ⟨hm0, hi0, hl0⟩ := h (L, m) (by simp)
    simp only at hm0 hi0 hl0
    have hmn : 0 ≤ m := by rw [hm0]; exact mul_nonneg hf hi0
    rcases hM with rfl | hM
    · obtain ⟨l2, hl2⟩ : ∃ x, (if m < L.lwc + s.runoff then m else L.lwc + s.runoff) = x := ⟨_, rfl⟩
      obtain ⟨ro, hro⟩ : ∃ x, (if m < L.lwc + s.runoff then L.lwc + s.runoff - m else 0) = x := ⟨_, rfl⟩
      have hl2' : 0 ≤ l2 ∧ l2 ≤ m := by
        rw [← hl2]; split_ifs with h0
        · exact ⟨hmn, le_rfl⟩
        · exact ⟨add_nonneg hl0 hs, not_lt.mp h0⟩
      simp only [runoffLayer, hl2, hro]
      split_ifs with h0
      · simp only
        have hLF := LF_pos (K := K)
        have hd : 0 ≤ min l2 (L.heatCap * (T0 - L.temp) / LF) := le_min hl2'.1 (div_nonneg h0.le hLF.le)
        have := mul_nonneg hf hd
        rw [mul_add]
        linarith [hl2'.2]
      · simp only; linarith [hl2'.2]
    · refine runoffLoop_lwc hf Ls _ ?_ (fun x hx => h x (by simp [hx])) M hM
      simp only [runoffLayer]
      split_ifs with h1 h2 h2 <;> simp only <;> first | linarith | exact le_rfl

theorem updateLayers_lwc {minTh : List K} {p q : Pixel K} {f : K}
    (hp : ∀ L ∈ p.layers.take p.n, 0 ≤ L.thick ∧ L.lwc ≤ f * L.ice)
    (h : updateLayers minTh p = some q) : ∀ L ∈ q.layers, L.lwc ≤ f * L.ice := by
  simp only [updateLayers] at h
  obtain ⟨thl, hthl⟩ : ∃ x, dropThin (newThickness (depth p) minTh) = x := ⟨_, rfl⟩
  obtain ⟨ns, hns⟩ : ∃ x, (thl.countP fun t => decide (0 < t)) = x := ⟨_, rfl⟩
  rw [hthl, hns] at h
  by_cases hd : 0 < depth p
  · rw [if_pos hd] at h
    split at h
    · simp at h
    rename_i a ha
    have hq : q.layers = (List.range minTh.length).map fun k => newLayer ns (fun k => thl.getD k 0) a.cont
        (((p.layers[k]?).map Layer.heatCap).getD 0) k := by
      split_ifs at h <;> (simp only [Option.some.injEq] at h; rw [← h])
    have hths : ∀ k, 0 ≤ thl.getD k 0 := by
      intro k
      have hall : ∀ t ∈ thl, 0 ≤ t := by
        intro t ht
        rw [← hthl] at ht
        obtain ⟨u, -, rfl⟩ := List.mem_map.mp ht
        split_ifs with hu
        · exact le_rfl
        · have : (0 : K) < 1 / 1000000 := by norm_num
          linarith
      by_cases hk : k < thl.length
      · have : thl.getD k 0 = thl[k] := by simp [hk]
        rw [this]; exact hall _ (List.getElem_mem hk)
      · have : thl.getD k 0 = 0 := by simp [hk]
        rw [this]
    have hcone := relayerLoop_cone (K := K) (M := K × K × K) (C := fun x => x.2.1 ≤ f * x.1)
      (fun x y hx hy => by
        simp only [Prod.fst_add, Prod.snd_add, mul_add]
        linarith)
      (fun r x hr hx => by
        have h1 := mul_le_mul_of_nonneg_left hx hr
        simp only [Prod.smul_fst, Prod.smul_snd, smul_eq_mul]
        linarith)
      minTh.length ns (ths := fun k => thl.getD k 0) hths _ _ a (by
        intro o ho
        obtain ⟨L, hL, rfl⟩ := List.mem_map.mp ho
        exact hp L hL) (hths 0) (fun k => by simp) ha
    intro L hL
    rw [hq] at hL
    obtain ⟨k, -, rfl⟩ := List.mem_map.mp hL
    simp only [newLayer]
    split_ifs with hk
    · exact hcone k
    · exact hcone k
  · rw [if_neg hd] at h
    simp only [Option.some.injEq] at h
    subst h
    intro L hL
    obtain ⟨k, -, rfl⟩ := List.mem_map.mp hL
    simp [newLayer]

/-- With retention by mass fraction no layer holds more liquid water than that fraction of its ice after a step. -/
theorem step_lwc (c : Cfg K) (hc : CfgOK c) (hm : c.lwcMethod = .massFraction) (e : StepIn K) (he : InOK c.lwcMethod e)
    (p q : Pixel K) (f : Fluxes K) (hp : Solid c p) (h : step c e p = some (f, q)) :
    ∀ L ∈ q.layers, L.lwc ≤ c.maxFrac * L.ice := by
  have hp1 := beforeMelt_solid hc he hp
  have hslots : 1 ≤ c.minThickness.length := List.length_pos_iff.mpr hc.some_layer
  obtain ⟨p2, hp2⟩ : ∃ x, beforeMelt c e p = x := ⟨_, rfl⟩
  simp only [step] at h
  split at h
  · simp at h
  rename_i p4 hp4
  split at h
  · simp at h
  rename_i q0 hq0
  simp only [Option.some.injEq, Prod.mk.injEq] at h
  obtain ⟨-, rfl⟩ := h
  have hp4' : (sublimation c.dt e.surfTemp c.albMax e.airTemp e.freshDensity e.moistureFlux
      (melt e.meltDemand p2).2).2 = some p4 := by rw [← hp2]; exact hp4
  rw [hp2] at hp1
  have h3ok := hp1.ok.melt e.meltDemand he.demand
  have h4 : PackOK c.lwcMethod c.minThickness.length p4 := by
    simp only [sublimation] at hp4'
    split_ifs at hp4' with hfrost
    · exact (h3ok.addSnow hslots c.albMax e.airTemp e.freshDensity _ he.density_pos he.density_le hfrost).sublKernel _
        hp4'
    · exact h3ok.sublKernel _ hp4'
  have hr' : 0 ≤ e.rainfall.getD 0 := by
    cases hrr : e.rainfall with
    | none => simp
    | some x => simpa using he.rainfall x hrr
  have h5 := h4.runoff c.maxFrac e.rainfall hr' hc.frac_nonneg hc.frac_le
  have h5c : ∀ L ∈ (runoff c.lwcMethod c.maxFrac e.rainfall p4).2.2.layers.take p4.n, L.lwc ≤ c.maxFrac * L.ice := by
    intro L hL
    simp only [runoff] at hL
    rw [setActive_take p4 _ h4.wf.n_le (runoff_hlen c.lwcMethod c.maxFrac _ p4) p4.n le_rfl] at hL
    refine runoffLoop_lwc hc.frac_nonneg _ _ (by simpa [nanToZero] using hr') ?_ L (List.mem_of_mem_take hL)
    intro x hx
    obtain ⟨M, hM, rfl⟩ := List.mem_map.mp hx
    have ha := h4.wf.active M hM
    exact ⟨by simp only [hm, maxLwc], ha.2.1, ha.2.2⟩
  obtain ⟨p5, hp5⟩ : ∃ x, (runoff c.lwcMethod c.maxFrac e.rainfall p4).2.2 = x := ⟨_, rfl⟩
  have hn5 : p5.n = p4.n := by rw [← hp5]; rfl
  rw [hp5] at h5 h5c hq0
  refine updateLayers_lwc ?_ hq0
  intro L hL
  have hL' : L ∈ (p5.layers.take p5.n).map fun L => { L with heatCap := L.ice * cIce + L.lwc * cWater } := by
    rw [List.map_take]; exact hL
  obtain ⟨M, hM, rfl⟩ := List.mem_map.mp hL'
  exact ⟨(h5.wf.active M hM).1, h5c M (by rw [← hn5]; exact hM)⟩

end Verif.MultiLayer
