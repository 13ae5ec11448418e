import Verif.Lemmas.Subl

/-!
# C14, C19: sublimation and adding snow in the multilayer model
-/

set_option linter.unusedSectionVars false

namespace Verif.MultiLayer

variable {K : Type*} [Field K] [LinearOrder K] [IsStrictOrderedRing K]

/-- **C14** The kernel removes exactly `max subl 0` from the ice, from the top down (the top `k`
layers lose `min subl (their ice)`), and leaves liquid water, temperature and albedo alone. -/
theorem C14_sublimation_kernel (subl : K) (p q : Pixel K) (hp : WF p) (hs : subl ≤ totalIce p)
    (hq : sublKernel subl p = some q) :
    totalIce q = totalIce p - max subl 0 ∧ totalLwc q = totalLwc p ∧ q.n = p.n ∧
    q.albedo = p.albedo ∧ WF q ∧
    (∀ k ≤ p.n, iceAbove p k - iceAbove q k = min (max subl 0) (iceAbove p k)) ∧
    (∀ k L, k < p.n → p.layers[k]? = some L → ∃ L', q.layers[k]? = some L' ∧
      L'.lwc = L.lwc ∧ L'.temp = L.temp ∧ 0 ≤ L'.thick ∧ L'.thick ≤ L.thick ∧
      (0 < L.ice → L'.thick * L.ice = L.thick * L'.ice)) := by
  have hice : ∀ k, 0 ≤ iceAbove p k := fun k =>
    sum_map_nonneg _ _ fun x hx => (hp.all x (List.mem_of_mem_take hx)).2.1
  unfold sublKernel at hq
  by_cases h0 : 0 < max subl 0
  · simp only [h0, if_true, Option.bind_eq_bind, Option.bind_eq_some_iff, Option.pure_def,
      Option.some.injEq] at hq
    obtain ⟨⟨c', Ls'⟩, hl, rfl⟩ := hq
    obtain ⟨a, b, d⟩ := sublLoop_spec _ _ h0.le (fun L hL => (hp.active L hL).2.1) c' Ls' hl
    have hlen : Ls'.length = (p.layers.take p.n).length := a.length_eq.symm
    have hwf : WF (p.setActive Ls') := hp.setActive hlen fun L' hL' => by
      obtain ⟨L, hL, hr⟩ := forall₂_mem_right a L' hL'
      obtain ⟨x, y, z⟩ := hp.active L hL
      exact ⟨hr.thick_nonneg x, hr.ice_nonneg, by rw [hr.lwc_eq]; exact z⟩
    have hcum : ∀ k ≤ p.n, iceAbove p k - iceAbove (p.setActive Ls') k
        = min (max subl 0) (iceAbove p k) := by
      intro k hk
      have := d k (by simp [hp.n_le, hk])
      simp only [iceAbove]
      rw [setActive_take p _ hp.n_le hlen k hk]
      have t2 : (p.layers.take p.n).take k = p.layers.take k := by
        rw [List.take_take, min_eq_left (by omega)]
      rw [t2] at this
      exact this
    have a1 : iceAbove p p.n = totalIce p := hp.sum_active fun L h => h.2.1
    have a2 : iceAbove (p.setActive Ls') p.n = totalIce (p.setActive Ls') :=
      hwf.sum_active fun L h => h.2.1
    refine ⟨?_, ?_, rfl, rfl, hwf, hcum, ?_⟩
    · have := hcum p.n le_rfl
      rw [a1, a2] at this
      rw [min_eq_left (max_le hs (a1 ▸ hice p.n))] at this
      show totalIce (p.setActive Ls') = _
      linarith
    · have : ∀ {l l' : List (Layer K)}, List.Forall₂ SublRel l l' →
          (l'.map Layer.lwc).sum = (l.map Layer.lwc).sum := by
        intro l l' h
        induction h with
        | nil => rfl
        | cons h _ ih => simp [h.lwc_eq, ih]
      simp only [totalLwc, setActive_sum, this a]; ring
    · intro k L hk hL
      have hL2 : (p.layers.take p.n)[k]? = some L := by simpa [List.getElem?_take, hk] using hL
      obtain ⟨L', hL', hr⟩ := forall₂_get a k L hL2
      obtain ⟨x, y, z⟩ := hp.active L (List.mem_of_getElem? hL2)
      exact ⟨L', by rw [setActive_get_lt p _ hp.n_le hlen k hk]; exact hL', hr.lwc_eq, hr.temp_eq,
        hr.thick_nonneg x, hr.thick_le x, hr.thick_prop⟩
  · simp only [h0, if_false, Option.pure_def, Option.some.injEq] at hq
    subst hq
    have hz : max subl 0 = 0 := le_antisymm (not_lt.mp h0) (le_max_right _ _)
    refine ⟨by rw [hz, sub_zero], rfl, rfl, rfl, hp, fun k _ => by rw [hz, min_eq_left (hice k)]; ring,
      fun k L hk hL => ⟨L, hL, rfl, rfl, ?_, le_refl _, fun _ => rfl⟩⟩
    exact (hp.all L (List.mem_of_getElem? hL)).1

/-- **C14** The kernel produces an undefined (NaN) thickness exactly if some sublimation takes place
and there is an ice-free active layer below the depth to which the demand reaches. -/
theorem C14_sublimation_undefined_iff (subl : K) (p : Pixel K) (hp : WF p) :
    sublKernel subl p = none ↔
      0 < subl ∧ ∃ k L, k < p.n ∧ p.layers[k]? = some L ∧ L.ice = 0 ∧ subl ≤ iceAbove p k := by
  unfold sublKernel
  by_cases h0 : 0 < subl
  · have hm : max subl 0 = subl := max_eq_left h0.le
    have hx : (do let r ← sublLoop subl (p.layers.take p.n); pure (p.setActive r.2) :
        Option (Pixel K)) = none ↔ sublLoop subl (p.layers.take p.n) = none := by
      cases sublLoop subl (p.layers.take p.n) <;> simp
    simp only [hm, h0, if_true, true_and]
    rw [hx, sublLoop_none_iff _ subl h0.le (fun L hL => (hp.active L hL).2.1)]
    constructor
    · rintro ⟨k, L, a, b, d⟩
      have hk : k < p.n := by
        have := (List.getElem?_eq_some_iff.mp a).1
        simp at this; exact this.1
      refine ⟨k, L, hk, by simpa [List.getElem?_take, hk] using a, b, ?_⟩
      rwa [List.take_take, min_eq_left hk.le] at d
    · rintro ⟨k, L, hk, a, b, d⟩
      refine ⟨k, L, by simpa [List.getElem?_take, hk] using a, b, ?_⟩
      rwa [List.take_take, min_eq_left hk.le]
  · have hm : max subl 0 = 0 := max_eq_right (not_lt.mp h0)
    simp [hm, h0]

/-- **C14** Consequence: if every active layer holds ice, sublimation is always well defined. -/
theorem C14_sublimation_defined (subl : K) (p : Pixel K) (hp : WF p)
    (hpos : ∀ L ∈ p.layers.take p.n, 0 < L.ice) : ∃ q, sublKernel subl p = some q := by
  cases h : sublKernel subl p with
  | some q => exact ⟨q, rfl⟩
  | none =>
    obtain ⟨-, k, L, hk, hL, h0, -⟩ := (C14_sublimation_undefined_iff subl p hp).mp h
    have : L ∈ p.layers.take p.n :=
      List.mem_of_getElem? (i := k) (by simpa [List.getElem?_take, hk] using hL)
    have := hpos L this
    linarith

/-- **C19** Adding snow to a pixel: ice and depth grow by the added mass and its thickness, liquid
water by the added water, a missing amount adds no ice; a snow-free pixel gets one layer with the
given starting values, any other pixel keeps layer count, temperatures and albedo. -/
theorem C19_add_snow (albMax airTemp density : K) (amount : Option K) (water : K)
    (p : Pixel K) (hp : WF p) (hne : p.layers ≠ []) (hd : 0 < density)
    (ha : ∀ m, amount = some m → 0 ≤ m) (hw : water = 0) :
    let q := addSnow albMax airTemp density amount water p
    totalIce q = totalIce p + amount.getD 0 ∧ totalLwc q = totalLwc p + water ∧
    depth q = depth p + amount.getD 0 / density ∧ WF q ∧
    (p.n ≠ 0 → q.n = p.n ∧ q.albedo = p.albedo ∧
      q.layers.map Layer.temp = p.layers.map Layer.temp) ∧
    (p.n = 0 → 0 < amount.getD 0 → q.n = 1 ∧ q.albedo = some albMax ∧
      ∃ L, q.layers[0]? = some L ∧ L.temp = min airTemp T0) ∧
    (p.n = 0 → amount.getD 0 = 0 → q.n = 0 ∧ q.albedo = p.albedo) ∧
    (∀ k, 1 ≤ k → q.layers[k]? = p.layers[k]?) := by
  obtain ⟨n, layers, alb⟩ := p
  cases layers with
  | nil => exact absurd rfl hne
  | cons L Ls =>
    subst hw
    have hm : 0 ≤ amount.getD 0 := by
      cases amount with
      | none => simp
      | some m => simpa using ha m rfl
    obtain ⟨m, hmdef⟩ : ∃ m, amount.getD 0 = m := ⟨_, rfl⟩
    rw [hmdef] at hm
    simp only [addSnow, nanToZero, hmdef]
    have hL := hp.all L (by simp)
    refine ⟨?_, ?_, ?_, ?_, ?_, ?_, ?_, ?_⟩
    · simp [totalIce]; ring
    · simp [totalLwc]
    · simp [depth]; ring
    · by_cases hn : n = 0
      · subst hn
        have hin := hp.inactive
        simp only [List.drop_zero, List.mem_cons, forall_eq_or_imp] at hin
        obtain ⟨⟨i1, i2, i3⟩, hrest⟩ := hin
        by_cases hpos : 0 < m
        · simp only [hpos, and_self, if_true]
          refine ⟨by simp, ?_, ?_⟩
          · simp only [List.take_succ_cons, List.take_zero, List.mem_singleton, forall_eq]
            exact ⟨by rw [i1]; positivity, by rw [i2]; linarith, by rw [i3]; simp⟩
          · simpa using hrest
        · have hz : m = 0 := le_antisymm (not_lt.mp hpos) hm
          simp only [hz, lt_irrefl, and_false, if_false]
          refine ⟨by simp, by simp, ?_⟩
          simp only [List.drop_zero, List.mem_cons, forall_eq_or_imp]
          exact ⟨by simp [i1, i2, i3], hrest⟩
      · simp only [hn, false_and, if_false]
        obtain ⟨k, rfl⟩ := Nat.exists_eq_succ_of_ne_zero hn
        refine ⟨by simpa using hp.n_le, ?_, ?_⟩
        · intro M hM
          simp only [List.take_succ_cons, List.mem_cons] at hM
          rcases hM with rfl | hM
          · refine ⟨add_nonneg hL.1 (div_nonneg hm hd.le), add_nonneg hL.2.1 hm, ?_⟩
            show 0 ≤ L.lwc + 0
            linarith [hL.2.2]
          · exact hp.active M (by simp [hM])
        · intro M hM
          exact hp.inactive M (by simpa using hM)
    · intro hn
      have hn' : n ≠ 0 := hn
      simp [hn']
    · intro hn hpos
      have hn' : n = 0 := hn
      simp [hn', hpos]
    · intro hn hz
      have hn' : n = 0 := hn
      simp [hn', hz]
    · intro k hk
      obtain ⟨j, rfl⟩ : ∃ j, k = j + 1 := ⟨k - 1, by omega⟩
      simp

/-- **C14** Whole sublimation step: total ice changes by exactly minus the reported value, for
sublimation (positive) as well as resublimation (negative, added as snow); liquid water is
untouched; the reported value never exceeds the ice present; a missing moisture flux does nothing. -/
theorem C14_sublimation_step (dt surfTemp albMax airTemp density : K) (flux : Option K)
    (p q : Pixel K) (hp : WF p) (hne : p.layers ≠ []) (hd : 0 < density)
    (hq : (sublimation dt surfTemp albMax airTemp density flux p).2 = some q) :
    totalIce q = totalIce p - (sublimation dt surfTemp albMax airTemp density flux p).1 ∧
    totalLwc q = totalLwc p ∧ WF q ∧
    (sublimation dt surfTemp albMax airTemp density flux p).1 ≤ totalIce p ∧
    (flux = none → (sublimation dt surfTemp albMax airTemp density flux p).1 = 0) := by
  have hice : 0 ≤ totalIce p := sum_map_nonneg _ _ fun L hL => (hp.all L hL).2.1
  set s := sublAmount dt surfTemp flux p with hs
  have hle : s ≤ totalIce p := by
    rw [hs]; simp only [sublAmount]
    split_ifs
    · exact min_le_right _ _
    · exact hice
  have hnone : flux = none → s = 0 := by
    intro hf
    rw [hs]
    simp only [sublAmount, hf, Option.map_none, nanToZero, Option.getD_none]
    split_ifs
    · exact min_eq_left hice
    · rfl
  simp only [sublimation, ← hs] at hq ⊢
  by_cases hneg : s < 0
  · have hf : 0 < -(min s 0) := by rw [min_eq_left hneg.le]; linarith
    simp only [hf, if_true] at hq
    have hmin : -(min s 0) = -s := by rw [min_eq_left hneg.le]
    obtain ⟨e1, e2, -, hwf, -⟩ := C19_add_snow albMax airTemp density (some (-(min s 0))) 0 p hp hne
      hd (by rintro m h; cases h; exact hf.le) rfl
    have hmax : ¬ 0 < max s 0 := by rw [max_eq_right hneg.le]; exact lt_irrefl _
    simp only [sublKernel, hmax, if_false, Option.pure_def, Option.some.injEq] at hq
    subst hq
    refine ⟨?_, ?_, hwf, hle, hnone⟩
    · rw [e1, Option.getD_some, hmin]; ring
    · rw [e2, add_zero]
  · have hs0 := not_lt.mp hneg
    have hf : ¬ 0 < -(min s 0) := by rw [min_eq_right hs0]; simp
    simp only [hf, if_false] at hq
    obtain ⟨e1, e2, -, -, hwf, -⟩ := C14_sublimation_kernel s p q hp hle hq
    exact ⟨by rw [e1, max_eq_left hs0], e2, hwf, hle, hnone⟩

/-- **C14** The undefined case is reachable for a well-formed pack: an ice-free layer below a layer
that sublimates only partially. -/
theorem C14_undefined_witness : ∃ p : Pixel ℚ, WF p ∧ sublKernel 1 p = none :=
  ⟨{ n := 2, albedo := none, layers := [⟨1/10, 10, 0, 270, 21000⟩, ⟨0, 0, 0, T0, 0⟩] },
    ⟨by decide, by norm_num, by simp⟩, by
      norm_num [sublKernel, sublLoop, sublLayer]⟩

example : ∃ (p q : Pixel ℚ), WF p ∧ (12 : ℚ) ≤ totalIce p ∧ (∀ L ∈ p.layers.take p.n, 0 < L.ice) ∧
    sublKernel 12 p = some q :=
  ⟨{ n := 2, albedo := none, layers := [⟨1/10, 10, 0, 270, 21000⟩, ⟨2/10, 20, 1, 271, 4000⟩] }, _,
    ⟨by decide, by norm_num, by simp⟩, by norm_num [totalIce], by norm_num,
    by norm_num [sublKernel, sublLoop, sublLayer]; rfl⟩

example : ∃ (p : Pixel ℚ), WF p ∧ p.layers ≠ [] ∧ p.n = 0 ∧
    (addSnow (85/100) 270 100 (some 5) 0 p).n = 1 :=
  ⟨{ n := 0, albedo := none, layers := [⟨0, 0, 0, T0, 0⟩, ⟨0, 0, 0, T0, 0⟩] },
    ⟨by decide, by simp, by simp⟩, by simp, rfl, by norm_num [addSnow, nanToZero]⟩

example : ∃ (p q : Pixel ℚ), WF p ∧ p.layers ≠ [] ∧
    (sublimation 3600 270 (85/100) 270 100 (some (-1/3600)) p).2 = some q :=
  ⟨{ n := 1, albedo := some (1/2), layers := [⟨1/10, 10, 0, 270, 21000⟩] }, _,
    ⟨by decide, by norm_num, by simp⟩, by simp,
    by norm_num [sublimation, sublAmount, sublKernel, sublLoop, sublLayer, nanToZero, iceSum]; rfl⟩

end Verif.MultiLayer
