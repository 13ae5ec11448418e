import Verif.Props.Parallel
import Mathlib.Tactic.Ring

/-!
# C136: compaction, heat conduction, soil heat flux and interpolation
-/

set_option linter.unusedSectionVars false

namespace Verif.Parallel

open Verif.MultiLayer

/-! ## Compaction -/

section Compaction

variable {ι : Type*} [DecidableEq ι]

/-- A layer of the arrays with its density. -/
def dlayerAt (m : Cell ι → ℝ) (p : ι) (k : ℕ) : Snow.DLayer :=
  ⟨m (.thick, k, p), m (.ice, k, p), m (.lwc, k, p), m (.temp, k, p), some (m (.density, k, p))⟩

/-- The memory with other thickness and density of layer `k`. -/
def storeD (m : Cell ι → ℝ) (p : ι) (k : ℕ) (th rho : ℝ) : Cell ι → ℝ :=
  Function.update (Function.update m (.density, k, p) rho) (.thick, k, p) th

theorem dlayerAt_storeD (m : Cell ι → ℝ) (p : ι) (k : ℕ) (th rho : ℝ) (k' : ℕ) :
    dlayerAt (storeD m p k th rho) p k' =
      if k' = k then { dlayerAt m p k with thick := th, dens := some rho } else dlayerAt m p k' := by
  by_cases e : k' = k
  · subst e; simp [dlayerAt, storeD, upd]
  · simp [dlayerAt, storeD, upd, e]

theorem solo_andersonLayer (dtH : ℝ) (air : Option ℝ) (p : ι) (k : ℕ) (load : ℝ) (next : ℝ → Prog (Cell ι) ℝ)
    (m : Cell ι → ℝ) (load' : ℝ) (L' : Snow.DLayer)
    (h : Snow.andersonLayer dtH air load (dlayerAt m p k) = some (load', L')) :
    ∃ th rho, solo (andersonLayerProg dtH air p k load next) m = solo (next load') (storeD m p k th rho) ∧
      L' = { dlayerAt m p k with thick := th, dens := some rho } := by
  obtain ⟨L, hL⟩ : ∃ L, dlayerAt m p k = L := ⟨_, rfl⟩
  have e1 : m (.thick, k, p) = L.thick := hL ▸ rfl
  have e2 : m (.ice, k, p) = L.ice := hL ▸ rfl
  have e3 : m (.lwc, k, p) = L.lwc := hL ▸ rfl
  have e5 : some (m (.density, k, p)) = L.dens := hL ▸ rfl
  rw [hL] at h ⊢
  unfold Snow.andersonLayer at h
  by_cases h1 : 0 < L.thick
  · rw [if_pos h1] at h
    simp only at h
    split_ifs at h with h2
    simp only [Option.some.injEq, Prod.mk.injEq] at h
    obtain ⟨rfl, rfl⟩ := h
    refine ⟨_, _, ?_, rfl⟩
    simp only [andersonLayerProg, solo, e1, if_pos h1, upd, e2, e3, reduceCtorEq, and_false, if_false, and_true, if_true]
    refine solo_eq rfl fun arr k' p' => ?_
    by_cases e : (k', p') = (k, p)
    · obtain ⟨rfl, rfl⟩ := Prod.mk.inj e
      cases arr <;> simp [storeD, upd]
    · simp [storeD, upd, e]
  · rw [if_neg h1] at h
    simp only [Option.some.injEq, Prod.mk.injEq] at h
    obtain ⟨rfl, rfl⟩ := h
    refine ⟨L.thick, m (.density, k, p), ?_, by rw [e5]⟩
    simp only [andersonLayerProg, solo, e1, if_neg h1]
    refine solo_eq rfl fun arr k' p' => ?_
    by_cases e : (k', p') = (k, p)
    · obtain ⟨rfl, rfl⟩ := Prod.mk.inj e
      cases arr <;> simp [storeD, upd, e1]
    · simp [storeD, upd, e]

theorem map_dlayerAt_storeD (m : Cell ι → ℝ) (p : ι) (k : ℕ) (th rho : ℝ) (r : ℕ) :
    (List.range' (k + 1) r).map (dlayerAt (storeD m p k th rho) p) = (List.range' (k + 1) r).map (dlayerAt m p) := by
  apply List.map_congr_left
  intro j hj
  rw [dlayerAt_storeD, if_neg]
  rw [List.mem_range'_1] at hj
  omega

theorem solo_anderson (dtH : ℝ) (air : Option ℝ) (p : ι) : ∀ (r k : ℕ) (load : ℝ) (m : Cell ι → ℝ)
    (Ls : List Snow.DLayer), Snow.andersonLoop dtH air load ((List.range' k r).map (dlayerAt m p)) = some Ls →
    (List.range' k r).map (dlayerAt (solo (andersonProg dtH air p r k load) m) p) = Ls ∧
    ∀ j, j < k ∨ k + r ≤ j → dlayerAt (solo (andersonProg dtH air p r k load) m) p j = dlayerAt m p j := by
  intro r
  induction r with
  | zero =>
    intro k load m Ls h
    simp only [List.range'_zero, List.map_nil, Snow.andersonLoop, Option.some.injEq] at h
    subst h
    exact ⟨rfl, fun _ _ => rfl⟩
  | succ r ih =>
    intro k load m Ls h
    simp only [List.range'_succ, List.map_cons, Snow.andersonLoop] at h
    cases h1 : Snow.andersonLayer dtH air load (dlayerAt m p k) with
    | none => rw [h1] at h; simp at h
    | some x =>
      obtain ⟨load', L'⟩ := x
      rw [h1] at h
      simp only at h
      obtain ⟨th, rho, hs, hL'⟩ := solo_andersonLayer dtH air p k load (andersonProg dtH air p r (k + 1)) m load' L' h1
      cases h2 : Snow.andersonLoop dtH air load' ((List.range' (k + 1) r).map (dlayerAt m p)) with
      | none => rw [h2] at h; simp at h
      | some Ls' =>
        rw [h2] at h
        simp only [Option.some.injEq] at h
        subst h
        have := ih (k + 1) load' (storeD m p k th rho) Ls' (by rw [map_dlayerAt_storeD]; exact h2)
        rw [andersonProg, hs]
        refine ⟨?_, fun j hj => ?_⟩
        · rw [List.range'_succ, List.map_cons, this.1, this.2 k (by omega), dlayerAt_storeD, if_pos rfl, hL']
        · rw [this.2 j (by omega), dlayerAt_storeD, if_neg (by omega)]

theorem own_andersonProg (dtH : ℝ) (air : Option ℝ) (p : ι) : ∀ (r k : ℕ) (load : ℝ),
    Own [.thick, .ice, .lwc, .density] [.thick, .density] p (andersonProg dtH air p r k load) := by
  intro r
  induction r with
  | zero => intro k load; rw [andersonProg]; own
  | succ r ih =>
    intro k load
    rw [andersonProg]
    simp only [andersonLayerProg]
    have := ih (k + 1)
    own

/-- **C136** (compaction by Anderson). After every complete interleaving the layers of every pixel of the region of interest
are those of the per-pixel model, wherever that is defined. -/
theorem C136_anderson (dt : ℝ) (n : ι → ℕ) (air : ι → Option ℝ) (roi : List ι) (hn : roi.Nodup) (m : Cell ι → ℝ)
    (sched : List ℕ) (he : Ended (exec sched ⟨m, loop roi (andersonBody dt n air)⟩)) :
    let m' := (exec sched ⟨m, loop roi (andersonBody dt n air)⟩).mem
    (∀ p ∈ roi, (∀ Ls, Snow.anderson dt (air p) ((List.range (n p)).map (dlayerAt m p)) = some Ls →
        (List.range (n p)).map (dlayerAt m' p) = Ls ∧ ∀ k, n p ≤ k → dlayerAt m' p k = dlayerAt m p k)) ∧
    (∀ p, p ∉ roi → ∀ arr k, m' (arr, k, p) = m (arr, k, p)) ∧
    ∀ arr, arr ∉ [Arr.thick, .density] → ∀ k p, m' (arr, k, p) = m (arr, k, p) := by
  obtain ⟨h1, h2⟩ := C136_roi [.thick, .ice, .lwc, .density] [.thick, .density] roi hn (andersonBody dt n air)
    (fun p _ => own_andersonProg _ _ p _ _ _) m sched he
  refine ⟨fun p hp Ls hL => ?_, h2⟩
  have e : ∀ k, dlayerAt (exec sched ⟨m, loop roi (andersonBody dt n air)⟩).mem p k =
      dlayerAt (solo (andersonBody dt n air p) m) p k := fun k => by simp only [dlayerAt, h1 p hp]
  rw [List.range_eq_range'] at hL ⊢
  obtain ⟨h3, h4⟩ := solo_anderson (dt / 3600) (air p) p (n p) 0 0 m Ls hL
  refine ⟨?_, fun k hk => ?_⟩
  · rw [← h3]
    exact List.map_congr_left fun k _ => e k
  · rw [e]; exact h4 k (by omega)

theorem solo_empiricalLayer (c : Snow.EmpiricalCfg) (dt : ℝ) (p : ι) (k : ℕ) (next : Prog (Cell ι) ℝ) (m : Cell ι → ℝ)
    (L' : Snow.DLayer) (h : Snow.empiricalLayer c dt (dlayerAt m p k) = some L') :
    ∃ th rho, solo (empiricalLayerProg c dt p k next) m = solo next (storeD m p k th rho) ∧
      L' = { dlayerAt m p k with thick := th, dens := some rho } := by
  obtain ⟨L, hL⟩ : ∃ L, dlayerAt m p k = L := ⟨_, rfl⟩
  have e1 : m (.thick, k, p) = L.thick := hL ▸ rfl
  have e2 : m (.ice, k, p) = L.ice := hL ▸ rfl
  have e3 : m (.lwc, k, p) = L.lwc := hL ▸ rfl
  have e4 : m (.temp, k, p) = L.temp := hL ▸ rfl
  have e5 : some (m (.density, k, p)) = L.dens := hL ▸ rfl
  rw [hL] at h ⊢
  obtain ⟨mx, hmx⟩ : ∃ mx, (if L.temp < T0 then c.maxCold else c.maxMelting) = mx := ⟨_, rfl⟩
  unfold Snow.empiricalLayer Snow.maxDensity at h
  rw [hmx] at h
  by_cases h1 : 0 < L.thick
  · rw [if_pos h1] at h
    simp only at h
    by_cases h3 : (L.ice + L.lwc) / L.thick < mx
    · rw [if_pos h3] at h
      split_ifs at h with h2
      simp only [Option.some.injEq] at h
      subst h
      refine ⟨_, _, ?_, rfl⟩
      simp only [empiricalLayerProg, solo, e1, if_pos h1, upd, e2, e3, e4, reduceCtorEq, and_false, if_false, and_true,
        if_true, hmx, if_pos h3]
      refine solo_eq rfl fun arr k' p' => ?_
      by_cases e : (k', p') = (k, p)
      · obtain ⟨rfl, rfl⟩ := Prod.mk.inj e
        cases arr <;> simp [storeD, upd]
      · simp [storeD, upd, e]
    · rw [if_neg h3] at h
      simp only [Option.some.injEq] at h
      subst h
      refine ⟨L.thick, _, ?_, rfl⟩
      simp only [empiricalLayerProg, solo, e1, if_pos h1, upd, e2, e3, e4, reduceCtorEq, and_false, if_false, and_true,
        if_true, hmx, if_neg h3]
      refine solo_eq rfl fun arr k' p' => ?_
      by_cases e : (k', p') = (k, p)
      · obtain ⟨rfl, rfl⟩ := Prod.mk.inj e
        cases arr <;> simp [storeD, upd, e1]
      · simp [storeD, upd, e]
  · rw [if_neg h1] at h
    simp only [Option.some.injEq] at h
    subst h
    refine ⟨L.thick, m (.density, k, p), ?_, by rw [e5]⟩
    simp only [empiricalLayerProg, solo, e1, if_neg h1]
    refine solo_eq rfl fun arr k' p' => ?_
    by_cases e : (k', p') = (k, p)
    · obtain ⟨rfl, rfl⟩ := Prod.mk.inj e
      cases arr <;> simp [storeD, upd, e1]
    · simp [storeD, upd, e]

theorem solo_empirical (c : Snow.EmpiricalCfg) (dt : ℝ) (p : ι) : ∀ (r k : ℕ) (m : Cell ι → ℝ),
    (∀ j, k ≤ j → j < k + r → ∀ L', Snow.empiricalLayer c dt (dlayerAt m p j) = some L' →
      (∀ i, k ≤ i → i < k + r → Snow.empiricalLayer c dt (dlayerAt m p i) ≠ none) →
      dlayerAt (solo (empiricalProg c dt p r k) m) p j = L') ∧
    ((∀ i, k ≤ i → i < k + r → Snow.empiricalLayer c dt (dlayerAt m p i) ≠ none) → ∀ j, j < k ∨ k + r ≤ j →
      dlayerAt (solo (empiricalProg c dt p r k) m) p j = dlayerAt m p j) := by
  intro r
  induction r with
  | zero =>
    intro k m
    exact ⟨fun j h1 h2 => by omega, fun _ _ _ => rfl⟩
  | succ r ih =>
    intro k m
    have main : (∀ i, k ≤ i → i < k + (r + 1) → Snow.empiricalLayer c dt (dlayerAt m p i) ≠ none) →
        ∃ L', Snow.empiricalLayer c dt (dlayerAt m p k) = some L' ∧
        dlayerAt (solo (empiricalProg c dt p (r + 1) k) m) p k = L' ∧
        (∀ j, k + 1 ≤ j → j < k + (r + 1) → ∀ L', Snow.empiricalLayer c dt (dlayerAt m p j) = some L' →
          dlayerAt (solo (empiricalProg c dt p (r + 1) k) m) p j = L') ∧
        ∀ j, j < k ∨ k + (r + 1) ≤ j → dlayerAt (solo (empiricalProg c dt p (r + 1) k) m) p j = dlayerAt m p j := by
      intro hd
      obtain ⟨L', hL'⟩ := Option.ne_none_iff_exists'.mp (hd k (le_refl _) (by omega))
      obtain ⟨th, rho, hs, hL⟩ := solo_empiricalLayer c dt p k (empiricalProg c dt p r (k + 1)) m L' hL'
      have hsame : ∀ j, j ≠ k → dlayerAt (storeD m p k th rho) p j = dlayerAt m p j := fun j hj => by
        rw [dlayerAt_storeD, if_neg hj]
      have hd' : ∀ i, k + 1 ≤ i → i < k + 1 + r →
          Snow.empiricalLayer c dt (dlayerAt (storeD m p k th rho) p i) ≠ none := fun i h1 h2 => by
        rw [hsame i (by omega)]; exact hd i (by omega) (by omega)
      obtain ⟨i1, i2⟩ := ih (k + 1) (storeD m p k th rho)
      refine ⟨L', hL', ?_, ?_, ?_⟩
      · rw [empiricalProg, hs, i2 hd' k (by omega), dlayerAt_storeD, if_pos rfl, hL]
      · intro j h1 h2 L'' h3
        rw [empiricalProg, hs]
        exact i1 j h1 (by omega) L'' (by rw [hsame j (by omega)]; exact h3) hd'
      · intro j hj
        rw [empiricalProg, hs, i2 hd' j (by omega), hsame j (by omega)]
    refine ⟨fun j h1 h2 L' h3 hd => ?_, fun hd => (main hd).choose_spec.2.2.2⟩
    obtain ⟨L0, m1, m2, m3, -⟩ := main hd
    by_cases e : j = k
    · subst e
      rw [m2]
      rw [m1] at h3
      exact Option.some.inj h3
    · exact m3 j (by omega) h2 L' h3

theorem own_empiricalProg (c : Snow.EmpiricalCfg) (dt : ℝ) (p : ι) : ∀ (r k : ℕ),
    Own [.thick, .ice, .lwc, .temp, .density] [.thick, .density] p (empiricalProg c dt p r k) := by
  intro r
  induction r with
  | zero => intro k; rw [empiricalProg]; own
  | succ r ih =>
    intro k
    rw [empiricalProg]
    simp only [empiricalLayerProg]
    have := ih (k + 1)
    own

/-- **C136** (empirical compaction). After every complete interleaving every layer of every pixel of the region of interest
is that of the per-pixel model, in pixels in which that is defined for all layers. -/
theorem C136_empirical (c : Snow.EmpiricalCfg) (dt : ℝ) (n : ι → ℕ) (roi : List ι) (hn : roi.Nodup) (m : Cell ι → ℝ)
    (sched : List ℕ) (he : Ended (exec sched ⟨m, loop roi (empiricalBody c dt n)⟩)) :
    let m' := (exec sched ⟨m, loop roi (empiricalBody c dt n)⟩).mem
    (∀ p ∈ roi, (∀ k < n p, Snow.empiricalLayer c dt (dlayerAt m p k) ≠ none) →
      (∀ k < n p, some (dlayerAt m' p k) = Snow.empiricalLayer c dt (dlayerAt m p k)) ∧
      ∀ k, n p ≤ k → dlayerAt m' p k = dlayerAt m p k) ∧
    (∀ p, p ∉ roi → ∀ arr k, m' (arr, k, p) = m (arr, k, p)) ∧
    ∀ arr, arr ∉ [Arr.thick, .density] → ∀ k p, m' (arr, k, p) = m (arr, k, p) := by
  obtain ⟨h1, h2⟩ := C136_roi [.thick, .ice, .lwc, .temp, .density] [.thick, .density] roi hn (empiricalBody c dt n)
    (fun p _ => own_empiricalProg c dt p _ _) m sched he
  refine ⟨fun p hp hd => ?_, h2⟩
  have e : ∀ k, dlayerAt (exec sched ⟨m, loop roi (empiricalBody c dt n)⟩).mem p k =
      dlayerAt (solo (empiricalBody c dt n p) m) p k := fun k => by simp only [dlayerAt, h1 p hp]
  obtain ⟨h3, h4⟩ := solo_empirical c dt p (n p) 0 m
  have hd' : ∀ i, 0 ≤ i → i < 0 + n p → Snow.empiricalLayer c dt (dlayerAt m p i) ≠ none := fun i _ h => hd i (by omega)
  refine ⟨fun k hk => ?_, fun k hk => ?_⟩
  · obtain ⟨L', hL'⟩ := Option.ne_none_iff_exists'.mp (hd k hk)
    rw [hL', e]
    exact congrArg some (h3 k (by omega) (by omega) L' hL' hd')
  · rw [e]; exact h4 hd' k (by omega)

/-! ## Soil properties -/

/-- The memory with the four results of `_soil_properties` in layer `k`. -/
def storeS (m : Cell ι → ℝ) (p : ι) (k : ℕ) (fu ff cap cond : ℝ) : Cell ι → ℝ :=
  Function.update (Function.update (Function.update (Function.update m (.fracUnfrozen, k, p) fu) (.fracFrozen, k, p) ff)
    (.soilCap, k, p) cap) (.soilCond, k, p) cond

/-- The results of the per-layer model: the fractions are left alone in dry soil. -/
noncomputable def soilNew (q : Soil.Params) (m : Cell ι → ℝ) (p : ι) (k : ℕ) : Cell ι → ℝ :=
  storeS m p k
    (if 0 < m (.soilMoist, k, p) then Soil.fracUnfrozen q (m (.soilMoist, k, p)) (m (.soilTemp, k, p))
      else m (.fracUnfrozen, k, p))
    (if 0 < m (.soilMoist, k, p) then Soil.fracFrozen q (m (.soilMoist, k, p)) (m (.soilTemp, k, p))
      else m (.fracFrozen, k, p))
    (Soil.heatCap q (m (.soilMoist, k, p)) (m (.soilTemp, k, p)) (m (.soilThick, k, p)))
    (Soil.cond q (m (.soilMoist, k, p)) (m (.soilTemp, k, p)))

theorem solo_soilLayer (q : Soil.Params) (p : ι) (k : ℕ) (next : Prog (Cell ι) ℝ) (m : Cell ι → ℝ) :
    solo (soilLayerProg q p k next) m = solo next (soilNew q m p k) := by
  obtain ⟨θ, hθ⟩ : ∃ θ, m (.soilMoist, k, p) = θ := ⟨_, rfl⟩
  obtain ⟨t, ht⟩ : ∃ t, m (.soilTemp, k, p) = t := ⟨_, rfl⟩
  obtain ⟨th, hth⟩ : ∃ th, m (.soilThick, k, p) = th := ⟨_, rfl⟩
  simp only [soilLayerProg, solo, soilNew, hθ, ht, hth]
  by_cases h : 0 < θ
  · simp only [if_pos h, solo, upd, reduceCtorEq, and_false, if_false, and_true, if_true, hθ, ht, hth, true_and]
    refine solo_eq rfl fun arr k' p' => ?_
    by_cases e : (k', p') = (k, p)
    · obtain ⟨rfl, rfl⟩ := Prod.mk.inj e
      cases arr <;> simp [storeS, upd, Soil.fracUnfrozen, Soil.fracFrozen, Soil.heatCap, Soil.volHeatCap, Soil.cond,
        Soil.condSat, Soil.liquidSat, h]
    · simp [storeS, upd, e]
  · simp only [if_neg h, solo, upd, reduceCtorEq, and_false, if_false, hth]
    refine solo_eq rfl fun arr k' p' => ?_
    by_cases e : (k', p') = (k, p)
    · obtain ⟨rfl, rfl⟩ := Prod.mk.inj e
      cases arr <;> simp [storeS, upd, Soil.heatCap, Soil.volHeatCap, Soil.cond, h]
    · simp [storeS, upd, e]

theorem soilNew_other (q : Soil.Params) (m : Cell ι → ℝ) (p : ι) (k j : ℕ) (h : j ≠ k) (arr : Arr) :
    soilNew q m p k (arr, j, p) = m (arr, j, p) := by
  simp [soilNew, storeS, upd, h]

theorem solo_soil (q : Soil.Params) (p : ι) : ∀ (r k : ℕ) (m : Cell ι → ℝ) (arr : Arr) (j : ℕ),
    solo (soilProg q p r k) m (arr, j, p) =
      if k ≤ j ∧ j < k + r then soilNew q m p j (arr, j, p) else m (arr, j, p) := by
  intro r
  induction r with
  | zero => intro k m arr j; rw [if_neg (by omega)]; rfl
  | succ r ih =>
    intro k m arr j
    rw [soilProg, solo_soilLayer, ih]
    by_cases e : j = k
    · subst e
      rw [if_neg (by omega), if_pos (by omega)]
    · rw [soilNew_other q m p k j e]
      by_cases h : k + 1 ≤ j ∧ j < k + 1 + r
      · rw [if_pos h, if_pos (by omega)]
        have hsame : ∀ a, soilNew q m p k (a, j, p) = m (a, j, p) := soilNew_other q m p k j e
        obtain ⟨m1, hm1⟩ : ∃ m1, soilNew q m p k = m1 := ⟨_, rfl⟩
        rw [hm1] at hsame ⊢
        simp only [soilNew, storeS, upd, hsame]
      · rw [if_neg h, if_neg (by omega)]

theorem own_soilProg (q : Soil.Params) (p : ι) : ∀ (r k : ℕ),
    Own [.soilMoist, .soilTemp, .soilThick, .fracUnfrozen, .fracFrozen] [.fracUnfrozen, .fracFrozen, .soilCap, .soilCond] p
      (soilProg q p r k) := by
  intro r
  induction r with
  | zero => intro k; exact own_done
  | succ r ih =>
    intro k
    rw [soilProg]
    simp only [soilLayerProg]
    have := ih (k + 1)
    own

/-- **C136** (soil properties). After every complete interleaving of `_soil_properties` every layer of every pixel of the
region of interest has the frozen and unfrozen fractions (unless the soil is dry), the heat capacity and the conductivity of
the per-layer model. -/
theorem C136_soil (slots : ℕ) (q : ι → Soil.Params) (roi : List ι) (hn : roi.Nodup) (m : Cell ι → ℝ) (sched : List ℕ)
    (he : Ended (exec sched ⟨m, loop roi (soilBody slots q)⟩)) :
    let m' := (exec sched ⟨m, loop roi (soilBody slots q)⟩).mem
    (∀ p ∈ roi, ∀ k < slots,
      m' (.soilCap, k, p) = Soil.heatCap (q p) (m (.soilMoist, k, p)) (m (.soilTemp, k, p)) (m (.soilThick, k, p)) ∧
      m' (.soilCond, k, p) = Soil.cond (q p) (m (.soilMoist, k, p)) (m (.soilTemp, k, p)) ∧
      (0 < m (.soilMoist, k, p) →
        m' (.fracUnfrozen, k, p) = Soil.fracUnfrozen (q p) (m (.soilMoist, k, p)) (m (.soilTemp, k, p)) ∧
        m' (.fracFrozen, k, p) = Soil.fracFrozen (q p) (m (.soilMoist, k, p)) (m (.soilTemp, k, p)))) ∧
    (∀ p, p ∉ roi → ∀ arr k, m' (arr, k, p) = m (arr, k, p)) ∧
    ∀ arr, arr ∉ [Arr.fracUnfrozen, .fracFrozen, .soilCap, .soilCond] → ∀ k p, m' (arr, k, p) = m (arr, k, p) := by
  obtain ⟨h1, h2⟩ := C136_roi [.soilMoist, .soilTemp, .soilThick, .fracUnfrozen, .fracFrozen]
    [.fracUnfrozen, .fracFrozen, .soilCap, .soilCond] roi hn (soilBody slots q) (fun p _ => own_soilProg _ p _ _) m sched he
  refine ⟨fun p hp k hk => ?_, h2⟩
  simp only [h1 p hp, soilBody, solo_soil, zero_le, zero_add, hk, and_self, if_true]
  refine ⟨?_, ?_, fun h => ⟨?_, ?_⟩⟩
  · simp [soilNew, storeS, upd]
  · simp [soilNew, storeS, upd]
  · simp [soilNew, storeS, upd, h]
  · simp [soilNew, storeS, upd, h]

end Compaction

/-! ## Soil heat flux -/

section Multilayer

variable {ι K : Type*} [DecidableEq ι] [Field K] [LinearOrder K]

/-- **C136** (soil heat flux). After every complete interleaving of `_soil_heat_flux` every pixel of the region of interest
has the flux of the per-pixel model. -/
theorem C136_soil_flux (n : ι → ℕ) (roi : List ι) (hn : roi.Nodup) (m : Cell ι → K) (sched : List ℕ)
    (he : Ended (exec sched ⟨m, loop roi (soilFluxBody n)⟩)) :
    let m' := (exec sched ⟨m, loop roi (soilFluxBody n)⟩).mem
    (∀ p ∈ roi, m' (.soilFlux, 0, p) = Soil.heatFlux (m (.flux, 0, p))
      ((List.range (n p)).map fun k => ⟨m (.thick, k, p), m (.temp, k, p), m (.snowCond, k, p)⟩)
      ⟨m (.soilThick, 0, p), m (.soilTemp, 0, p), m (.soilCond, 0, p)⟩) ∧
    (∀ p, p ∉ roi → ∀ arr k, m' (arr, k, p) = m (arr, k, p)) ∧
    ∀ arr, arr ∉ [Arr.soilFlux] → ∀ k p, m' (arr, k, p) = m (arr, k, p) := by
  obtain ⟨h1, h2⟩ := C136_roi [.flux, .thick, .snowCond, .soilThick, .soilCond, .temp, .soilTemp] [.soilFlux] roi hn
    (soilFluxBody (K := K) n) (fun p _ => by unfold soilFluxBody; own) m sched he
  refine ⟨fun p hp => ?_, h2⟩
  rw [h1 p hp]
  unfold soilFluxBody Soil.heatFlux
  cases hnp : n p with
  | zero => simp [solo]
  | succ r => simp [solo, List.range_succ]

/-! ## Heat conduction -/

theorem solo_readAll {A V : Type*} [DecidableEq A] : ∀ (as : List A) (f : List V → Prog A V) (m : A → V),
    solo (readAll as f) m = solo (f (as.map m)) m := by
  intro as
  induction as with
  | nil => intro f m; rfl
  | cons a as ih => intro f m; rw [readAll, solo, ih]; rfl

theorem solo_addTemp (p : ι) : ∀ (xs : List K) (k : ℕ) (m : Cell ι → K),
    solo (addTemp p k xs) m =
      storeFrom m p k (xs.mapIdx fun i x => { layerAt m p (k + i) with temp := (layerAt m p (k + i)).temp + x }) := by
  intro xs
  induction xs with
  | nil => intro k m; rfl
  | cons x xs ih =>
    intro k m
    rw [addTemp, solo, solo, ih, List.mapIdx_cons, storeFrom]
    have e : Function.update m (.temp, k, p) (m (.temp, k, p) + x) =
        store m p k { layerAt m p (k + 0) with temp := (layerAt m p (k + 0)).temp + x } := by
      funext ⟨arr, k', p'⟩
      by_cases e : (k', p') = (k, p)
      · obtain ⟨rfl, rfl⟩ := Prod.mk.inj e
        cases arr <;> simp [store, upd, layerAt]
      · simp [store, upd, e]
    rw [e]
    congr 1
    apply List.ext_getElem
    · simp
    · intro i h1 h2
      simp only [List.getElem_mapIdx]
      rw [layerAt_store, if_neg (by omega), show k + 1 + i = k + (i + 1) by omega]

theorem own_addTemp (p : ι) {rs ws : List Arr} (h1 : Arr.temp ∈ rs) (h2 : Arr.temp ∈ ws) : ∀ (xs : List K) (k : ℕ),
    Own rs ws p (addTemp p k xs) := by
  intro xs
  induction xs with
  | nil => intro k; exact own_done
  | cons x xs ih => intro k; exact own_read h1 fun _ => own_write h2 (ih _)

theorem own_readAll {V : Type*} (p : ι) {rs ws : List Arr} (arr : Arr) (h : arr ∈ rs) : ∀ (l : List ℕ)
    (f : List V → Prog (Cell ι) V), (∀ vs, Own rs ws p (f vs)) → Own rs ws p (readAll (l.map fun k => (arr, k, p)) f) := by
  intro l
  induction l with
  | nil => intro f hf; exact hf []
  | cons k l ih => intro f hf; exact own_read h fun v => ih _ fun vs => hf _

/-- Only the active layers enter the linear system. -/
theorem tempChange_congr {c c' : Heat.Column K} (hN : c.N = c'.N)
    (h : ∀ k < c.N, c.dx k = c'.dx k ∧ c.T k = c'.T k ∧ c.lam k = c'.lam k ∧ c.hc k = c'.hc k)
    (hdt : c.dt = c'.dt) (hTb : c.Tbottom = c'.Tbottom) (hdb : c.dxBottom = c'.dxBottom) (hlb : c.lamBottom = c'.lamBottom)
    (hf : c.flux = c'.flux) (h0 : 0 < c.N) : Heat.tempChange c = Heat.tempChange c' := by
  have hb : ∀ k < c.N, Heat.between c k = Heat.between c' k := by
    intro k hk
    unfold Heat.between
    rw [← hN, (h k hk).1, (h k hk).2.2.1, hdb, hlb]
    split_ifs with hk1
    · rw [(h (k + 1) hk1).1, (h (k + 1) hk1).2.2.1]
    · rfl
  unfold Heat.tempChange
  rw [← hN]
  split_ifs with h1 h2 h3 h3
  · rfl
  · rw [(h 0 h0).2.2.2, hb 0 h0, hdt] at h2; exact absurd h2 h3
  · rw [← (h 0 h0).2.2.2, ← hb 0 h0, ← hdt] at h3; exact absurd h3 h2
  · rw [(h 0 h0).2.2.2, hb 0 h0, hdt, hf, hTb, (h 0 h0).2.1]
  · congr 1
    apply List.map_congr_left
    intro k hk
    rw [List.mem_range] at hk
    unfold Heat.row
    rw [← hN]
    split_ifs with k0 k1
    · subst k0
      rw [(h 0 hk).2.2.2, hb 0 hk, hdt, hf, (h 0 hk).2.1, (h 1 (by omega)).2.1]
    · rw [(h k hk).2.2.2, hb k hk, hb (k - 1) (by omega), hdt, (h k hk).2.1, (h (k - 1) (by omega)).2.1, (h (k + 1) k1).2.1]
    · rw [(h k hk).2.2.2, hb k hk, hb (k - 1) (by omega), hdt, (h k hk).2.1, (h (k - 1) (by omega)).2.1, hTb]

theorem fwd_length : ∀ (rs : List (Tridiag.Row K)) (r : Tridiag.Row K) (rs' : List (Tridiag.Row K)),
    Tridiag.fwd r rs = some rs' → rs'.length = rs.length := by
  intro rs
  induction rs with
  | nil => intro r rs' h; simp only [Tridiag.fwd, Option.some.injEq] at h; subst h; rfl
  | cons a rs ih =>
    intro r rs' h
    rw [Tridiag.fwd] at h
    split at h
    · simp at h
    · split at h
      · simp at h
      · rename_i h1
        simp only [Option.some.injEq] at h
        subst h
        simp [ih _ _ h1]

theorem back_length : ∀ (rs : List (Tridiag.Row K)) (x : List K), Tridiag.back rs = some x → x.length = rs.length := by
  intro rs
  induction rs with
  | nil => intro x h; simp only [Tridiag.back, Option.some.injEq] at h; subst h; rfl
  | cons a rs ih =>
    intro x h
    rw [Tridiag.back] at h
    split at h
    · simp at h
    · simp at h
      grind

theorem tempChange_length {c : Heat.Column K} {x : List K} (h : Heat.tempChange c = some x) : x.length = c.N := by
  unfold Heat.tempChange at h
  split_ifs at h with h1 h2
  · simp only [Option.some.injEq] at h
    subst h
    simp [h1]
  · cases hN : c.N with
    | zero => rw [hN] at h; simp [Tridiag.solve] at h
    | succ r =>
      rw [hN, List.range_succ_eq_map, List.map_cons, Tridiag.solve] at h
      split at h
      · simp at h
      · rename_i h2
        rw [back_length _ _ h, List.length_cons, fwd_length _ _ _ h2]
        simp

/-- **C136** (heat conduction). After every complete interleaving of `_heat_conduction` the layers of every pixel of the region
of interest are those of the per-pixel model, wherever that is defined. -/
theorem C136_heat (slots : ℕ) (hs : 0 < slots) (dt : K) (n : ι → ℕ) (albedo : ι → Option K) (soilTemp : ι → K) (roi : List ι)
    (hn : roi.Nodup) (hle : ∀ p ∈ roi, n p ≤ slots) (m : Cell ι → K) (sched : List ℕ)
    (he : Ended (exec sched ⟨m, loop roi (heatBody slots dt n)⟩)) :
    let m' := (exec sched ⟨m, loop roi (heatBody slots dt n)⟩).mem
    (∀ p ∈ roi, ∀ q, Heat.snowHeatConduction
        ⟨dt, fun k => m (.snowCond, k, p), m (.soilThick, 0, p), m (.soilCond, 0, p), soilTemp p, m (.flux, 0, p)⟩
        (pixelAt slots n albedo m p) = some q → pixelAt slots n albedo m' p = q) ∧
    (∀ p, p ∉ roi → ∀ arr k, m' (arr, k, p) = m (arr, k, p)) ∧
    ∀ arr, arr ∉ [Arr.temp] → ∀ k p, m' (arr, k, p) = m (arr, k, p) := by
  have hown : ∀ p ∈ roi, Own [.thick, .temp, .snowCond, .soilThick, .soilCond, .flux, .heatCap] [.temp] p
      (heatBody slots dt n p) := by
    intro p _
    unfold heatBody
    split_ifs
    · refine own_readAll p _ (by simp) _ _ fun _ => own_readAll p _ (by simp) _ _ fun _ => own_readAll p _ (by simp) _ _ fun _ =>
        own_read (by simp) fun _ => own_read (by simp) fun _ => own_read (by simp) fun _ => own_read (by simp) fun _ =>
        own_readAll p _ (by simp) _ _ fun _ => ?_
      split
      · exact own_done
      · exact own_addTemp p (by simp) (by simp) _ _
    · exact own_done
  obtain ⟨h1, h2⟩ := C136_roi _ _ roi hn (heatBody slots dt n) hown m sched he
  refine ⟨fun p hp q hq => ?_, h2⟩
  have e : ∀ k, layerAt (exec sched ⟨m, loop roi (heatBody slots dt n)⟩).mem p k =
      layerAt (solo (heatBody slots dt n p) m) p k := fun k => by simp only [layerAt, h1 p hp]
  have e' : pixelAt slots n albedo (exec sched ⟨m, loop roi (heatBody slots dt n)⟩).mem p =
      pixelAt slots n albedo (solo (heatBody slots dt n p) m) p := by
    simp only [pixelAt]; rw [List.map_congr_left fun k _ => e k]
  unfold Heat.snowHeatConduction at hq
  rw [show (pixelAt slots n albedo m p).n = n p from rfl] at hq
  by_cases h0 : 0 < n p
  · rw [if_pos h0] at hq
    cases hx : Heat.tempChange (Heat.snowColumn ⟨dt, fun k => m (.snowCond, k, p), m (.soilThick, 0, p), m (.soilCond, 0, p),
        soilTemp p, m (.flux, 0, p)⟩ (pixelAt slots n albedo m p)) with
    | none => rw [hx] at hq; simp at hq
    | some x =>
      rw [hx] at hq
      simp only [Option.some.injEq] at hq
      have hxl : x.length = n p := tempChange_length hx
      have hsolo : solo (heatBody slots dt n p) m = solo (addTemp p 0 x) m := by
        unfold heatBody
        rw [if_pos h0]
        simp only [solo_readAll, solo]
        rw [← tempChange_congr (c := Heat.snowColumn ⟨dt, fun k => m (.snowCond, k, p), m (.soilThick, 0, p),
          m (.soilCond, 0, p), soilTemp p, m (.flux, 0, p)⟩ (pixelAt slots n albedo m p)), hx]
        · rfl
        · intro k hk
          have hk' : k < n p := hk
          have := hle p hp
          have hk2 : k < slots := by omega
          simp [Heat.snowColumn, pixelAt, slice, layerAt, hk', hk2, List.getD_eq_getElem?_getD]
        · rfl
        · obtain ⟨r, rfl⟩ : ∃ r, slots = r + 1 := ⟨slots - 1, by omega⟩
          simp [Heat.snowColumn, pixelAt, List.range_succ, layerAt]
        · rfl
        · rfl
        · rfl
        · exact h0
      rw [e', hsolo, solo_addTemp, ← hq]
      rw [show (List.take (n p) (pixelAt slots n albedo m p).layers) = _ from take_pixelAt slots n albedo m p (hle p hp)]
      refine setActive_pixelAt slots n albedo m _ p _ (hle p hp) (by simp) fun k => ?_
      congr 2
      apply List.ext_getElem
      · simp [hxl]
      · intro i i1 i2
        have : i < x.length := by simpa using i1
        simp [this, List.getD_eq_getElem?_getD]
  · rw [if_neg h0] at hq
    simp only [Option.some.injEq] at hq
    subst hq
    rw [e']
    unfold heatBody
    rw [if_neg h0]
    rfl

end Multilayer

/-! ## Inverse distance weighting -/

theorem within_idwProg (power smoothing : ℝ) (t : ℕ) (x y : ℝ) : ∀ (r k : ℕ) (w total : ℝ),
    Within (fun a : Cell Unit => a.1 ≠ .data) (fun a => a = (.data, t, ())) (idwProg power smoothing t x y r k w total) := by
  intro r
  induction r with
  | zero => intro k w total; rw [idwProg]; exact ⟨rfl, trivial⟩
  | succ r ih =>
    intro k w total
    rw [idwProg]
    refine ⟨by simp, fun xp => ⟨by simp, fun yp => ?_⟩⟩
    simp only
    split_ifs
    · exact ⟨by simp, fun z => ⟨rfl, trivial⟩⟩
    · exact ⟨by simp, fun z => ih _ _ _⟩

theorem solo_idw (power smoothing : ℝ) (t : ℕ) (x y : ℝ) (m : Cell Unit → ℝ) : ∀ (r k : ℕ) (w total : ℝ),
    solo (idwProg power smoothing t x y r k w total) m (.data, t, ()) =
      Idw.loop power smoothing x y
        ((List.range' k r).map fun k => ⟨m (.xPoint, k, ()), m (.yPoint, k, ()), m (.zPoint, k, ())⟩) w total := by
  intro r
  induction r with
  | zero => intro k w total; simp [idwProg, solo, Idw.loop]
  | succ r ih =>
    intro k w total
    rw [idwProg, List.range'_succ, List.map_cons, Idw.loop]
    have e : Idw.dist smoothing ⟨m (.xPoint, k, ()), m (.yPoint, k, ()), 0⟩ x y =
      Idw.dist smoothing ⟨m (.xPoint, k, ()), m (.yPoint, k, ()), m (.zPoint, k, ())⟩ x y := rfl
    simp only [solo, e]
    split_ifs with h
    · simp [solo]
    · rw [solo, ih]

/-- **C136** (interpolation). After every complete interleaving of the loop over the targets of `_idw` every target has the
value of the model, for any number of stations; nothing but the result is written. -/
theorem C136_idw (power smoothing : ℝ) (points targets : ℕ) (m : Cell Unit → ℝ) (sched : List ℕ)
    (he : Ended (exec sched ⟨m, loop (List.range targets) (idwBody power smoothing points)⟩)) :
    let m' := (exec sched ⟨m, loop (List.range targets) (idwBody power smoothing points)⟩).mem
    (∀ t < targets, m' (.data, t, ()) = Idw.loop power smoothing (m (.xTarget, t, ())) (m (.yTarget, t, ()))
      ((List.range points).map fun k => ⟨m (.xPoint, k, ()), m (.yPoint, k, ()), m (.zPoint, k, ())⟩) 0 0) ∧
    ∀ a : Cell Unit, (∀ t < targets, a ≠ (.data, t, ())) → m' a = m a := by
  have hl : ∀ i, loop (List.range targets) (idwBody power smoothing points) i =
      if i < targets then idwBody power smoothing points i else .done := by
    intro i
    unfold loop
    by_cases h : i < targets
    · simp [h]
    · simp [h]
  obtain ⟨h1, h2⟩ := C136_interleaving (R := fun _ a => a.1 ≠ .data) (W := fun i a => i < targets ∧ a = (Arr.data, i, ()))
    (fun i j a hij ⟨_, ha⟩ => by
      subst ha
      refine ⟨by simp, ?_⟩
      rintro ⟨-, h⟩
      simp only [Prod.mk.injEq, and_true, true_and] at h
      exact hij h) sched ⟨m, loop (List.range targets) (idwBody power smoothing points)⟩
    (fun i => by
      simp only [hl]
      split_ifs with h
      · simp only [h, true_and]
        exact ⟨by simp, fun x => ⟨by simp, fun y => within_idwProg _ _ _ _ _ _ _ _ _⟩⟩
      · trivial) he
  refine ⟨fun t ht => ?_, fun a ha => h2 a fun i hi => ha i hi.1 hi.2⟩
  rw [h1 t _ ⟨ht, rfl⟩]
  simp only [hl, if_pos ht, idwBody, solo]
  rw [solo_idw, List.range_eq_range']

/-! ## Examples -/

example : ∃ sched, Ended (exec ([0, 1, 1, 0, 1] ++ sched) ⟨sampleMem, loop [3, 5] (soilFluxBody fun _ => 2)⟩) ∧
    ∀ p ∈ [3, 5], (exec ([0, 1, 1, 0, 1] ++ sched)
      ⟨sampleMem, loop [3, 5] (soilFluxBody fun _ => 2)⟩).mem (.soilFlux, 0, p) = -8 / 3 := by
  obtain ⟨sched, h⟩ := C136_completes [3, 5] (soilFluxBody (K := ℚ) fun _ => 2) sampleMem [0, 1, 1, 0, 1]
  refine ⟨sched, h, fun p hp => ?_⟩
  rw [(C136_soil_flux (fun _ => 2) [3, 5] (by decide) sampleMem _ h).1 p hp]
  norm_num [Soil.heatFlux, sampleMem, List.range_succ]

/-- With one layer and a time step of one hour. -/
example : ∃ sched, Ended (exec ([0, 1, 1, 0, 1] ++ sched) ⟨sampleMem, loop [3, 5] (heatBody 3 3600 fun _ => 1)⟩) ∧
    ∀ p ∈ [3, 5], (exec ([0, 1, 1, 0, 1] ++ sched)
      ⟨sampleMem, loop [3, 5] (heatBody 3 3600 fun _ => 1)⟩).mem (.temp, 0, p) = 270 + 10 / 13 := by
  obtain ⟨sched, h⟩ := C136_completes [3, 5] (heatBody (K := ℚ) 3 3600 fun _ => 1) sampleMem [0, 1, 1, 0, 1]
  refine ⟨sched, h, fun p hp => ?_⟩
  have := (C136_heat 3 (by decide) 3600 (fun _ => 1) (fun _ => none) (fun _ => 272) [3, 5] (by decide) (by decide) sampleMem
    _ h).1 p hp ⟨1, [⟨1 / 10, 20, 0, 270 + 10 / 13, 42000⟩, ⟨1 / 10, 20, 0, 270, 42000⟩, ⟨0, 0, 0, 270, 0⟩], none⟩ (by
    norm_num [Heat.snowHeatConduction, Heat.snowColumn, Heat.tempChange, Heat.between, pixelAt, layerAt, sampleMem,
      List.range_succ, Pixel.setActive])
  have := congrArg (fun x => x.layers.map Layer.temp) this
  simp [pixelAt, layerAt, List.range_succ] at this
  exact this.1

/-- Two layers of 10 cm with 20 kg m-2 of ice, without air temperature: the densities become 200 kg m-3. -/
example : ∃ (m : Cell ℕ → ℝ) (sched : List ℕ),
    Ended (exec ([0, 1, 1, 0, 1] ++ sched) ⟨m, loop [3, 5] (andersonBody 3600 (fun _ => 2) fun _ => none)⟩) ∧
    ∀ p ∈ [3, 5], (exec ([0, 1, 1, 0, 1] ++ sched)
      ⟨m, loop [3, 5] (andersonBody 3600 (fun _ => 2) fun _ => none)⟩).mem (.density, 1, p) = 200 := by
  refine ⟨fun a => match a.1 with | .thick => 1 / 10 | .ice => 20 | .temp => 270 | _ => 0, ?_⟩
  obtain ⟨sched, h⟩ := C136_completes [3, 5] (andersonBody 3600 (fun _ => 2) fun _ => none)
    (fun a => match a.1 with | .thick => 1 / 10 | .ice => 20 | .temp => 270 | _ => 0) [0, 1, 1, 0, 1]
  refine ⟨sched, h, fun p hp => ?_⟩
  have := ((C136_anderson 3600 (fun _ => 2) (fun _ => none) [3, 5] (by decide) _ _ h).1 p hp
    [⟨1 / 10, 20, 0, 270, some 200⟩, ⟨1 / 10, 20, 0, 270, some 200⟩] (by
      norm_num [Snow.anderson, Snow.andersonLoop, Snow.andersonLayer, Snow.andersonRate, dlayerAt, List.range_succ])).1
  have := congrArg (fun x => x.map Snow.DLayer.dens) this
  simp [dlayerAt, List.range_succ] at this
  simpa using this.2

example (m : Cell ℕ → ℝ) (p : ℕ) (h1 : m (.thick, 0, p) = 1 / 10) (h2 : m (.ice, 0, p) = 20) (h3 : m (.lwc, 0, p) = 0)
    (h4 : m (.temp, 0, p) = 270) : Snow.empiricalLayer ⟨200 * 3600, 300, 500⟩ 3600 (dlayerAt m p 0) ≠ none := by
  have e : dlayerAt m p 0 = ⟨1 / 10, 20, 0, 270, some (m (.density, 0, p))⟩ := by simp only [dlayerAt, h1, h2, h3, h4]
  rw [e]
  have := Real.exp_pos (-3600 / (200 * 3600))
  have h5 : Real.exp (-3600 / (200 * 3600)) ≤ 1 := Real.exp_le_one_iff.mpr (by norm_num)
  norm_num at h5
  norm_num [Snow.empiricalLayer, Snow.maxDensity, T0]
  refine ⟨fun h => ?_, by simp⟩
  have h6 : Real.exp (-(1 / 200)) ≤ 1 := Real.exp_le_one_iff.mpr (by norm_num)
  linarith

/-- Moist soil in both pixels. -/
example (q : ℕ → Soil.Params) : ∃ (m : Cell ℕ → ℝ) (sched : List ℕ), 0 < m (.soilMoist, 1, 5) ∧
    Ended (exec ([0, 1, 1, 0, 1] ++ sched) ⟨m, loop [3, 5] (soilBody 4 q)⟩) := by
  obtain ⟨sched, h⟩ := C136_completes [3, 5] (soilBody 4 q) (fun _ => 1 / 5) [0, 1, 1, 0, 1]
  exact ⟨_, sched, by norm_num, h⟩

/-- Two stations, one of them at the second target. -/
example : ∃ sched, Ended (exec ([0, 1, 1, 0, 1] ++ sched)
    ⟨fun a : Cell Unit => match a.1 with | .zPoint => 7 * (a.2.1 : ℝ) | .xPoint | .xTarget => a.2.1 | _ => 0,
      loop (List.range 2) (idwBody 2 0 2)⟩) ∧
    (exec ([0, 1, 1, 0, 1] ++ sched)
    ⟨fun a : Cell Unit => match a.1 with | .zPoint => 7 * (a.2.1 : ℝ) | .xPoint | .xTarget => a.2.1 | _ => 0,
      loop (List.range 2) (idwBody 2 0 2)⟩).mem (Arr.data, 1, ()) = 7 := by
  obtain ⟨sched, h⟩ := C136_completes (List.range 2) (idwBody 2 0 2)
    (fun a : Cell Unit => match a.1 with | .zPoint => 7 * (a.2.1 : ℝ) | .xPoint | .xTarget => a.2.1 | _ => 0) [0, 1, 1, 0, 1]
  refine ⟨sched, h, ?_⟩
  rw [(C136_idw 2 0 2 2 _ _ h).1 1 (by norm_num)]
  norm_num [Idw.loop, Idw.dist, List.range_succ]

end Verif.Parallel
