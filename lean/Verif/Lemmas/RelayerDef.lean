import Verif.Lemmas.UpdateLayers

/-! Helper lemmas: when the redistribution of the layers is undefined. -/

set_option linter.unusedSectionVars false

namespace Verif.MultiLayer

variable {K : Type*} [Field K] [LinearOrder K] [IsStrictOrderedRing K]
variable {M : Type*} [AddCommGroup M] [Module K M]

theorem bnd_self (ths : ℕ → K) (k : ℕ) (x : K) : bnd ths k x k = x := by unfold bnd; ring

theorem bnd_sub (ths : ℕ → K) (k : ℕ) (x t : K) (j : ℕ) :
    bnd ths k (x - t) j = bnd ths k x j - t := by unfold bnd; ring

theorem bnd_next (ths : ℕ → K) (k : ℕ) (x : K) (j : ℕ) :
    bnd ths (k + 1) (ths (k + 1)) j = bnd ths k x j - x := by
  unfold bnd
  rw [Finset.sum_range_succ (f := ths) (n := k + 1)]
  ring

/-- The loop is undefined exactly if an old layer without thickness lies on the lower boundary of a
new layer. -/
theorem relayerLoop_none_iff (maxL ns : ℕ) (ths : ℕ → K) (hns : ns ≤ maxL)
    (hth : ∀ l, l < ns → 0 < ths l) (os : List (OldLayer K M)) :
    ∀ (a : RelayerAcc K M), (∀ o ∈ os, 0 ≤ o.thick) → 0 ≤ a.newTh → a.kNew < ns →
      (os.map OldLayer.thick).sum = bnd ths a.kNew a.newTh (ns - 1) →
      (relayerLoop maxL ns ths os a = none ↔
        ∃ k o, os[k]? = some o ∧ o.thick = 0 ∧ ∃ j, a.kNew ≤ j ∧ j < ns ∧
          ((os.take k).map OldLayer.thick).sum = bnd ths a.kNew a.newTh j) := by
  induction os with
  | nil => intro a _ _ _ _; simp [relayerLoop]
  | cons o os ih =>
    have inner : ∀ (d : ℕ) (o : OldLayer K M) (a : RelayerAcc K M), ns - a.kNew = d →
        0 ≤ o.thick → (∀ o ∈ os, 0 ≤ o.thick) → 0 ≤ a.newTh → a.kNew < ns →
        o.thick + (os.map OldLayer.thick).sum = bnd ths a.kNew a.newTh (ns - 1) →
        (relayerLoop maxL ns ths (o :: os) a = none ↔
          ∃ k o', (o :: os)[k]? = some o' ∧ o'.thick = 0 ∧ ∃ j, a.kNew ≤ j ∧ j < ns ∧
            (((o :: os).take k).map OldLayer.thick).sum = bnd ths a.kNew a.newTh j) := by
      intro d
      induction d with
      | zero => intro o a hd; omega
      | succ d ihd =>
        intro o a hd ho hos h0 hk hsum
        have hmax : ¬ maxL ≤ a.kNew := by omega
        have hsum_take : ∀ k, 0 ≤ ((os.take k).map OldLayer.thick).sum := fun k =>
          sum_map_nonneg _ _ fun x hx => hos x (List.mem_of_mem_take hx)
        have hbge : ∀ j, a.kNew ≤ j → j < ns → a.newTh ≤ bnd ths a.kNew a.newTh j := by
          intro j h1 h2
          have := bnd_mono (k := a.kNew) (x := a.newTh) (fun l hl => (hth l hl).le) h1 h2
          rwa [bnd_self] at this
        -- the part of the right side that talks about the lower layers
        by_cases hfit : o.thick ≤ a.newTh
        · by_cases hz : o.thick = 0 ∧ a.newTh = 0
          · have hn : relayerLoop maxL ns ths (o :: os) a = none := by
              simp only [relayerLoop]
              rw [relayerOld]
              simp [hmax, weight, hz.1, hz.2]
            refine ⟨fun _ => ⟨0, o, by simp, hz.1, a.kNew, le_rfl, hk, ?_⟩, fun _ => hn⟩
            rw [bnd_self, hz.2]; simp
          · have hwt : weight a.newTh o.thick = some 1 := by
              by_cases h1 : o.thick = 0
              · have : 0 < a.newTh := lt_of_le_of_ne h0 fun e => hz ⟨h1, e.symm⟩
                simp [weight, h1, this]
              · have : 0 < o.thick := lt_of_le_of_ne ho (Ne.symm h1)
                simp [weight, h1, min_eq_right ((one_le_div this).mpr hfit)]
            have hold : relayerOld maxL ns ths o a = some { a with
                newTh := a.newTh - o.thick,
                cont := Function.update a.cont a.kNew (a.cont a.kNew + (1 : K) • o.cont) } := by
              rw [relayerOld]; simp [hmax, hwt]
            have hloop : relayerLoop maxL ns ths (o :: os) a
                = relayerLoop maxL ns ths os ⟨a.kNew, a.newTh - o.thick,
                  Function.update a.cont a.kNew (a.cont a.kNew + (1 : K) • o.cont)⟩ := by
              simp only [relayerLoop, hold, Option.bind_eq_bind, Option.bind_some]
            rw [hloop, ih ⟨a.kNew, a.newTh - o.thick,
                  Function.update a.cont a.kNew (a.cont a.kNew + (1 : K) • o.cont)⟩ hos
              (sub_nonneg.mpr hfit) hk (by
                simp only; rw [bnd_sub]; linarith)]
            simp only [bnd_sub]
            constructor
            · rintro ⟨k, o', h1, h2, j, h3, h4, h5⟩
              exact ⟨k + 1, o', by simpa using h1, h2, j, h3, h4, by
                simp only [List.take_succ_cons, List.map_cons, List.sum_cons]; linarith⟩
            · rintro ⟨k, o', h1, h2, j, h3, h4, h5⟩
              cases k with
              | zero =>
                exfalso
                simp only [List.getElem?_cons_zero, Option.some.injEq] at h1
                subst h1
                simp only [List.take_zero, List.map_nil, List.sum_nil] at h5
                exact hz ⟨h2, le_antisymm (by rw [h5]; exact hbge j h3 h4) h0⟩
              | succ k =>
                refine ⟨k, o', by simpa using h1, h2, j, h3, h4, ?_⟩
                simp only [List.take_succ_cons, List.map_cons, List.sum_cons] at h5
                linarith
        · have hlt := not_le.mp hfit
          have hpos : 0 < o.thick := lt_of_le_of_lt h0 hlt
          have hw1 : a.newTh / o.thick < 1 := (div_lt_one hpos).mpr hlt
          have hwt : weight a.newTh o.thick = some (a.newTh / o.thick) := by
            simp [weight, hpos.ne', min_eq_left hw1.le]
          have hk1 : ¬ ns ≤ a.kNew + 1 := by
            intro hle
            have : ns - 1 = a.kNew := by omega
            rw [this, bnd_self] at hsum
            have := hsum_take os.length
            rw [List.take_length] at this
            linarith
          have ht' : o.thick * (1 - a.newTh / o.thick) = o.thick - a.newTh := by field_simp
          have hloop : relayerLoop maxL ns ths (o :: os) a
              = relayerLoop maxL ns ths (⟨o.thick * (1 - a.newTh / o.thick),
                (1 - a.newTh / o.thick) • o.cont⟩ :: os) ⟨a.kNew + 1, ths (a.kNew + 1),
                  Function.update a.cont a.kNew
                    (a.cont a.kNew + (a.newTh / o.thick) • o.cont)⟩ := by
            simp only [relayerLoop]
            congr 1
            rw [relayerOld]
            simp only [hmax, if_false, hwt, hw1.ne, hk1, hw1, if_true]
          rw [hloop, ihd ⟨o.thick * (1 - a.newTh / o.thick), (1 - a.newTh / o.thick) • o.cont⟩
            ⟨a.kNew + 1, ths (a.kNew + 1), Function.update a.cont a.kNew
              (a.cont a.kNew + (a.newTh / o.thick) • o.cont)⟩ (by simp only; omega) (by simp only; rw [ht']; linarith) hos
            (hth _ (by omega)).le (by simp only; omega) (by
              simp only; rw [ht', bnd_next ths a.kNew a.newTh]; linarith)]
          simp only [bnd_next ths a.kNew a.newTh, ht']
          constructor
          · rintro ⟨k, o', h1, h2, j, h3, h4, h5⟩
            cases k with
            | zero =>
              exfalso
              simp only [List.getElem?_cons_zero, Option.some.injEq] at h1
              rw [← h1] at h2
              simp only at h2
              linarith
            | succ k =>
              refine ⟨k + 1, o', by simpa using h1, h2, j, by omega, h4, ?_⟩
              simp only [List.take_succ_cons, List.map_cons, List.sum_cons] at h5 ⊢
              linarith
          · rintro ⟨k, o', h1, h2, j, h3, h4, h5⟩
            cases k with
            | zero =>
              exfalso
              simp only [List.getElem?_cons_zero, Option.some.injEq] at h1
              rw [← h1] at h2
              exact hpos.ne' h2
            | succ k =>
              simp only [List.take_succ_cons, List.map_cons, List.sum_cons] at h5
              have hj : j ≠ a.kNew := by
                rintro rfl
                rw [bnd_self] at h5
                have := hsum_take k
                linarith
              refine ⟨k + 1, o', by simpa using h1, h2, j, by omega, h4, ?_⟩
              simp only [List.take_succ_cons, List.map_cons, List.sum_cons]
              linarith
    intro a hos h0 hk hsum
    exact inner _ o a rfl (hos o (by simp)) (fun x hx => hos x (by simp [hx])) h0 hk
      (by simpa using hsum)

end Verif.MultiLayer
