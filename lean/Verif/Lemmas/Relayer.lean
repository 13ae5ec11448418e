import Verif.Spec.Profile
import Verif.Lemmas.Snowpack
import Mathlib.Algebra.BigOperators.Group.Finset.Basic
import Mathlib.Algebra.BigOperators.Intervals
import Mathlib.Algebra.Module.LinearMap.Defs
import Mathlib.Tactic.Module
import Mathlib.Tactic.Abel

/-! Helper lemmas for the relayering of the multilayer model. -/

set_option linter.unusedSectionVars false

namespace Verif

variable {K M N : Type*} [Field K] [LinearOrder K] [IsStrictOrderedRing K]
  [AddCommGroup M] [Module K M] [AddCommGroup N] [Module K N]

theorem cumProfile_ge (t : K) (m : M) (col : List (K × M)) (z : K) (h : t ≤ z) :
    cumProfile ((t, m) :: col) z = m + cumProfile col (z - t) := by simp [cumProfile, h]

theorem cumProfile_split (t : K) (m : M) (col : List (K × M)) (x z : K) (hx : 0 ≤ x) (hxt : x < t) :
    cumProfile ((t * (1 - x / t), (1 - x / t) • m) :: col) z
      = cumProfile ((t, m) :: col) (x + z) - (x / t) • m := by
  have ht : 0 < t := lt_of_le_of_lt hx hxt
  have e : t * (1 - x / t) = t - x := by field_simp
  simp only [cumProfile, e]
  by_cases h : t - x ≤ z
  · have h' : t ≤ x + z := by linarith
    simp only [h, h', if_true]
    have : z - (t - x) = x + z - t := by ring
    rw [this]; module
  · have h' : ¬ t ≤ x + z := by intro h2; apply h; linarith
    simp only [h, h', if_false]
    rw [smul_smul, ← sub_smul]
    congr 1
    have : t - x ≠ 0 := by linarith
    field_simp
    ring

theorem cumProfile_map (f : M →ₗ[K] N) (col : List (K × M)) :
    ∀ z, f (cumProfile col z) = cumProfile (col.map fun x => (x.1, f x.2)) z := by
  induction col with
  | nil => intro z; simp [cumProfile]
  | cons x col ih =>
    intro z
    obtain ⟨t, m⟩ := x
    simp only [cumProfile, List.map_cons]
    split_ifs
    · rw [map_add, ih]
    · rw [map_smul]

theorem cumProfile_total (col : List (K × M)) (h : ∀ x ∈ col, 0 ≤ x.1) :
    cumProfile col (col.map Prod.fst).sum = (col.map Prod.snd).sum := by
  induction col with
  | nil => simp [cumProfile]
  | cons x col ih =>
    obtain ⟨t, m⟩ := x
    have h2 : 0 ≤ (col.map Prod.fst).sum := sum_map_nonneg _ _ fun y hy => h y (by simp [hy])
    rw [List.map_cons, List.sum_cons, cumProfile_ge _ _ _ _ (by simpa using h2)]
    simp only [add_sub_cancel_left, List.map_cons, List.sum_cons]
    rw [ih fun y hy => h y (by simp [hy])]

theorem cumProfile_mono (col : List (K × K)) (h : ∀ x ∈ col, 0 ≤ x.1 ∧ 0 ≤ x.2) :
    ∀ z1 z2, 0 ≤ z1 → z1 ≤ z2 → cumProfile col z1 ≤ cumProfile col z2 ∧ 0 ≤ cumProfile col z1 := by
  induction col with
  | nil => intros; simp [cumProfile]
  | cons x col ih =>
    intro z1 z2 h0 h1
    obtain ⟨t, m⟩ := x
    obtain ⟨ht, hm⟩ := h (t, m) (by simp)
    have ih' := ih fun y hy => h y (by simp [hy])
    simp only [cumProfile, smul_eq_mul]
    by_cases a : t ≤ z1
    · have b : t ≤ z2 := le_trans a h1
      simp only [a, b, if_true]
      obtain ⟨c, d⟩ := ih' (z1 - t) (z2 - t) (by linarith) (by linarith)
      exact ⟨by linarith, add_nonneg hm d⟩
    · have a' := not_le.mp a
      have ht' : 0 < t := lt_of_le_of_lt h0 a'
      have hq0 : 0 ≤ z1 / t := div_nonneg h0 ht
      simp only [a, if_false]
      refine ⟨?_, mul_nonneg hq0 hm⟩
      split_ifs with b
      · have : z1 / t ≤ 1 := (div_le_one ht').mpr a'.le
        have h3 := (ih' (z2 - t) (z2 - t) (by linarith) le_rfl).2
        have : z1 / t * m ≤ m := mul_le_of_le_one_left hm this
        linarith
      · exact mul_le_mul_of_nonneg_right (div_le_div_of_nonneg_right h1 ht) hm

theorem cumProfile_strict (col : List (K × K)) (h : ∀ x ∈ col, 0 ≤ x.1 ∧ 0 ≤ x.2)
    (hpos : ∀ x ∈ col, 0 < x.1 → 0 < x.2) :
    ∀ z1 z2, 0 ≤ z1 → z1 < z2 → z2 ≤ (col.map Prod.fst).sum →
      cumProfile col z1 < cumProfile col z2 := by
  induction col with
  | nil =>
    intro z1 z2 h0 h1 h2
    simp at h2; linarith
  | cons x col ih =>
    intro z1 z2 h0 h1 h2
    obtain ⟨t, m⟩ := x
    obtain ⟨ht, hm⟩ := h (t, m) (by simp)
    have hp := hpos (t, m) (by simp)
    have hcol : ∀ y ∈ col, 0 ≤ y.1 ∧ 0 ≤ y.2 := fun y hy => h y (by simp [hy])
    have ih' := ih hcol (fun y hy => hpos y (by simp [hy]))
    simp only [List.map_cons, List.sum_cons] at h2
    simp only [cumProfile, smul_eq_mul]
    by_cases a : t ≤ z1
    · have b : t ≤ z2 := le_trans a h1.le
      simp only [a, b, if_true]
      have := ih' (z1 - t) (z2 - t) (by linarith) (by linarith) (by linarith)
      linarith
    · have a' := not_le.mp a
      have ht' : 0 < t := lt_of_le_of_lt h0 a'
      have hm' : 0 < m := hp ht'
      simp only [a, if_false]
      split_ifs with b
      · have : z1 / t < 1 := (div_lt_one ht').mpr a'
        have h3 := (cumProfile_mono col hcol (z2 - t) (z2 - t) (by linarith) le_rfl).2
        have : z1 / t * m < m := mul_lt_of_lt_one_left hm' this
        linarith
      · exact mul_lt_mul_of_pos_right (div_lt_div_of_pos_right h1 ht') hm'

namespace MultiLayer

/-- Depth of the lower boundary of new layer `j`, counted from the current position. -/
def bnd (ths : ℕ → K) (k : ℕ) (x : K) (j : ℕ) : K :=
  x + (∑ l ∈ Finset.range (j + 1), ths l) - ∑ l ∈ Finset.range (k + 1), ths l

def colOf (os : List (OldLayer K M)) : List (K × M) := os.map fun o => (o.thick, o.cont)

/-- What the loop adds to the content of new layer `j`. -/
def gain (ths : ℕ → K) (ns k : ℕ) (x : K) (col : List (K × M)) (j : ℕ) : M :=
  if j = k then cumProfile col x
  else if k < j ∧ j < ns then
    cumProfile col (bnd ths k x j) - cumProfile col (bnd ths k x (j - 1))
  else 0

theorem bnd_mono {ths : ℕ → K} {k ns : ℕ} {x : K} (hth : ∀ l, l < ns → 0 ≤ ths l) {i j : ℕ}
    (hij : i ≤ j) (hj : j < ns) : bnd ths k x i ≤ bnd ths k x j := by
  unfold bnd
  have : ∑ l ∈ Finset.range (i + 1), ths l ≤ ∑ l ∈ Finset.range (j + 1), ths l := by
    apply Finset.sum_le_sum_of_subset_of_nonneg
    · intro l; simp; omega
    · intro l hl _
      exact hth l (by simp at hl; omega)
  linarith

theorem relayerLoop_spec (maxL ns : ℕ) (ths : ℕ → K) (hth : ∀ l, l < ns → 0 ≤ ths l)
    (os : List (OldLayer K M)) :
    ∀ (a a' : RelayerAcc K M), (∀ o ∈ os, 0 ≤ o.thick) → 0 ≤ a.newTh → a.kNew < ns →
      (os.map OldLayer.thick).sum = bnd ths a.kNew a.newTh (ns - 1) →
      relayerLoop maxL ns ths os a = some a' →
      ∀ j, a'.cont j = a.cont j + gain ths ns a.kNew a.newTh (colOf os) j := by
  induction os with
  | nil =>
    intro a a' _ h0 hk hsum h j
    simp only [relayerLoop, Option.some.injEq] at h
    subst h
    have : gain ths ns a.kNew a.newTh (colOf ([] : List (OldLayer K M))) j = 0 := by
      unfold gain colOf; split_ifs <;> simp [cumProfile]
    rw [this, add_zero]
  | cons o os ih =>
    -- inner induction over the number of new layers left
    have inner : ∀ (d : ℕ) (o : OldLayer K M) (a a' : RelayerAcc K M), ns - a.kNew = d →
        0 ≤ o.thick → (∀ o ∈ os, 0 ≤ o.thick) → 0 ≤ a.newTh → a.kNew < ns →
        o.thick + (os.map OldLayer.thick).sum = bnd ths a.kNew a.newTh (ns - 1) →
        relayerLoop maxL ns ths (o :: os) a = some a' →
        ∀ j, a'.cont j = a.cont j + gain ths ns a.kNew a.newTh (colOf (o :: os)) j := by
      intro d
      induction d with
      | zero => intro o a a' hd; omega
      | succ d ihd =>
        intro o a a' hd ho hos h0 hk hsum h j
        have hsum_os : 0 ≤ (os.map OldLayer.thick).sum := sum_map_nonneg _ _ hos
        simp only [relayerLoop, Option.bind_eq_bind, Option.bind_eq_some_iff] at h
        obtain ⟨b, hb, hloop⟩ := h
        rw [relayerOld] at hb
        by_cases hmax : maxL ≤ a.kNew
        · simp [hmax] at hb
        simp only [hmax, if_false] at hb
        by_cases hge : o.thick ≤ a.newTh
        · -- the old layer fits entirely
          have hw : ∀ w, weight a.newTh o.thick = some w → w = 1 := by
            intro w hw
            unfold weight at hw
            split_ifs at hw with h1 h2
            · simpa using hw.symm
            · have hp : 0 < o.thick := lt_of_le_of_ne ho (Ne.symm h1)
              simp only [Option.some.injEq] at hw
              rw [← hw, min_eq_right]
              exact (one_le_div hp).mpr hge
          rcases hwt : weight a.newTh o.thick with _ | w
          · rw [hwt] at hb; simp at hb
          · rw [hwt] at hb
            obtain rfl := hw w hwt
            simp only [if_true, Option.some.injEq, one_smul] at hb
            subst hb
            have hs2 : (os.map OldLayer.thick).sum
                = bnd ths a.kNew (a.newTh - o.thick) (ns - 1) := by
              unfold bnd at hsum ⊢; linarith
            have := ih ⟨a.kNew, a.newTh - o.thick, _⟩ a' hos (sub_nonneg.mpr hge) hk hs2 hloop j
            rw [this]
            have hcol : colOf (o :: os) = (o.thick, o.cont) :: colOf os := rfl
            have hbd : ∀ i, bnd ths a.kNew (a.newTh - o.thick) i
                = bnd ths a.kNew a.newTh i - o.thick := by intro i; unfold bnd; ring
            have hself : bnd ths a.kNew a.newTh a.kNew = a.newTh := by unfold bnd; ring
            unfold gain
            rw [hcol]
            by_cases hj : j = a.kNew
            · subst hj
              simp only [Function.update_self, if_true]
              rw [cumProfile_ge _ _ _ _ hge, add_assoc]
            · simp only [hj, if_false]
              rw [Function.update_of_ne hj]
              congr 1
              split_ifs with hjj
              · have m1 := bnd_mono (x := a.newTh) (k := a.kNew) hth hjj.1.le hjj.2
                have m2 := bnd_mono (x := a.newTh) (k := a.kNew) hth
                  (show a.kNew ≤ j - 1 by omega) (show j - 1 < ns by omega)
                rw [hself] at m1 m2
                rw [cumProfile_ge _ _ _ _ (le_trans hge m1), cumProfile_ge _ _ _ _ (le_trans hge m2),
                  hbd, hbd]
                abel
              · rfl
        · -- only a part fits
          have hlt := not_le.mp hge
          have hp : 0 < o.thick := lt_of_le_of_lt h0 hlt
          have hw1 : a.newTh / o.thick < 1 := (div_lt_one hp).mpr hlt
          have hwt : weight a.newTh o.thick = some (a.newTh / o.thick) := by
            simp [weight, hp.ne', min_eq_left hw1.le]
          rw [hwt] at hb
          have hk1 : ¬ ns ≤ a.kNew + 1 := by
            intro hle
            have : ns - 1 = a.kNew := by omega
            rw [this] at hsum
            have hself : bnd ths a.kNew a.newTh a.kNew = a.newTh := by unfold bnd; ring
            rw [hself] at hsum
            linarith
          simp only [hw1.ne, if_false, hk1, hw1, if_true] at hb
          set cont' := Function.update a.cont a.kNew
            (a.cont a.kNew + (a.newTh / o.thick) • o.cont) with hcont
          set o' : OldLayer K M := ⟨o.thick * (1 - a.newTh / o.thick),
            (1 - a.newTh / o.thick) • o.cont⟩ with ho'
          have ht' : o'.thick = o.thick - a.newTh := by
            show o.thick * (1 - a.newTh / o.thick) = _
            field_simp
          have hloop' : relayerLoop maxL ns ths (o' :: os) ⟨a.kNew + 1, ths (a.kNew + 1), cont'⟩
              = some a' := by
            simp only [relayerLoop, Option.bind_eq_bind, Option.bind_eq_some_iff]
            exact ⟨b, hb, hloop⟩
          have hbshift : ∀ i, bnd ths a.kNew a.newTh i
              = a.newTh + bnd ths (a.kNew + 1) (ths (a.kNew + 1)) i := by
            intro i
            unfold bnd
            rw [Finset.sum_range_succ (f := ths) (n := a.kNew + 1)]
            ring
          have := ihd o' ⟨a.kNew + 1, ths (a.kNew + 1), cont'⟩ a' (by simp; omega)
            (by rw [ht']; linarith) hos (hth _ (by omega)) (by simp; omega)
            (by
              rw [ht']
              have := hbshift (ns - 1)
              simp only
              linarith) hloop' j
          rw [this]
          have hcol : colOf (o :: os) = (o.thick, o.cont) :: colOf os := rfl
          have hcol' : colOf (o' :: os) = (o.thick * (1 - a.newTh / o.thick),
            (1 - a.newTh / o.thick) • o.cont) :: colOf os := rfl
          have hcs := fun z => cumProfile_split o.thick o.cont (colOf os) a.newTh z h0 hlt
          have hself' : bnd ths (a.kNew + 1) (ths (a.kNew + 1)) (a.kNew + 1)
              = ths (a.kNew + 1) := by unfold bnd; ring
          have hself : bnd ths a.kNew a.newTh a.kNew = a.newTh := by unfold bnd; ring
          have hcn : cumProfile ((o.thick, o.cont) :: colOf os) a.newTh
              = (a.newTh / o.thick) • o.cont := by simp [cumProfile, hge]
          unfold gain
          rw [hcol, hcol']
          by_cases hj : j = a.kNew
          · subst hj
            simp only [if_true]
            rw [hcn, hcont, Function.update_self]
            have h1 : ¬ a.kNew = a.kNew + 1 := by omega
            have h2 : ¬ (a.kNew + 1 < a.kNew ∧ a.kNew < ns) := by omega
            simp only [h1, h2, if_false, add_zero]
          · simp only [hj, if_false]
            rw [hcont, Function.update_of_ne hj]
            congr 1
            by_cases hj1 : j = a.kNew + 1
            · subst hj1
              have h2 : a.kNew < a.kNew + 1 ∧ a.kNew + 1 < ns := by omega
              simp only [if_true, h2, and_self, Nat.add_sub_cancel]
              rw [hcs, hbshift (a.kNew + 1), hself', hself, hcn]
            · simp only [hj1, if_false]
              by_cases hj2 : a.kNew < j ∧ j < ns
              · have h3 : a.kNew + 1 < j ∧ j < ns := by omega
                simp only [hj2, h3, and_self, if_true]
                rw [hcs, hcs, hbshift j, hbshift (j - 1)]
                abel
              · have h3 : ¬ (a.kNew + 1 < j ∧ j < ns) := by omega
                simp only [hj2, h3, if_false]
    intro a a' hos h0 hk hsum h
    exact inner _ o a a' rfl (hos o (by simp)) (fun x hx => hos x (by simp [hx])) h0 hk
      (by simpa using hsum) h

/-- The loop is defined if all old layers have positive thickness. -/
theorem relayerLoop_defined (maxL ns : ℕ) (ths : ℕ → K) (hns : ns ≤ maxL)
    (hth : ∀ l, l < ns → 0 ≤ ths l) (os : List (OldLayer K M)) :
    ∀ (a : RelayerAcc K M), (∀ o ∈ os, 0 < o.thick) → 0 ≤ a.newTh → a.kNew < ns →
      (os.map OldLayer.thick).sum = bnd ths a.kNew a.newTh (ns - 1) →
      ∃ a', relayerLoop maxL ns ths os a = some a' := by
  induction os with
  | nil => intro a _ _ _ _; exact ⟨a, rfl⟩
  | cons o os ih =>
    have inner : ∀ (d : ℕ) (o : OldLayer K M) (a : RelayerAcc K M), ns - a.kNew = d →
        0 < o.thick → (∀ o ∈ os, 0 < o.thick) → 0 ≤ a.newTh → a.kNew < ns →
        o.thick + (os.map OldLayer.thick).sum = bnd ths a.kNew a.newTh (ns - 1) →
        ∃ a', relayerLoop maxL ns ths (o :: os) a = some a' := by
      intro d
      induction d with
      | zero => intro o a hd; omega
      | succ d ihd =>
        intro o a hd ho hos h0 hk hsum
        have hsum_os : 0 ≤ (os.map OldLayer.thick).sum :=
          sum_map_nonneg _ _ fun x hx => (hos x hx).le
        have hmax : ¬ maxL ≤ a.kNew := by omega
        by_cases hge : o.thick ≤ a.newTh
        · have hwt : weight a.newTh o.thick = some 1 := by
            simp [weight, ho.ne', min_eq_right ((one_le_div ho).mpr hge)]
          have hold : relayerOld maxL ns ths o a = some { a with
              newTh := a.newTh - o.thick,
              cont := Function.update a.cont a.kNew (a.cont a.kNew + (1 : K) • o.cont) } := by
            rw [relayerOld]; simp [hmax, hwt]
          obtain ⟨a', ha'⟩ := ih ⟨a.kNew, a.newTh - o.thick,
            Function.update a.cont a.kNew (a.cont a.kNew + (1 : K) • o.cont)⟩ hos (sub_nonneg.mpr hge) hk (by
            unfold bnd at hsum ⊢; linarith)
          exact ⟨a', by simp only [relayerLoop, hold, Option.bind_eq_bind, Option.bind_some]; exact ha'⟩
        · have hlt := not_le.mp hge
          have hw1 : a.newTh / o.thick < 1 := (div_lt_one ho).mpr hlt
          have hwt : weight a.newTh o.thick = some (a.newTh / o.thick) := by
            simp [weight, ho.ne', min_eq_left hw1.le]
          have hk1 : ¬ ns ≤ a.kNew + 1 := by
            intro hle
            have : ns - 1 = a.kNew := by omega
            rw [this] at hsum
            have hself : bnd ths a.kNew a.newTh a.kNew = a.newTh := by unfold bnd; ring
            rw [hself] at hsum
            linarith
          have ht' : o.thick * (1 - a.newTh / o.thick) = o.thick - a.newTh := by field_simp
          obtain ⟨a', ha'⟩ := ihd ⟨o.thick * (1 - a.newTh / o.thick),
            (1 - a.newTh / o.thick) • o.cont⟩ ⟨a.kNew + 1, ths (a.kNew + 1), Function.update a.cont
              a.kNew (a.cont a.kNew + (a.newTh / o.thick) • o.cont)⟩ (by simp; omega)
            (by simp only; rw [ht']; linarith) hos (hth _ (by omega)) (by simp; omega) (by
              simp only
              rw [ht']
              unfold bnd at hsum ⊢
              rw [Finset.sum_range_succ (f := ths) (n := a.kNew + 1)]
              linarith)
          refine ⟨a', ?_⟩
          simp only [relayerLoop] at ha' ⊢
          rw [relayerOld]
          simp only [hmax, if_false, hwt, hw1.ne, hk1, hw1, if_true]
          exact ha'
    intro a hos h0 hk hsum
    exact inner _ o a rfl (hos o (by simp)) (fun x hx => hos x (by simp [hx])) h0 hk
      (by simpa using hsum)

end MultiLayer

end Verif
