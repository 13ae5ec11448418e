import Verif.Props.Parallel
import Mathlib.Tactic.Ring

/-!
# C136: relayering
-/

set_option linter.unusedSectionVars false

namespace Verif.Parallel

open Verif.MultiLayer

variable {ι K : Type*} [DecidableEq ι] [Field K] [LinearOrder K]

/-! ## Columns of arrays -/

/-- The memory with other values in layers `k`, ... of an array. -/
def setCol (arr : Arr) (m : Cell ι → K) (p : ι) (k : ℕ) (l : List K) : Cell ι → K := fun a =>
  if a.1 = arr ∧ a.2.2 = p ∧ k ≤ a.2.1 ∧ a.2.1 < k + l.length then l.getD (a.2.1 - k) 0 else m a

theorem setCol_nil (arr : Arr) (m : Cell ι → K) (p : ι) (k : ℕ) : setCol arr m p k [] = m := by
  funext a
  unfold setCol
  rw [if_neg]
  rintro ⟨-, -, h1, h2⟩
  simp only [List.length_nil, add_zero] at h2
  omega

theorem setCol_cons (arr : Arr) (m : Cell ι → K) (p : ι) (k : ℕ) (x : K) (l : List K) :
    setCol arr m p k (x :: l) = setCol arr (Function.update m (arr, k, p) x) p (k + 1) l := by
  funext ⟨arr', k', p'⟩
  simp only [setCol, List.length_cons, upd]
  by_cases e : arr' = arr ∧ p' = p
  · obtain ⟨rfl, rfl⟩ := e
    rcases lt_trichotomy k' k with h | h | h
    · rw [if_neg (by omega), if_neg (by omega), if_neg (by simp; omega)]
    · subst h
      rw [if_pos (by simp), if_neg (by omega), if_pos (by simp)]
      simp
    · obtain ⟨d, rfl⟩ : ∃ d, k' = k + 1 + d := ⟨k' - (k + 1), by omega⟩
      by_cases hd : d < l.length
      · rw [if_pos ⟨rfl, rfl, by omega, by omega⟩, if_pos ⟨rfl, rfl, by omega, by omega⟩]
        rw [show k + 1 + d - k = d + 1 by omega, show k + 1 + d - (k + 1) = d by omega]
        simp
      · rw [if_neg (by omega), if_neg (by omega), if_neg (by simp; omega)]
  · rw [if_neg fun h => e ⟨h.1, h.2.1⟩, if_neg fun h => e ⟨h.1, h.2.1⟩, if_neg fun h => e ⟨h.2, (Prod.mk.inj h.1).2⟩]

theorem setCol_apply (arr arr' : Arr) (m : Cell ι → K) (p p' : ι) (k k' : ℕ) (l : List K) :
    setCol arr m p k l (arr', k', p') =
      if arr' = arr ∧ p' = p ∧ k ≤ k' ∧ k' < k + l.length then l.getD (k' - k) 0 else m (arr', k', p') := rfl

theorem solo_readAll' {A V : Type*} [DecidableEq A] : ∀ (as : List A) (f : List V → Prog A V) (m : A → V),
    solo (readAll as f) m = solo (f (as.map m)) m := by
  intro as
  induction as with
  | nil => intro f m; rfl
  | cons a as ih => intro f m; rw [readAll, solo, ih]; rfl

theorem solo_mapCol (arr : Arr) (srcs : List Arr) (f : ℕ → List K → K) (p : ι) (next : Prog (Cell ι) K) :
    ∀ (r k : ℕ) (m : Cell ι → K), solo (mapCol arr srcs f p r k next) m =
      solo next (setCol arr m p k ((List.range' k r).map fun j => f j (srcs.map fun s => m (s, j, p)))) := by
  intro r
  induction r with
  | zero => intro k m; rw [List.range'_zero, List.map_nil, setCol_nil, mapCol]
  | succ r ih =>
    intro k m
    rw [mapCol, solo_readAll', solo, ih, List.range'_succ, List.map_cons, setCol_cons, List.map_map]
    congr 2
    apply List.map_congr_left
    intro j hj
    rw [List.mem_range'_1] at hj
    congr 1
    apply List.map_congr_left
    intro s _
    rw [upd, if_neg]
    rintro ⟨h, -⟩
    have := (Prod.mk.inj h).1
    omega

theorem solo_thickProg (p : ι) (next : Prog (Cell ι) K) : ∀ (ts : List K) (k : ℕ) (new : K) (m : Cell ι → K),
    (∀ j, k ≤ j → j < k + ts.length → m (.thick, j, p) = 0) →
    solo (thickProg p ts k new next) m = solo next (setCol .thick m p k (newThickness new ts)) := by
  intro ts
  induction ts with
  | nil => intro k new m _; rw [newThickness, setCol_nil, thickProg]
  | cons t ts ih =>
    intro k new m h0
    rw [thickProg, newThickness]
    simp only [solo]
    by_cases h : new - t ≤ t ∨ ts = []
    · rw [if_pos h, if_pos h]
      simp only [solo]
      congr 1
      funext ⟨arr, k', p'⟩
      rw [setCol_apply, upd, upd, upd, if_pos (⟨rfl, rfl⟩ : ((k, p) = (k, p) ∧ Arr.thick = Arr.thick))]
      by_cases e : arr = .thick ∧ p' = p
      · obtain ⟨rfl, rfl⟩ := e
        by_cases ek : k' = k
        · subst ek; simp
        · rw [if_neg fun h => ek (Prod.mk.inj h.1).1, if_neg fun h => ek (Prod.mk.inj h.1).1]
          split_ifs with h3
          · obtain ⟨d, rfl⟩ : ∃ d, k' = k + 1 + d := ⟨k' - (k + 1), by omega⟩
            have hl : d < ts.length := by simp only [List.length_cons, List.length_map] at h3; omega
            rw [h0 _ (by omega) (by simp only [List.length_cons]; omega), show k + 1 + d - k = d + 1 by omega]
            simp [hl, List.getD_eq_getElem?_getD]
          · rfl
      · rw [if_neg fun h => e ⟨h.2, (Prod.mk.inj h.1).2⟩, if_neg fun h => e ⟨h.2, (Prod.mk.inj h.1).2⟩,
          if_neg fun h => e ⟨h.1, h.2.1⟩]
    · rw [if_neg h, if_neg h, ih, setCol_cons]
      intro j h1 h2
      rw [upd, if_neg]
      · exact h0 j (by omega) (by simp only [List.length_cons]; omega)
      · rintro ⟨h, -⟩
        have := (Prod.mk.inj h).1
        omega

theorem newThickness_length : ∀ (ts : List K) (new : K), (newThickness new ts).length = ts.length := by
  intro ts
  induction ts with
  | nil => intro new; rfl
  | cons t ts ih =>
    intro new
    rw [newThickness]
    split_ifs <;> simp [ih]

/-! ## The redistribution -/

/-- The contents of the new layers in memory. -/
def Cont (slots : ℕ) (p : ι) (m : Cell ι → K) (en : ℕ → K) (cont : ℕ → K × K × K) : Prop :=
  ∀ k < slots, m (.ice, k, p) = (cont k).1 ∧ m (.lwc, k, p) = (cont k).2.1 ∧ en k = (cont k).2.2

/-- The rest of an old layer in memory. -/
def OldAt (p : ι) (m : Cell ι → K) (k : ℕ) (o : OldLayer K (K × K × K)) : Prop :=
  m (.thickPrev, k, p) = o.thick ∧ m (.icePrev, k, p) = o.cont.1 ∧ m (.lwcPrev, k, p) = o.cont.2.1 ∧
    m (.energyPrev, k, p) = o.cont.2.2

/-- What the `while` loop for old layer `kOld` leaves alone. -/
def Keeps (p : ι) (kOld : ℕ) (m m' : Cell ι → K) : Prop :=
  (∀ arr k, arr ∉ [Arr.ice, .lwc, .thickPrev, .icePrev, .lwcPrev, .energyPrev] → m' (arr, k, p) = m (arr, k, p)) ∧
  ∀ arr k, arr ∈ [Arr.thickPrev, .icePrev, .lwcPrev, .energyPrev] → k ≠ kOld → m' (arr, k, p) = m (arr, k, p)

set_option maxHeartbeats 1000000 in
theorem solo_while (slots ns : ℕ) (hns : ns ≤ slots) (ths : ℕ → K) (p : ι) (kOld : ℕ)
    (next : ℕ → K → (ℕ → K) → Prog (Cell ι) K) : ∀ (fuel : ℕ) (o : OldLayer K (K × K × K)) (a a' : RelayerAcc K (K × K × K))
    (m : Cell ι → K) (en : ℕ → K), ns - a.kNew = fuel →
    relayerOld slots ns ths o a = some a' → Cont slots p m en a.cont → OldAt p m kOld o →
    (∀ k < slots, m (.thick, k, p) = ths k) →
    ∃ m' en', solo (whileProg slots ns p kOld a.kNew a.newTh en next) m = solo (next a'.kNew a'.newTh en') m' ∧
      Cont slots p m' en' a'.cont ∧ Keeps p kOld m m' := by
  intro fuel
  induction fuel using Nat.strongRecOn with
  | _ fuel ih =>
    intro o a a' m en hf h hc ho ht
    obtain ⟨o1, o2, o3, o4⟩ := ho
    rw [relayerOld] at h
    rw [whileProg]
    by_cases hk : slots ≤ a.kNew
    · rw [if_pos hk] at h; simp at h
    · rw [if_neg hk] at h
      rw [if_neg hk, solo, o1]
      cases hw : weight a.newTh o.thick with
      | none => rw [hw] at h; simp at h
      | some w =>
        rw [hw] at h
        simp only at h
        obtain ⟨c1, c2, c3⟩ := hc a.kNew (by omega)
        -- memory after the contents of the new layer have been written
        obtain ⟨m1, hm1⟩ : ∃ m1, Function.update (Function.update m (.ice, a.kNew, p) (m (.ice, a.kNew, p) + w * o.cont.1))
          (.lwc, a.kNew, p) (m (.lwc, a.kNew, p) + w * o.cont.2.1) = m1 := ⟨_, rfl⟩
        have hc1 : Cont slots p m1 (Function.update en a.kNew (en a.kNew + w * o.cont.2.2))
            (Function.update a.cont a.kNew (a.cont a.kNew + w • o.cont)) := by
          intro k hk'
          rw [← hm1]
          by_cases e : k = a.kNew
          · subst e
            simp [upd, c1, c2, c3]
          · obtain ⟨d1, d2, d3⟩ := hc k hk'
            simp [upd, e, d1, d2, d3]
        have hk1 : Keeps p kOld m m1 := by
          refine ⟨fun arr k harr => ?_, fun arr k harr _ => ?_⟩
          · rw [← hm1, upd, upd, if_neg, if_neg]
            · rintro ⟨-, rfl⟩; simp at harr
            · rintro ⟨-, rfl⟩; simp at harr
          · rw [← hm1, upd, upd, if_neg, if_neg]
            · rintro ⟨-, rfl⟩; simp at harr
            · rintro ⟨-, rfl⟩; simp at harr
        have ho1 : OldAt p m1 kOld o := by
          rw [← hm1]
          refine ⟨?_, ?_, ?_, ?_⟩ <;> simp [upd, o1, o2, o3, o4]
        have hs1 : ∀ f : K → Prog (Cell ι) K, solo
            (.read (.ice, a.kNew, p) fun i => .read (.icePrev, kOld, p) fun ip => .write (.ice, a.kNew, p) (i + w * ip) <|
              .read (.lwc, a.kNew, p) fun l => .read (.lwcPrev, kOld, p) fun lp => .write (.lwc, a.kNew, p) (l + w * lp) <|
              .read (.energyPrev, kOld, p) f) m = solo (f o.cont.2.2) m1 := by
          intro f
          simp only [solo, o2, upd, reduceCtorEq, and_false, if_false, o3, o4]
          rw [hm1]
        simp only
        rw [hs1]
        clear hs1
        by_cases h1 : w = 1
        · rw [if_pos h1] at h
          simp only [Option.some.injEq] at h
          subst h
          refine ⟨m1, _, ?_, hc1, hk1⟩
          rw [if_pos h1, solo, ho1.1]
        · rw [if_neg h1] at h
          rw [if_neg h1]
          obtain ⟨q1, q2, q3, q4⟩ := ho1
          obtain ⟨m2, hm2⟩ : ∃ m2, Function.update (Function.update (Function.update (Function.update m1
            (.thickPrev, kOld, p) (o.thick * (1 - w))) (.icePrev, kOld, p) (o.cont.1 * (1 - w)))
            (.lwcPrev, kOld, p) (o.cont.2.1 * (1 - w))) (.energyPrev, kOld, p) (o.cont.2.2 * (1 - w)) = m2 := ⟨_, rfl⟩
          have hc2 : Cont slots p m2 (Function.update en a.kNew (en a.kNew + w * o.cont.2.2))
              (Function.update a.cont a.kNew (a.cont a.kNew + w • o.cont)) := by
            intro k hk'
            obtain ⟨d1, d2, d3⟩ := hc1 k hk'
            rw [← hm2, ← d1, ← d2, ← d3]
            simp [upd]
          have hk2 : Keeps p kOld m m2 := by
            refine ⟨fun arr k harr => ?_, fun arr k harr hk' => ?_⟩
            · rw [← hk1.1 arr k harr, ← hm2, upd, upd, upd, upd, if_neg, if_neg, if_neg, if_neg]
              all_goals rintro ⟨-, rfl⟩; simp at harr
            · rw [← hk1.2 arr k harr hk', ← hm2, upd, upd, upd, upd, if_neg, if_neg, if_neg, if_neg]
              all_goals
                rintro ⟨e, -⟩
                exact hk' (Prod.mk.inj e).1
          have ho2 : OldAt p m2 kOld ⟨o.thick * (1 - w), (1 - w) • o.cont⟩ := by
            rw [← hm2]
            refine ⟨?_, ?_, ?_, ?_⟩ <;> simp [upd, mul_comm]
          have hs2 : ∀ f : Prog (Cell ι) K, solo
              (.read (.thickPrev, kOld, p) fun tp1 => .write (.thickPrev, kOld, p) (tp1 * (1 - w)) <|
                .read (.icePrev, kOld, p) fun ip1 => .write (.icePrev, kOld, p) (ip1 * (1 - w)) <|
                .read (.lwcPrev, kOld, p) fun lp1 => .write (.lwcPrev, kOld, p) (lp1 * (1 - w)) <|
                .read (.energyPrev, kOld, p) fun ep1 => .write (.energyPrev, kOld, p) (ep1 * (1 - w)) f) m1 =
              solo f m2 := by
            intro f
            simp only [solo, upd, reduceCtorEq, and_false, if_false, q1, q2, q3, q4]
            rw [hm2]
          rw [hs2]
          clear hs2
          by_cases h2 : ns ≤ a.kNew + 1
          · rw [if_pos h2] at h
            simp only [Option.some.injEq] at h
            subst h
            exact ⟨m2, _, by rw [if_pos h2], hc2, hk2⟩
          · rw [if_neg h2] at h
            rw [if_neg h2]
            have ht2 : ∀ k < slots, m2 (.thick, k, p) = ths k := fun k hk' => by
              rw [hk2.1 _ _ (by simp), ht k hk']
            have trans : ∀ m3, Keeps p kOld m2 m3 → Keeps p kOld m m3 := fun m3 h3 =>
              ⟨fun arr k harr => (h3.1 arr k harr).trans (hk2.1 arr k harr),
                fun arr k harr hk' => (h3.2 arr k harr hk').trans (hk2.2 arr k harr hk')⟩
            by_cases h3 : w < 1
            · rw [if_pos h3] at h
              obtain ⟨m3, en3, g1, g2, g3⟩ := ih (ns - (a.kNew + 1)) (by omega) _ ⟨a.kNew + 1, ths (a.kNew + 1), _⟩ a' m2 _
                rfl h hc2 ho2 ht2
              refine ⟨m3, en3, ?_, g2, trans m3 g3⟩
              rw [if_pos h3, solo, ht2 _ (by omega)]
              exact g1
            · rw [if_neg h3] at h
              obtain ⟨m3, en3, g1, g2, g3⟩ := ih (ns - (a.kNew + 1)) (by omega) _ ⟨a.kNew + 1, a.newTh, _⟩ a' m2 _
                rfl h hc2 ho2 ht2
              refine ⟨m3, en3, ?_, g2, trans m3 g3⟩
              rw [if_neg h3]
              exact g1

theorem solo_oldProg (slots ns : ℕ) (hns : ns ≤ slots) (ths : ℕ → K) (p : ι) (next : (ℕ → K) → Prog (Cell ι) K)
    (f : ℕ → OldLayer K (K × K × K)) : ∀ (r k : ℕ) (a a' : RelayerAcc K (K × K × K)) (m : Cell ι → K) (en : ℕ → K),
    relayerLoop slots ns ths ((List.range' k r).map f) a = some a' → Cont slots p m en a.cont →
    (∀ j, k ≤ j → j < k + r → OldAt p m j (f j)) → (∀ k < slots, m (.thick, k, p) = ths k) →
    ∃ m' en', solo (oldProg slots ns p next r k a.kNew a.newTh en) m = solo (next en') m' ∧ Cont slots p m' en' a'.cont ∧
      ∀ arr k, arr ∉ [Arr.ice, .lwc, .thickPrev, .icePrev, .lwcPrev, .energyPrev] → m' (arr, k, p) = m (arr, k, p) := by
  intro r
  induction r with
  | zero =>
    intro k a a' m en h hc _ _
    simp only [List.range'_zero, List.map_nil, relayerLoop, Option.some.injEq] at h
    subst h
    exact ⟨m, en, rfl, hc, fun _ _ _ => rfl⟩
  | succ r ih =>
    intro k a a' m en h hc ho ht
    rw [List.range'_succ, List.map_cons, relayerLoop] at h
    cases h1 : relayerOld slots ns ths (f k) a with
    | none => rw [h1] at h; simp at h
    | some a1 =>
      rw [h1] at h
      obtain ⟨m1, en1, g1, g2, g3⟩ := solo_while slots ns hns ths p k
        (fun kNew' newTh' en' => oldProg slots ns p next r (k + 1) kNew' newTh' en') _ (f k) a a1 m en rfl h1 hc
        (ho k (le_refl _) (by omega)) ht
      obtain ⟨m2, en2, i1, i2, i3⟩ := ih (k + 1) a1 a' m1 en1 h g2
        (fun j hj1 hj2 => by
          obtain ⟨o1, o2, o3, o4⟩ := ho j (by omega) (by omega)
          refine ⟨?_, ?_, ?_, ?_⟩ <;> rw [g3.2 _ _ (by simp) (by omega)] <;> assumption)
        (fun j hj => by rw [g3.1 _ _ (by simp), ht j hj])
      refine ⟨m2, en2, ?_, i2, fun arr k harr => (i3 arr k harr).trans (g3.1 arr k harr)⟩
      rw [oldProg, g1, i1]

/-! ## Footprint -/

theorem own_readAll' {V : Type*} (p : ι) {rs ws : List Arr} : ∀ (l : List (Cell ι)) (f : List V → Prog (Cell ι) V),
    (∀ a ∈ l, a.1 ∈ rs ∧ a.2.2 = p) → (∀ vs, Own rs ws p (f vs)) → Own rs ws p (readAll l f) := by
  intro l
  induction l with
  | nil => intro f _ hf; exact hf []
  | cons a l ih =>
    intro f hl hf
    exact ⟨hl a (by simp), fun v => ih _ (fun b hb => hl b (by simp [hb])) fun vs => hf _⟩

theorem own_mapCol (p : ι) {rs ws : List Arr} {arr : Arr} {srcs : List Arr} (f : ℕ → List K → K) {next : Prog (Cell ι) K}
    (h1 : ∀ s ∈ srcs, s ∈ rs) (h2 : arr ∈ ws) (hn : Own rs ws p next) : ∀ (r k : ℕ),
    Own rs ws p (mapCol arr srcs f p r k next) := by
  intro r
  induction r with
  | zero => intro k; exact hn
  | succ r ih =>
    intro k
    rw [mapCol]
    refine own_readAll' p _ _ (fun a ha => ?_) fun vs => own_write h2 (ih _)
    obtain ⟨s, hs, rfl⟩ := List.mem_map.mp ha
    exact ⟨h1 s hs, rfl⟩

/-- The arrays `_update_layers` reads. -/
def layersReads : List Arr := [.depth, .thick, .ice, .lwc, .heatCap, .thickPrev, .icePrev, .lwcPrev, .energyPrev]

/-- The arrays `_update_layers` writes. -/
def layersWrites : List Arr :=
  [.numLayers, .thick, .ice, .lwc, .temp, .density, .heatCap, .thickPrev, .icePrev, .lwcPrev, .energyPrev]

theorem own_thickProg (p : ι) {next : Prog (Cell ι) K} (hn : Own layersReads layersWrites p next) : ∀ (ts : List K) (k : ℕ)
    (new : K), Own layersReads layersWrites p (thickProg p ts k new next) := by
  intro ts
  induction ts with
  | nil => intro k new; exact hn
  | cons t ts ih =>
    intro k new
    rw [thickProg]
    refine own_write (by simp [layersWrites]) (own_ite ?_ (ih _ _))
    exact own_read (by simp [layersReads]) fun _ => own_write (by simp [layersWrites]) hn

theorem own_while (slots ns : ℕ) (p : ι) (kOld : ℕ) (next : ℕ → K → (ℕ → K) → Prog (Cell ι) K)
    (hn : ∀ k x en, Own layersReads layersWrites p (next k x en)) : ∀ (fuel kNew : ℕ) (newTh : K) (en : ℕ → K),
    ns - kNew = fuel → Own layersReads layersWrites p (whileProg slots ns p kOld kNew newTh en next) := by
  intro fuel
  induction fuel using Nat.strongRecOn with
  | _ fuel ih =>
    intro kNew newTh en hf
    rw [whileProg]
    refine own_ite own_done (own_read (by simp [layersReads]) fun tp => ?_)
    cases weight newTh tp with
    | none => exact own_done
    | some w =>
      simp only
      refine own_read (by simp [layersReads]) fun _ => own_read (by simp [layersReads]) fun _ =>
        own_write (by simp [layersWrites]) <| own_read (by simp [layersReads]) fun _ =>
        own_read (by simp [layersReads]) fun _ => own_write (by simp [layersWrites]) <|
        own_read (by simp [layersReads]) fun _ => ?_
      refine own_ite (own_read (by simp [layersReads]) fun _ => hn _ _ _) ?_
      refine own_read (by simp [layersReads]) fun _ => own_write (by simp [layersWrites]) <|
        own_read (by simp [layersReads]) fun _ => own_write (by simp [layersWrites]) <|
        own_read (by simp [layersReads]) fun _ => own_write (by simp [layersWrites]) <|
        own_read (by simp [layersReads]) fun _ => own_write (by simp [layersWrites]) ?_
      split_ifs with h1
      · exact hn _ _ _
      · exact own_read (by simp [layersReads]) fun _ => ih (ns - (kNew + 1)) (by omega) _ _ _ rfl
      · exact ih (ns - (kNew + 1)) (by omega) _ _ _ rfl

theorem own_oldProg (slots ns : ℕ) (p : ι) (next : (ℕ → K) → Prog (Cell ι) K)
    (hn : ∀ en, Own layersReads layersWrites p (next en)) : ∀ (r k kNew : ℕ) (newTh : K) (en : ℕ → K),
    Own layersReads layersWrites p (oldProg slots ns p next r k kNew newTh en) := by
  intro r
  induction r with
  | zero => intro k kNew newTh en; exact hn en
  | succ r ih =>
    intro k kNew newTh en
    exact own_while slots ns p k _ (fun _ _ _ => ih _ _ _ _) _ _ _ _ rfl

theorem own_layersBody (minTh : List K) (n : ι → ℕ) (p : ι) : Own layersReads layersWrites p (layersBody minTh n p) := by
  have hclose : ∀ ns en, Own layersReads layersWrites p (closeProg (K := K) p ns en) := fun ns en =>
    own_write (by simp [layersWrites]) <| own_mapCol p _ (by simp [layersReads]) (by simp [layersWrites])
      (own_mapCol p _ (by simp [layersReads]) (by simp [layersWrites])
        (own_mapCol p _ (by simp [layersReads]) (by simp [layersWrites]) own_done _ _) _ _) _ _
  unfold layersBody
  refine own_write (by simp [layersWrites]) ?_
  refine own_mapCol p _ (by simp) (by simp [layersWrites]) ?_ _ _
  refine own_mapCol p _ (by simp) (by simp [layersWrites]) ?_ _ _
  refine own_mapCol p _ (by simp) (by simp [layersWrites]) ?_ _ _
  refine own_mapCol p _ (by simp) (by simp [layersWrites]) ?_ _ _
  refine own_mapCol p _ (by simp) (by simp [layersWrites]) ?_ _ _
  refine own_read (by simp [layersReads]) fun d => own_ite ?_ own_done
  refine own_read (by simp [layersReads]) fun new => own_thickProg p ?_ _ _ _
  refine own_mapCol p _ (by simp [layersReads]) (by simp [layersWrites]) ?_ _ _
  refine own_readAll' p _ _ (fun a ha => ?_) fun ths => own_read (by simp [layersReads]) fun th0 =>
    own_oldProg _ _ p _ (hclose _) _ _ _ _ _
  unfold slice at ha
  obtain ⟨k, -, rfl⟩ := List.mem_map.mp ha
  exact ⟨by simp [layersReads], rfl⟩

/-! ## The whole body -/

/-- Before the loop: `depth` is the sum of the thicknesses, and the copies have been made (`multilayermodel.py:573-577`). -/
def Copied (slots : ℕ) (m : Cell ι → K) (p : ι) : Prop :=
  m (.depth, 0, p) = ((List.range slots).map fun k => m (.thick, k, p)).sum ∧
  ∀ k < slots, m (.thickPrev, k, p) = m (.thick, k, p) ∧ m (.icePrev, k, p) = m (.ice, k, p) ∧
    m (.lwcPrev, k, p) = m (.lwc, k, p) ∧ m (.energyPrev, k, p) = m (.heatCap, k, p) * (m (.temp, k, p) - T0)

/-- The arrays cleared. -/
def Cleared (slots : ℕ) (p : ι) (m m' : Cell ι → K) : Prop :=
  (∀ k < slots, m' (.thick, k, p) = 0 ∧ m' (.ice, k, p) = 0 ∧ m' (.lwc, k, p) = 0 ∧ m' (.temp, k, p) = T0) ∧
  m' (.numLayers, 0, p) = 0 ∧
  ∀ arr k, arr ∈ [Arr.heatCap, .depth, .thickPrev, .icePrev, .lwcPrev, .energyPrev] → m' (arr, k, p) = m (arr, k, p)

theorem solo_layersBody_clear (minTh : List K) (n : ι → ℕ) (p : ι) (m : Cell ι → K) :
    ∃ m', Cleared minTh.length p m m' ∧ solo (layersBody minTh n p) m = solo
      (if 0 < m (.depth, 0, p) then
        thickProg p minTh 0 (m (.depth, 0, p)) <|
        mapCol .thick [.thick] (fun _ vs => if vs.getD 0 0 < 1 / 1000000 then 0 else vs.getD 0 0) p minTh.length 0 <|
        readAll (slice .thick minTh.length p) fun ths =>
          let ns := ths.countP fun t => decide (0 < t)
          .read (.thick, 0, p) fun th0 =>
            oldProg minTh.length ns p (closeProg p ns) (n p) 0 0 th0 fun _ => 0
      else .done) m' := by
  unfold layersBody
  rw [solo]
  simp only [solo_mapCol]
  obtain ⟨m', hm'⟩ : ∃ m', setCol .density (setCol .temp (setCol .lwc (setCol .ice (setCol .thick
      (Function.update m (.numLayers, 0, p) 0) p 0 ((List.range' 0 minTh.length).map fun _ => (0 : K)))
      p 0 ((List.range' 0 minTh.length).map fun _ => (0 : K))) p 0 ((List.range' 0 minTh.length).map fun _ => (0 : K)))
      p 0 ((List.range' 0 minTh.length).map fun _ => (T0 : K))) p 0 ((List.range' 0 minTh.length).map fun _ => (0 : K)) = m' :=
    ⟨_, rfl⟩
  have hdep : m' (.depth, 0, p) = m (.depth, 0, p) := by
    rw [← hm']; simp [setCol_apply, upd]
  refine ⟨m', ⟨fun k hk => ?_, ?_, fun arr k harr => ?_⟩, ?_⟩
  · rw [← hm']; simp [setCol_apply, hk, List.getD_eq_getElem?_getD]
  · rw [← hm']; simp [setCol_apply, upd]
  · rw [← hm']
    simp only [List.mem_cons, List.not_mem_nil, or_false] at harr
    rcases harr with rfl | rfl | rfl | rfl | rfl | rfl <;> simp [setCol_apply, upd]
  · rw [hm', solo, hdep]
    by_cases h : 0 < m (.depth, 0, p)
    · rw [if_pos h, if_pos h, solo, hdep]
    · rw [if_neg h, if_neg h]

/-- The memory after `closeProg`. -/
theorem solo_closeProg (slots : ℕ) (p : ι) (ns : ℕ) (hns : ns ≤ slots) (en : ℕ → K) (m : Cell ι → K) (cont : ℕ → K × K × K)
    (ths hc : ℕ → K) (h1 : Cont slots p m en cont) (h2 : ∀ k < slots, m (.thick, k, p) = ths k)
    (h3 : ∀ k < slots, m (.temp, k, p) = T0) (h4 : ∀ k < slots, m (.heatCap, k, p) = hc k) :
    solo (closeProg p ns en) m (.numLayers, 0, p) = (ns : K) ∧
    ∀ k < slots, layerAt (solo (closeProg p ns en) m) p k = newLayer ns ths cont (hc k) k := by
  unfold closeProg
  rw [solo]
  simp only [solo_mapCol, solo]
  refine ⟨?_, fun k hk => ?_⟩
  · simp [setCol_apply, upd]
  · obtain ⟨c1, c2, c3⟩ := h1 k hk
    unfold newLayer layerAt
    by_cases e : k < ns
    · simp [setCol_apply, upd, e, c1, c2, c3, h2 k hk, List.getD_eq_getElem?_getD]
    · simp [setCol_apply, upd, e, c1, c2, h2 k hk, h3 k hk, h4 k hk]

theorem solo_layersBody (minTh : List K) (n : ι → ℕ) (albedo : ι → Option K) (p : ι) (m : Cell ι → K)
    (hn : n p ≤ minTh.length) (hcop : Copied minTh.length m p) (q : Pixel K)
    (hq : updateLayers minTh (pixelAt minTh.length n albedo m p) = some q) :
    solo (layersBody minTh n p) m (.numLayers, 0, p) = (q.n : K) ∧
    (List.range minTh.length).map (layerAt (solo (layersBody minTh n p) m) p) = q.layers := by
  obtain ⟨m0, ⟨z1, z2, z3⟩, hs⟩ := solo_layersBody_clear minTh n p m
  obtain ⟨d1, d2⟩ := hcop
  have hd : depth (pixelAt minTh.length n albedo m p) = m (.depth, 0, p) := by
    rw [d1, depth, pixelAt, List.map_map]; rfl
  have hcap : ∀ k < minTh.length,
      (((pixelAt minTh.length n albedo m p).layers[k]?).map Layer.heatCap).getD 0 = m (.heatCap, k, p) := by
    intro k hk
    simp [pixelAt, hk, layerAt]
  rw [hs]
  unfold updateLayers at hq
  simp only [hd] at hq
  by_cases h0 : 0 < m (.depth, 0, p)
  · rw [if_pos h0] at hq
    rw [if_pos h0]
    obtain ⟨thl, hthl⟩ : ∃ thl, dropThin (newThickness (m (.depth, 0, p)) minTh) = thl := ⟨_, rfl⟩
    have hlen : thl.length = minTh.length := by rw [← hthl, dropThin, List.length_map, newThickness_length]
    rw [hthl] at hq
    obtain ⟨ns, hnsdef⟩ : ∃ ns, thl.countP (fun t => decide (0 < t)) = ns := ⟨_, rfl⟩
    have hns : ns ≤ minTh.length := by rw [← hnsdef, ← hlen]; exact List.countP_le_length
    rw [hnsdef] at hq
    rw [solo_thickProg p _ minTh 0 _ m0 fun j _ hj => (z1 j (by omega)).1, solo_mapCol, solo_readAll']
    -- memory with the new thicknesses
    obtain ⟨m1, hm1⟩ : ∃ m1, setCol .thick (setCol .thick m0 p 0 (newThickness (m (.depth, 0, p)) minTh)) p 0
      ((List.range' 0 minTh.length).map fun j =>
        (fun (_ : ℕ) (vs : List K) => if vs.getD 0 0 < 1 / 1000000 then 0 else vs.getD 0 0) j
          ([Arr.thick].map fun s => setCol .thick m0 p 0 (newThickness (m (.depth, 0, p)) minTh) (s, j, p))) = m1 := ⟨_, rfl⟩
    rw [hm1]
    have hcol : ∀ k < minTh.length, m1 (.thick, k, p) = thl.getD k 0 := by
      intro k hk
      have hk2 : k < (newThickness (m (.depth, 0, p)) minTh).length := by rw [newThickness_length]; exact hk
      rw [← hm1, ← hthl, dropThin]
      simp [setCol_apply, hk, hk2, List.getD_eq_getElem?_getD]
    have hoth : ∀ arr k, arr ≠ .thick → m1 (arr, k, p) = m0 (arr, k, p) := by
      intro arr k harr
      rw [← hm1, setCol_apply, if_neg fun h => harr h.1, setCol_apply, if_neg fun h => harr h.1]
    have hread : (slice Arr.thick minTh.length p).map m1 = thl := by
      unfold slice
      rw [List.map_map]
      apply List.ext_getElem
      · simp [hlen]
      · intro i i1 i2
        have hi : i < minTh.length := by simpa using i1
        simp [hcol i hi, i2, List.getD_eq_getElem?_getD]
    rw [hread]
    simp only [hnsdef, solo]
    have hne : 0 < minTh.length := by
      by_contra h
      have hz : minTh = [] := List.length_eq_zero_iff.mp (by omega)
      rw [hz] at d1
      simp only [List.length_nil, List.range_zero, List.map_nil, List.sum_nil] at d1
      rw [d1] at h0
      exact lt_irrefl _ h0
    rw [hcol 0 hne]
    cases hr : relayerLoop minTh.length ns (fun k => thl.getD k 0)
        (((pixelAt minTh.length n albedo m p).layers.take (pixelAt minTh.length n albedo m p).n).map toOld)
        ⟨0, thl.getD 0 0, fun _ => 0⟩ with
    | none => rw [hr] at hq; simp at hq
    | some a =>
      rw [hr] at hq
      simp only at hq
      rw [take_pixelAt _ n albedo m p hn, List.map_map] at hr
      obtain ⟨m2, en2, g1, g2, g3⟩ := solo_oldProg minTh.length ns hns (fun k => thl.getD k 0) p (closeProg p ns)
        (toOld ∘ layerAt m p) (n p) 0 ⟨0, thl.getD 0 0, fun _ => 0⟩ a m1 (fun _ => 0) hr
        (fun k hk => by rw [hoth _ _ (by simp), hoth _ _ (by simp)]; exact ⟨(z1 k hk).2.1, (z1 k hk).2.2.1, rfl⟩)
        (fun j _ hj => by
          obtain ⟨e1, e2, e3, e4⟩ := d2 j (by omega)
          refine ⟨?_, ?_, ?_, ?_⟩ <;> rw [hoth _ _ (by simp), z3 _ _ (by simp)]
          · exact e1
          · exact e2
          · exact e3
          · exact e4) hcol
      rw [g1]
      obtain ⟨k1, k2⟩ := solo_closeProg minTh.length p ns hns en2 m2 a.cont (fun k => thl.getD k 0)
        (fun k => m (.heatCap, k, p)) g2 (fun k hk => by rw [g3 _ _ (by simp), hcol k hk])
        (fun k hk => by rw [g3 _ _ (by simp), hoth _ _ (by simp)]; exact (z1 k hk).2.2.2)
        (fun k hk => by rw [g3 _ _ (by simp), hoth _ _ (by simp), z3 _ _ (by simp)])
      by_cases hz : ∀ k < ns, (a.cont k).1 * cIce + (a.cont k).2.1 * cWater ≠ 0
      · rw [if_pos hz] at hq
        simp only [Option.some.injEq] at hq
        subst hq
        refine ⟨k1, List.map_congr_left fun k hk => ?_⟩
        rw [List.mem_range] at hk
        rw [k2 k hk, hcap k hk]
      · rw [if_neg hz] at hq
        simp at hq
  · rw [if_neg h0] at hq
    rw [if_neg h0]
    simp only [Option.some.injEq] at hq
    subst hq
    refine ⟨by simp [solo, z2], List.map_congr_left fun k hk => ?_⟩
    rw [List.mem_range] at hk
    rw [hcap k hk]
    simp only [solo, layerAt, newLayer, z1 k hk, z3 .heatCap k (by simp), not_lt_zero, if_false]
    rfl

/-- **C136** (relayering). After every complete interleaving of `_update_layers` every pixel of the region of interest has the
number of layers and the layers of the per-pixel model, if that is defined in all of them, although the iterations share the
copies they consume; everything outside the region is unchanged. -/
theorem C136_layers (minTh : List K) (n : ι → ℕ) (albedo : ι → Option K) (roi : List ι) (hn : roi.Nodup)
    (hs : ∀ p ∈ roi, n p ≤ minTh.length) (m : Cell ι → K) (hcop : ∀ p ∈ roi, Copied minTh.length m p) (q : ι → Pixel K)
    (hq : ∀ p ∈ roi, updateLayers minTh (pixelAt minTh.length n albedo m p) = some (q p)) (sched : List ℕ)
    (he : Ended (exec sched ⟨m, loop roi (layersBody minTh n)⟩)) :
    let m' := (exec sched ⟨m, loop roi (layersBody minTh n)⟩).mem
    (∀ p ∈ roi, m' (.numLayers, 0, p) = ((q p).n : K) ∧ (List.range minTh.length).map (layerAt m' p) = (q p).layers) ∧
    (∀ p, p ∉ roi → ∀ arr k, m' (arr, k, p) = m (arr, k, p)) ∧
    ∀ arr, arr ∉ layersWrites → ∀ k p, m' (arr, k, p) = m (arr, k, p) := by
  obtain ⟨h1, h2⟩ := C136_roi layersReads layersWrites roi hn (layersBody minTh n) (fun p _ => own_layersBody minTh n p)
    m sched he
  refine ⟨fun p hp => ?_, h2⟩
  obtain ⟨g1, g2⟩ := solo_layersBody minTh n albedo p m (hs p hp) (hcop p hp) (q p) (hq p hp)
  refine ⟨by rw [h1 p hp, g1], ?_⟩
  rw [← g2]
  apply List.map_congr_left
  intro k _
  simp only [layerAt, h1 p hp]

/-! ## Example -/

/-- Two layers of 10 cm become one of 20 cm in both pixels, in an execution that changes to and fro between them. -/
example : ∃ sched, Ended (exec ([0, 1, 1, 0, 1] ++ sched) ⟨sampleMem, loop [3, 5] (layersBody [1 / 10, 1 / 5, 1] fun _ => 2)⟩) ∧
    ∀ p ∈ [3, 5], (exec ([0, 1, 1, 0, 1] ++ sched)
      ⟨sampleMem, loop [3, 5] (layersBody [1 / 10, 1 / 5, 1] fun _ => 2)⟩).mem (.ice, 0, p) = 40 := by
  obtain ⟨sched, h⟩ := C136_completes [3, 5] (layersBody (K := ℚ) [1 / 10, 1 / 5, 1] fun _ => 2) sampleMem [0, 1, 1, 0, 1]
  refine ⟨sched, h, fun p hp => ?_⟩
  have hq : ∀ p ∈ [3, 5], updateLayers [1 / 10, 1 / 5, 1] (pixelAt 3 (fun _ => 2) (fun _ => none) sampleMem p) =
      some ⟨1, [⟨1 / 5, 40, 0, 270, 84000⟩, ⟨0, 0, 0, 27315 / 100, 42000⟩, ⟨0, 0, 0, 27315 / 100, 0⟩], none⟩ := by
    intro p _
    have e : pixelAt 3 (fun _ => 2) (fun _ => none) sampleMem p =
        ⟨2, [⟨1 / 10, 20, 0, 270, 42000⟩, ⟨1 / 10, 20, 0, 270, 42000⟩, ⟨0, 0, 0, 270, 0⟩], none⟩ := by
      norm_num [pixelAt, layerAt, sampleMem, List.range_succ]
    rw [e]
    norm_num [updateLayers, depth, newThickness, dropThin, relayerLoop, toOld, List.countP_cons]
    rw [relayerOld]
    norm_num [weight]
    rw [relayerOld]
    norm_num [weight, newLayer, cIce, cWater, T0, List.range_succ]
  have := (C136_layers [1 / 10, 1 / 5, 1] (fun _ => 2) (fun _ => none) [3, 5] (by decide) (by decide) sampleMem
    (by
      intro p _
      refine ⟨by norm_num [sampleMem, List.range_succ], fun k _ => ?_⟩
      by_cases e : k < 2 <;> norm_num [sampleMem, e, T0]) _ hq _ h).1 p hp
  have := congrArg (fun x => x.map Layer.ice) this.2
  simp [layerAt, List.range_succ] at this
  simpa using this.1

end Verif.Parallel
