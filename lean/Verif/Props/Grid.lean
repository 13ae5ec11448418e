import Verif.Model.Grid
import Mathlib.Data.List.Count
import Mathlib.Data.List.Nodup
import Mathlib.Data.List.Induction
import Mathlib.Tactic.Common

/-!
# C05, C08: masks and parallel loops
-/

namespace Verif.Grid

/-! ## C05 -/

/-- Specification: the number of selected cells before cell `j`. -/
def rank (sel : List Bool) (j : ℕ) : ℕ := (sel.take j).count true

theorem flatnonzero_length (off : ℕ) (sel : List Bool) :
    (flatnonzero off sel).length = sel.count true := by
  induction sel generalizing off with
  | nil => rfl
  | cons b bs ih => cases b <;> simp [flatnonzero, ih]

/-- The flat ROI indices are the selected cells, in increasing order. -/
theorem C05_roi_indices (sel : List Bool) :
    (flatnonzero 0 sel).Pairwise (· < ·) ∧
    (∀ j, j ∈ flatnonzero 0 sel ↔ sel[j]? = some true) ∧
    ∀ i j, (flatnonzero 0 sel)[i]? = some j ↔ sel[j]? = some true ∧ rank sel j = i := by
  have gen : ∀ (off : ℕ) (sel : List Bool),
      (flatnonzero off sel).Pairwise (· < ·) ∧
      (∀ j ∈ flatnonzero off sel, off ≤ j) ∧
      ∀ i j, (flatnonzero off sel)[i]? = some (off + j) ↔
        sel[j]? = some true ∧ (sel.take j).count true = i := by
    intro off sel
    induction sel generalizing off with
    | nil => simp [flatnonzero]
    | cons b bs ih =>
      obtain ⟨h1, h2, h3⟩ := ih (off + 1)
      have h3' : ∀ i j, (flatnonzero (off + 1) bs)[i]? = some (off + (j + 1)) ↔
          bs[j]? = some true ∧ (bs.take j).count true = i := by
        intro i j
        rw [← h3 i j]; rw [show off + (j + 1) = off + 1 + j by omega]
      cases b with
      | true =>
        refine ⟨List.pairwise_cons.mpr ⟨fun j hj => by have := h2 j hj; omega, h1⟩, ?_, ?_⟩
        · intro j hj
          rcases List.mem_cons.mp hj with h | h
          · omega
          · have := h2 j h; omega
        · intro i j
          cases j with
          | zero =>
            cases i with
            | zero => simp [flatnonzero]
            | succ i =>
              simp only [flatnonzero, List.getElem?_cons_succ, List.take_zero, List.count_nil]
              constructor
              · intro h
                have := h2 _ (List.mem_of_getElem? h)
                omega
              · rintro ⟨-, h⟩; omega
          | succ j =>
            cases i with
            | zero =>
              simp only [flatnonzero, List.getElem?_cons_zero, List.take_succ_cons,
                List.count_cons_self]
              constructor
              · intro h; simp at h
              · rintro ⟨-, h⟩; omega
            | succ i =>
              simp only [flatnonzero, List.getElem?_cons_succ, List.take_succ_cons,
                List.count_cons_self, Nat.add_right_cancel_iff]
              exact h3' i j
      | false =>
        refine ⟨h1, fun j hj => by have := h2 j hj; omega, ?_⟩
        intro i j
        cases j with
        | zero =>
          simp only [flatnonzero]
          constructor
          · intro h
            have := h2 _ (List.mem_of_getElem? h)
            omega
          · rintro ⟨h, -⟩; simp at h
        | succ j =>
          simp only [flatnonzero, List.getElem?_cons_succ, List.take_succ_cons]
          rw [h3' i j, List.count_cons_of_ne (by simp)]
  obtain ⟨h1, -, h3⟩ := gen 0 sel
  have h3' : ∀ i j, (flatnonzero 0 sel)[i]? = some j ↔ sel[j]? = some true ∧ rank sel j = i := by
    intro i j
    have := h3 i j
    rw [Nat.zero_add] at this
    exact this
  refine ⟨h1, fun j => ?_, h3'⟩
  constructor
  · intro h
    obtain ⟨i, hi⟩ := List.mem_iff_getElem?.mp h
    exact ((h3' i j).mp hi).1
  · intro h
    exact List.mem_iff_getElem?.mpr ⟨_, (h3' _ j).mpr ⟨h, rfl⟩⟩

theorem foldl_set_length (js : List ℕ) (g : List Bool) :
    (js.foldl (fun g i => g.set i true) g).length = g.length := by
  induction js generalizing g with
  | nil => rfl
  | cons j js ih => simp [ih]

theorem foldl_set_get (js : List ℕ) (g : List Bool) (j : ℕ) (hj : j < g.length) :
    (js.foldl (fun g i => g.set i true) g)[j]? = some true ↔ j ∈ js ∨ g[j]? = some true := by
  induction js generalizing g with
  | nil => simp
  | cons a js ih =>
    rw [List.foldl_cons, ih _ (by simpa using hj), List.mem_cons, List.getElem?_set]
    by_cases h : a = j
    · subst h; simp [hj]
    · simp only [h, if_false]
      have : j ≠ a := fun e => h e.symm
      simp [this]

theorem mem_select {α : Type*} (xs : List α) (bs : List Bool) (x : α) :
    x ∈ select xs bs ↔ ∃ i : ℕ, xs[i]? = some x ∧ bs[i]? = some true := by
  induction xs generalizing bs with
  | nil => cases bs <;> simp [select]
  | cons a xs ih =>
    cases bs with
    | nil => simp [select]
    | cons b bs =>
      cases b with
      | true =>
        simp only [select, List.mem_cons, ih]
        constructor
        · rintro (rfl | ⟨i, h1, h2⟩)
          · exact ⟨0, rfl, rfl⟩
          · exact ⟨i + 1, h1, h2⟩
        · rintro ⟨i, h1, h2⟩
          cases i with
          | zero => left; simpa using h1.symm
          | succ i => right; exact ⟨i, h1, h2⟩
      | false =>
        simp only [select, ih]
        constructor
        · rintro ⟨i, h1, h2⟩; exact ⟨i + 1, h1, h2⟩
        · rintro ⟨i, h1, h2⟩
          cases i with
          | zero => simp at h2
          | succ i => exact ⟨i, h1, h2⟩

/-- **C05.** The global mask is true exactly at the selected cells whose position among the selected
cells is true in the local mask; it has the size of the grid; a mask of the wrong length is
rejected. -/
theorem C05_global_mask (sel mask : List Bool) :
    (globalMask sel.length (flatnonzero 0 sel) mask = none ↔ mask.length ≠ sel.count true) ∧
    ∀ g, globalMask sel.length (flatnonzero 0 sel) mask = some g →
      g.length = sel.length ∧
      ∀ j, g[j]? = some true ↔ sel[j]? = some true ∧ mask[rank sel j]? = some true := by
  obtain ⟨h1, h2, h3⟩ := C05_roi_indices sel
  constructor
  · unfold globalMask
    rw [flatnonzero_length]
    split_ifs with h <;> simp [h]
  · intro g hg
    unfold globalMask at hg
    split_ifs at hg with h
    rw [Option.some.injEq] at hg
    have hlen : g.length = sel.length := by rw [← hg, foldl_set_length, List.length_replicate]
    refine ⟨hlen, fun j => ?_⟩
    by_cases hj : j < sel.length
    · rw [← hg, foldl_set_get _ _ _ (by simpa using hj), mem_select]
      constructor
      · rintro (⟨i, a, b⟩ | hrep)
        · obtain ⟨c, d⟩ := (h3 i j).mp a
          exact ⟨c, by rw [d]; exact b⟩
        · simp [List.getElem?_replicate, hj] at hrep
      · rintro ⟨a, b⟩
        exact Or.inl ⟨rank sel j, (h3 _ j).mpr ⟨a, rfl⟩, b⟩
    · have a : g[j]? = none := List.getElem?_eq_none (by omega)
      have b : sel[j]? = none := List.getElem?_eq_none (by omega)
      simp [a, b]

/-- **C05.** Reading the global mask back on the selected cells gives the local mask. -/
theorem C05_round_trip (sel mask g : List Bool)
    (hg : globalMask sel.length (flatnonzero 0 sel) mask = some g) : select g sel = mask := by
  have hl : mask.length = sel.count true := by
    by_contra h
    rw [((C05_global_mask sel mask).1).mpr h] at hg
    cases hg
  obtain ⟨hlen, hj⟩ := (C05_global_mask sel mask).2 g hg
  have gen : ∀ (sel g mask : List Bool), g.length = sel.length → mask.length = sel.count true →
      (∀ j, sel[j]? = some true → (g[j]? = some true ↔ mask[(sel.take j).count true]? = some true)) →
      select g sel = mask := by
    intro sel
    induction sel with
    | nil =>
      intro g mask h1 h2 _
      have : mask = [] := List.length_eq_zero_iff.mp (by simpa using h2)
      rw [this]; cases g <;> rfl
    | cons b bs ih =>
      intro g mask h1 h2 h3
      cases g with
      | nil => simp at h1
      | cons x xs =>
        cases b with
        | false =>
          simp only [select]
          apply ih xs mask (by simpa using h1) (by simpa using h2)
          intro j hj
          have := h3 (j + 1) (by simpa using hj)
          simpa using this
        | true =>
          cases mask with
          | nil => simp at h2
          | cons m ms =>
            simp only [select]
            have h0 := h3 0 (by simp)
            have hx : x = m := by
              simp at h0
              cases x <;> cases m <;> simp_all
            rw [hx]
            congr 1
            apply ih xs ms (by simpa using h1) (by simpa using h2)
            intro j hj
            have := h3 (j + 1) (by simpa using hj)
            simpa using this
  exact gen sel g mask hlen hl fun j hs => by
    rw [hj j]; simp [hs, rank]

/-- **C05.** Stacked masks are scattered layer by layer, under the same size check. -/
theorem C05_stacked (sel : List Bool) (masks gs : List (List Bool))
    (h : globalMask2 sel.length (flatnonzero 0 sel) masks = some gs) :
    gs.length = masks.length ∧ ∀ (k : ℕ) (m g : List Bool), masks[k]? = some m → gs[k]? = some g →
      select g sel = m ∧ ∀ j : ℕ, sel[j]? ≠ some true → g[j]? ≠ some true := by
  unfold globalMask2 at h
  induction masks generalizing gs with
  | nil =>
    simp at h
    subst h
    simp
  | cons m ms ih =>
    rw [List.mapM_cons] at h
    cases hm : globalMask sel.length (flatnonzero 0 sel) m with
    | none => rw [hm] at h; simp at h
    | some g0 =>
      rw [hm] at h
      cases hms : List.mapM (globalMask sel.length (flatnonzero 0 sel)) ms with
      | none => rw [hms] at h; simp at h
      | some gs0 =>
        rw [hms] at h
        simp at h
        subst h
        obtain ⟨h1, h2⟩ := ih gs0 hms
        refine ⟨by simp [h1], ?_⟩
        intro k m' g' hk hg
        cases k with
        | zero =>
          simp at hk hg
          subst hk; subst hg
          refine ⟨C05_round_trip sel _ _ hm, fun j hj hg => ?_⟩
          exact hj (((C05_global_mask sel m).2 _ hm).2 j |>.mp hg).1
        | succ k => exact h2 k m' g' (by simpa using hk) (by simpa using hg)

example : globalMask 6 (flatnonzero 0 [false, true, true, false, true, false]) [true, false, true]
    = some [false, true, false, false, true, false] := by decide

/-! ## C08 -/

variable {ι S : Type*} [DecidableEq ι]

/-- Specification: pixel `i` run alone for at most `n` atomic steps. -/
def alone (k : Kernel ι S) (i : ι) : ℕ → S → S
  | 0, s => s
  | n + 1, s =>
    match k.step i s with
    | none => s
    | some s' => alone k i n s'

theorem alone_succ (k : Kernel ι S) (i : ι) (n : ℕ) (s : S) :
    alone k i (n + 1) s = match k.step i (alone k i n s) with
      | none => alone k i n s
      | some s' => s' := by
  induction n generalizing s with
  | zero =>
    simp only [alone]
  | succ n ih =>
    cases h : k.step i s with
    | none => simp [alone, h]
    | some s' =>
      have e1 : alone k i (n + 1 + 1) s = alone k i (n + 1) s' := by
        rw [alone]; simp [h]
      have e2 : alone k i (n + 1) s = alone k i n s' := by
        rw [alone]; simp [h]
      rw [e1, e2, ih s']

theorem alone_none (k : Kernel ι S) (i : ι) (s : S) (h : k.step i s = none) (n : ℕ) :
    alone k i n s = s := by cases n <;> simp [alone, h]

/-- **C08.** Under any schedule — any interleaving of the pixels' atomic steps — every pixel's memory
is what the pixel computes alone in as many steps as it was given; it does not depend on the
other pixels or on the order. -/
theorem C08_interleaving (k : Kernel ι S) (sched : List ι) (g : ι → S) (i : ι) :
    k.exec sched g i = alone k i (sched.count i) (g i) := by
  unfold Kernel.exec
  induction sched using List.reverseRecOn with
  | nil => rfl
  | append_singleton js j ih =>
    rw [List.foldl_append, List.foldl_cons, List.foldl_nil, List.count_append]
    by_cases h : j = i
    · subst h
      rw [List.count_singleton_self, alone_succ, ← ih]
      rw [Kernel.tick]
      cases hs : k.step j (List.foldl k.tick g js j) with
      | none => rfl
      | some s => simp
    · have h0 : List.count i [j] = 0 := by
        rw [List.count_singleton]; simp [h]
      rw [h0, Nat.add_zero, ← ih]
      rw [Kernel.tick]
      cases k.step j (List.foldl k.tick g js j) with
      | none => rfl
      | some s => exact Function.update_of_ne (fun e => h e.symm) _ _

/-- Specification: pixel `i`, started in `s`, halts in `s'`. -/
def HaltsIn (k : Kernel ι S) (i : ι) (s s' : S) : Prop :=
  ∃ n, alone k i n s = s' ∧ k.step i s' = none

theorem HaltsIn.unique {k : Kernel ι S} {i : ι} {s a b : S} (ha : HaltsIn k i s a)
    (hb : HaltsIn k i s b) : a = b := by
  have add : ∀ (n m : ℕ) (s : S), alone k i (n + m) s = alone k i m (alone k i n s) := by
    intro n
    induction n with
    | zero => intro m s; simp [alone]
    | succ n ih =>
      intro m s
      rw [show n + 1 + m = (n + m) + 1 by omega]
      simp only [alone]
      cases h : k.step i s with
      | none => simp [alone_none k i s h]
      | some s' => exact ih m s'
  obtain ⟨n, h1, h2⟩ := ha
  obtain ⟨m, h3, h4⟩ := hb
  rcases Nat.le_total n m with h | h
  · obtain ⟨d, rfl⟩ := Nat.exists_eq_add_of_le h
    rw [add, h1, alone_none k i a h2] at h3
    exact h3
  · obtain ⟨d, rfl⟩ := Nat.exists_eq_add_of_le h
    rw [add, h3, alone_none k i b h4] at h1
    exact h1.symm

/-- **C08.** Every complete schedule over the ROI (only ROI pixels are scheduled, all of them have
finished) gives the same grid: each ROI pixel ends with the result of its own body, every other
pixel is unchanged. -/
theorem C08_schedule_independent (k : Kernel ι S) (roi : List ι) (f : ι → S → S)
    (hf : ∀ i ∈ roi, ∀ s, HaltsIn k i s (f i s)) (sched : List ι) (g : ι → S)
    (hsub : ∀ i ∈ sched, i ∈ roi)
    (hdone : ∀ i ∈ roi, k.step i (k.exec sched g i) = none) :
    (∀ i ∈ roi, k.exec sched g i = f i (g i)) ∧ (∀ i, i ∉ roi → k.exec sched g i = g i) := by
  constructor
  · intro i hi
    exact HaltsIn.unique ⟨sched.count i, (C08_interleaving k sched g i).symm, hdone i hi⟩
      (hf i hi (g i))
  · intro i hi
    rw [C08_interleaving, List.count_eq_zero.mpr (fun h => hi (hsub i h))]
    rfl

/-- **C08.** Two complete schedules give the same grid. -/
theorem C08_two_schedules (k : Kernel ι S) (roi : List ι) (s₁ s₂ : List ι) (g : ι → S)
    (h₁ : ∀ i ∈ s₁, i ∈ roi) (h₂ : ∀ i ∈ s₂, i ∈ roi)
    (d₁ : ∀ i ∈ roi, k.step i (k.exec s₁ g i) = none)
    (d₂ : ∀ i ∈ roi, k.step i (k.exec s₂ g i) = none) : k.exec s₁ g = k.exec s₂ g := by
  funext i
  by_cases hi : i ∈ roi
  · exact HaltsIn.unique ⟨_, (C08_interleaving k s₁ g i).symm, d₁ i hi⟩
      ⟨_, (C08_interleaving k s₂ g i).symm, d₂ i hi⟩
  · rw [C08_interleaving, C08_interleaving, List.count_eq_zero.mpr (fun h => hi (h₁ i h)),
      List.count_eq_zero.mpr (fun h => hi (h₂ i h))]

/-- Specification: the sequential loop over a list of pixels with bodies `f`. -/
def sequential (f : ι → S → S) (roi : List ι) (g : ι → S) : ι → S :=
  roi.foldl (fun g i => Function.update g i (f i (g i))) g

/-- **C08.** A complete parallel execution equals the sequential loop over the ROI indices. -/
theorem C08_equals_sequential (k : Kernel ι S) (roi : List ι) (hnd : roi.Nodup) (f : ι → S → S)
    (hf : ∀ i ∈ roi, ∀ s, HaltsIn k i s (f i s)) (sched : List ι) (g : ι → S)
    (hsub : ∀ i ∈ sched, i ∈ roi)
    (hdone : ∀ i ∈ roi, k.step i (k.exec sched g i) = none) :
    k.exec sched g = sequential f roi g := by
  obtain ⟨h1, h2⟩ := C08_schedule_independent k roi f hf sched g hsub hdone
  have seq : ∀ (roi : List ι), roi.Nodup → ∀ (g : ι → S) (i : ι),
      sequential f roi g i = if i ∈ roi then f i (g i) else g i := by
    intro roi
    induction roi with
    | nil => intro _ g i; simp [sequential]
    | cons j js ih =>
      intro hn g i
      obtain ⟨hj, hn'⟩ := List.nodup_cons.mp hn
      have : sequential f (j :: js) g = sequential f js (Function.update g j (f j (g j))) := rfl
      rw [this, ih hn']
      by_cases hij : i = j
      · subst hij; simp [hj]
      · simp [hij, Function.update_of_ne hij]
  funext i
  rw [seq roi hnd g i]
  split_ifs with h
  · exact h1 i h
  · exact h2 i h

/-- **C08.** The flat ROI indices name no pixel twice, so the bodies are run once per pixel. -/
theorem C08_roi_nodup (sel : List Bool) : (flatnonzero 0 sel).Nodup :=
  (C05_roi_indices sel).1.imp (fun h => Nat.ne_of_lt h)

/-- Two-step bodies (add one, then double) on two pixels: the interleaved schedule 0,1,0,1 is
complete and gives `f`. -/
example : ∃ (k : Kernel ℕ (ℕ × ℕ)),
    (∀ i ∈ [0, 1], k.step i (k.exec [0, 1, 0, 1] (fun _ => (0, 3)) i) = none) ∧
    k.exec [0, 1, 0, 1] (fun _ => (0, 3)) 1 = (2, 8) :=
  ⟨{ step := fun _ s => if s.1 = 0 then some (1, s.2 + 1) else if s.1 = 1 then some (2, s.2 * 2)
      else none }, by decide⟩

end Verif.Grid
