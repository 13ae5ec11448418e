import Verif.Model.DataFlow
import Mathlib.Data.Nat.Bitwise

/-! # Taint analysis of the data flow of a time step (helper for C102) -/

namespace Verif.DataFlow

variable {V α : Type*} [DecidableEq V]

/-- Variables that may differ after a module if those of `T` may differ before. -/
def taintStep (T : List V) (a : Act V) : List V :=
  if a.reads.any (· ∈ T) then a.writes ++ a.cond ++ T else T.filter (· ∉ a.writes)

/-- Variables that may differ after all modules. -/
def taint (T : List V) (as : List (Act V)) : List V := as.foldl taintStep T

/-- Two states agree outside `T`. -/
def Agree (T : List V) (s s' : State V α) : Prop := ∀ v, v ∉ T → s v = s' v

omit [DecidableEq V] in
private lemma agree_mono {T T' : List V} {s s' : State V α} (h : Agree T s s') (hT : ∀ v ∈ T, v ∈ T') :
    Agree T' s s' := fun v hv => h v fun hm => hv (hT v hm)

lemma taintStep_sound {T : List V} {a : Act V} {f : State V α → State V α} (hf : Respects a f)
    {s s' : State V α} (h : Agree T s s') : Agree (taintStep T a) (f s) (f s') := by
  intro v hv
  unfold taintStep at hv
  by_cases hr : a.reads.any (· ∈ T) = true
  · rw [if_pos hr] at hv
    simp only [List.mem_append, not_or] at hv
    rw [hf.1 s v hv.1.1 hv.1.2, hf.1 s' v hv.1.1 hv.1.2]
    exact h v hv.2
  · rw [if_neg hr] at hv
    simp only [List.any_eq_true, decide_eq_true_eq, not_exists, not_and] at hr
    have hreads : ∀ w ∈ a.reads, s w = s' w := fun w hw => h w (hr w hw)
    obtain ⟨h1, h2⟩ := hf.2 s s' hreads
    by_cases hw : v ∈ a.writes
    · exact h1 v hw
    · have hvT : v ∉ T := fun hm => hv (by simp [List.mem_filter, hm, hw])
      by_cases hc : v ∈ a.cond
      · exact h2 v hc (h v hvT)
      · rw [hf.1 s v hw hc, hf.1 s' v hw hc]
        exact h v hvT

lemma taint_sound {as : List (Act V)} {fs : List (State V α → State V α)}
    (hf : List.Forall₂ Respects as fs) : ∀ {T : List V} {s s' : State V α}, Agree T s s' →
    Agree (taint T as) (step fs s) (step fs s') := by
  induction hf with
  | nil => intro T s s' h; exact h
  | cons h1 _ ih => intro T s s' h; exact ih (taintStep_sound h1 h)

/-- Variables that no module sets keep their values. -/
lemma step_frame {as : List (Act V)} {fs : List (State V α → State V α)}
    (hf : List.Forall₂ Respects as fs) (v : V) (hv : ∀ a ∈ as, v ∉ a.writes ∧ v ∉ a.cond) :
    ∀ s : State V α, step fs s v = s v := by
  induction hf with
  | nil => intro s; rfl
  | cons h1 _ ih =>
    intro s
    have := ih (fun a ha => hv a (List.mem_cons_of_mem _ ha))
    rw [show step _ s = step _ _ from rfl]
    erw [this]
    exact h1.1 s v (hv _ List.mem_cons_self).1 (hv _ List.mem_cons_self).2

/-- Soundness: as long as no retained variable is tainted at the end of a time step, resetting changes at most
the tainted variables. -/
lemma run_agree {retain : V → Bool} {missing : V → α} {acts : ℕ → List (Act V)}
    {sem : ℕ → List (State V α → State V α)} (hsem : ∀ n, List.Forall₂ Respects (acts n) (sem n))
    {s0 : State V α} {T0 : List V} (hT0 : ∀ v, retain v = false → v ∉ T0 →
      s0 v = missing v ∧ ∀ n, ∀ a ∈ acts n, v ∉ a.writes ∧ v ∉ a.cond) (n : ℕ)
    (hT : ∀ m < n, ∀ v ∈ taint T0 (acts m), retain v = false) :
    Agree (taint T0 (acts n)) (run true retain missing sem s0 (n + 1))
      (run false retain missing sem s0 (n + 1)) := by
  have hconst : ∀ m v, retain v = false → v ∉ T0 → run false retain missing sem s0 m v = missing v := by
    intro m v hr hv
    induction m with
    | zero => exact (hT0 v hr hv).1
    | succ m ih =>
      have := step_frame (hsem m) v ((hT0 v hr hv).2 m) (run false retain missing sem s0 m)
      simp only [run, Bool.false_eq_true, if_false]
      rw [this, ih]
  have key : ∀ m, (∀ v, retain v = true → run true retain missing sem s0 m v =
      run false retain missing sem s0 m v) →
      Agree (taint T0 (acts m)) (run true retain missing sem s0 (m + 1))
        (run false retain missing sem s0 (m + 1)) := by
    intro m hm
    simp only [run, Bool.false_eq_true, if_false, if_true]
    refine taint_sound (hsem m) ?_
    intro v hv
    by_cases hr : retain v = true
    · simp only [reset, hr, if_true]
      exact hm v hr
    · simp only [Bool.not_eq_true] at hr
      simp only [reset, hr, Bool.false_eq_true, if_false]
      rw [hconst m v hr hv]
  have hret : ∀ m ≤ n, ∀ v, retain v = true → run true retain missing sem s0 m v =
      run false retain missing sem s0 m v := by
    intro m
    induction m with
    | zero => intro _ v _; rfl
    | succ m ih =>
      intro hm v hr
      exact key m (ih (by omega)) v fun h => by simp [hT m (by omega) v h] at hr
  exact key n (hret n (Nat.le_refl n))

/-! ## Sets of variables as numbers -/

/-- The set of the variables of a list as a binary number. -/
def mask (idx : V → ℕ) : List V → ℕ
  | [] => 0
  | v :: l => 2 ^ idx v ||| mask idx l

omit [DecidableEq V] in
lemma testBit_mask (idx : V → ℕ) (l : List V) (i : ℕ) :
    (mask idx l).testBit i = true ↔ ∃ v ∈ l, idx v = i := by
  induction l with
  | nil => simp [mask]
  | cons v l ih => simp [mask, ih, Nat.testBit_two_pow]

/-- `taintStep` for sets as numbers. -/
def taintStepM (idx : V → ℕ) (m : ℕ) (a : Act V) : ℕ :=
  if m &&& mask idx a.reads = 0 then m ^^^ (m &&& mask idx a.writes)
  else m ||| (mask idx a.writes ||| mask idx a.cond)

lemma mask_taintStep {idx : V → ℕ} (hi : Function.Injective idx) (T : List V) (a : Act V) :
    mask idx (taintStep T a) = taintStepM idx (mask idx T) a := by
  have hand : mask idx T &&& mask idx a.reads = 0 ↔ ¬ a.reads.any (· ∈ T) = true := by
    constructor
    · intro h hr
      simp only [List.any_eq_true, decide_eq_true_eq] at hr
      obtain ⟨w, h1, h2⟩ := hr
      have := Nat.testBit_and (mask idx T) (mask idx a.reads) (idx w)
      rw [h, (testBit_mask idx T _).2 ⟨w, h2, rfl⟩, (testBit_mask idx a.reads _).2 ⟨w, h1, rfl⟩] at this
      simp at this
    · intro hr
      apply Nat.eq_of_testBit_eq
      intro i
      rw [Nat.zero_testBit, Bool.eq_false_iff]
      intro h
      rw [Nat.testBit_and, Bool.and_eq_true, testBit_mask, testBit_mask] at h
      obtain ⟨⟨v, h1, rfl⟩, w, h2, h3⟩ := h
      rw [hi h3] at h2
      exact hr (by simp only [List.any_eq_true, decide_eq_true_eq]; exact ⟨v, h2, h1⟩)
  apply Nat.eq_of_testBit_eq
  intro i
  rw [Bool.eq_iff_iff]
  unfold taintStep taintStepM
  by_cases hr : a.reads.any (· ∈ T) = true
  · rw [if_pos hr, if_neg fun h => (hand.1 h) hr, testBit_mask, Nat.testBit_or, Nat.testBit_or]
    simp only [Bool.or_eq_true, testBit_mask, List.mem_append]
    constructor
    · rintro ⟨v, (h | h) | h, rfl⟩
      · exact Or.inr (Or.inl ⟨v, h, rfl⟩)
      · exact Or.inr (Or.inr ⟨v, h, rfl⟩)
      · exact Or.inl ⟨v, h, rfl⟩
    · rintro (⟨v, h, rfl⟩ | ⟨v, h, rfl⟩ | ⟨v, h, rfl⟩)
      · exact ⟨v, Or.inr h, rfl⟩
      · exact ⟨v, Or.inl (Or.inl h), rfl⟩
      · exact ⟨v, Or.inl (Or.inr h), rfl⟩
  · rw [if_neg hr, if_pos (hand.2 hr), testBit_mask, Nat.testBit_xor, Nat.testBit_and]
    have e1 := testBit_mask idx T i
    have e2 := testBit_mask idx a.writes i
    constructor
    · rintro ⟨v, h, rfl⟩
      simp only [List.mem_filter, decide_eq_true_eq] at h
      have hW : (mask idx a.writes).testBit (idx v) = false := by
        rw [Bool.eq_false_iff]
        intro h'
        obtain ⟨w, h3, h4⟩ := e2.1 h'
        rw [hi h4] at h3
        exact h.2 h3
      rw [e1.2 ⟨v, h.1, rfl⟩, hW]
      rfl
    · intro h
      cases hT : (mask idx T).testBit i with
      | false => simp [hT] at h
      | true =>
        cases hW : (mask idx a.writes).testBit i with
        | true => simp [hT, hW] at h
        | false =>
          obtain ⟨v, h1, rfl⟩ := e1.1 hT
          refine ⟨v, ?_, rfl⟩
          simp only [List.mem_filter, decide_eq_true_eq]
          refine ⟨h1, fun hw => ?_⟩
          rw [e2.2 ⟨v, hw, rfl⟩] at hW
          cases hW

/-- `taint` for sets as numbers. -/
def taintM (idx : V → ℕ) : ℕ → List (Act V) → ℕ
  | m, [] => m
  | m, a :: as => taintM idx (taintStepM idx m a) as

lemma mask_taint {idx : V → ℕ} (hi : Function.Injective idx) (as : List (Act V)) (T : List V) :
    mask idx (taint T as) = taintM idx (mask idx T) as := by
  induction as generalizing T with
  | nil => rfl
  | cons a as ih =>
    rw [taintM, ← mask_taintStep hi]
    exact ih _

/-- If the number has no bit but that of `w`, the list contains nothing but `w`. -/
lemma taint_only {idx : V → ℕ} (hi : Function.Injective idx) {T : List V} {as : List (Act V)} {w : V}
    (h : taintM idx (mask idx T) as ||| 2 ^ idx w = 2 ^ idx w) : ∀ v ∈ taint T as, v = w := by
  intro v hv
  have h1 : (mask idx (taint T as)).testBit (idx v) = true := (testBit_mask _ _ _).2 ⟨v, hv, rfl⟩
  rw [mask_taint hi] at h1
  have h2 := congrArg (fun n => n.testBit (idx v)) h
  simp only [Nat.testBit_or, h1, Bool.true_or, Nat.testBit_two_pow] at h2
  exact (hi (of_decide_eq_true h2.symm)).symm

end Verif.DataFlow
