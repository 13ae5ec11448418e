import Verif.Model.Run
import Mathlib.Tactic.Common

/-!
# C01, C02: run lifecycle and thread count
-/

namespace Verif.Run

/-- Specification: the dates started so far are exactly the first `k` dates in order. -/
def Prefix (e : Env) (s : State) (k : ℕ) : Prop := s.started = List.range k ∧ k ≤ e.n

/-- Internal link between `date_idx` and the dates started. -/
def Linked (e : Env) (s : State) : Prop :=
  match s.idx with
  | none => s.started = []
  | some i => s.started = List.range (min (i + 1) e.n)

theorem Linked.prefix {e : Env} {s : State} (h : Linked e s) : ∃ k, Prefix e s k := by
  unfold Linked at h
  cases hi : s.idx with
  | none => rw [hi] at h; exact ⟨0, by simpa using h, Nat.zero_le _⟩
  | some i => rw [hi] at h; exact ⟨_, h, Nat.min_le_right _ _⟩

theorem runSingle_cases (e : Env) (s : State) :
    ((∃ i, s.idx = some i ∧ i + 1 = e.n) ∧ (runSingle e s).1 = .finished ∧
      (runSingle e s).2.idx = s.idx ∧ (runSingle e s).2.started = s.started ∧
      (runSingle e s).2.completed = s.completed ∧
      (runSingle e s).2.procThreads = e.threads.getD s.procThreads) ∨
    (∃ i, (s.idx = none ∧ i = 0 ∨ ∃ j, s.idx = some j ∧ i = j + 1 ∧ j + 1 ≠ e.n) ∧
      (runSingle e s).2.idx = some i ∧
      (i < e.n ∧ e.bodyOk i = true ∧ (runSingle e s).1 = .ok ∧
          (runSingle e s).2.started = s.started ++ [i] ∧
          (runSingle e s).2.completed = s.completed ++ [i] ∧
          (runSingle e s).2.procThreads = s.procThreads ∨
       i < e.n ∧ e.bodyOk i = false ∧ (runSingle e s).1 = .stepError ∧
          (runSingle e s).2.started = s.started ++ [i] ∧
          (runSingle e s).2.completed = s.completed ∧
          (runSingle e s).2.procThreads = e.threads.getD s.procThreads ∨
       e.n ≤ i ∧ (runSingle e s).1 = .indexError ∧ (runSingle e s).2.started = s.started ∧
          (runSingle e s).2.completed = s.completed ∧
          (runSingle e s).2.procThreads = e.threads.getD s.procThreads)) := by
  have key : ∀ i : ℕ, nextIdx e.n s.idx = some i →
      (runSingle e s).2.idx = some i ∧
      (i < e.n ∧ e.bodyOk i = true ∧ (runSingle e s).1 = .ok ∧
          (runSingle e s).2.started = s.started ++ [i] ∧
          (runSingle e s).2.completed = s.completed ++ [i] ∧
          (runSingle e s).2.procThreads = s.procThreads ∨
       i < e.n ∧ e.bodyOk i = false ∧ (runSingle e s).1 = .stepError ∧
          (runSingle e s).2.started = s.started ++ [i] ∧
          (runSingle e s).2.completed = s.completed ∧
          (runSingle e s).2.procThreads = e.threads.getD s.procThreads ∨
       e.n ≤ i ∧ (runSingle e s).1 = .indexError ∧ (runSingle e s).2.started = s.started ∧
          (runSingle e s).2.completed = s.completed ∧
          (runSingle e s).2.procThreads = e.threads.getD s.procThreads) := by
    intro i hi
    unfold runSingle
    simp only [hi]
    by_cases h1 : i < e.n
    · cases h2 : e.bodyOk i <;> simp [h1]
      cases e.threads <;> rfl
    · simp [h1, Nat.not_lt.mp h1]
      cases e.threads <;> rfl
  cases hs : s.idx with
  | none =>
    right
    exact ⟨0, Or.inl ⟨rfl, rfl⟩, key 0 (by simp [nextIdx, hs])⟩
  | some j =>
    by_cases hj : j + 1 = e.n
    · left
      have hn : nextIdx e.n s.idx = none := by simp [nextIdx, hs, hj]
      refine ⟨⟨j, rfl, hj⟩, ?_⟩
      unfold runSingle
      simp only [hn]
      exact ⟨trivial, hs, trivial, trivial, by cases e.threads <;> rfl⟩
    · right
      exact ⟨j + 1, Or.inr ⟨j, rfl, rfl, hj⟩, key (j + 1) (by simp [nextIdx, hs, hj])⟩

theorem runSingle_method (e : Env) (s : State) :
    (runSingle e s).2.method = some (s.method.getD .runSingle) := by
  unfold runSingle
  simp only
  split
  · cases s.method <;> rfl
  · split_ifs <;> cases s.method <;> rfl

theorem Linked.runSingle {e : Env} {s : State} (h : Linked e s) : Linked e (runSingle e s).2 := by
  rcases runSingle_cases e s with ⟨-, -, h2, h3, -⟩ | ⟨i, hi, h2, h3⟩
  · unfold Linked at *
    rw [h2, h3]; exact h
  · have hst : i ≤ e.n → s.started = List.range i := by
      intro hle
      unfold Linked at h
      rcases hi with ⟨h4, rfl⟩ | ⟨j, h4, rfl, hne⟩
      · rw [h4] at h; simpa using h
      · rw [h4] at h; simp only at h
        rw [h, Nat.min_eq_left hle]
    unfold Linked
    rw [h2]
    simp only
    rcases h3 with ⟨a, -, -, b, -⟩ | ⟨a, -, -, b, -⟩ | ⟨a, -, b, -⟩
    · rw [b, hst a.le, Nat.min_eq_left a, List.range_succ]
    · rw [b, hst a.le, Nat.min_eq_left a, List.range_succ]
    · rw [b, Nat.min_eq_right (by omega)]
      unfold Linked at h
      rcases hi with ⟨h4, rfl⟩ | ⟨j, h4, rfl, hne⟩
      · rw [h4] at h
        simp only [Nat.le_zero] at a
        rw [a]; simpa using h
      · rw [h4] at h; simp only at h
        rw [h]; congr 1; omega

theorem Linked.runLoop {e : Env} (k : ℕ) {s : State} (h : Linked e s) :
    Linked e (runLoop e k s).2 := by
  induction k generalizing s with
  | zero => exact h
  | succ k ih =>
    unfold Run.runLoop
    have h1 := h.runSingle
    split
    · next s' heq => rw [heq] at h1; exact ih h1
    · exact h1

theorem Linked.call {e : Env} {c : Call} {s : State} (h : Linked e s) :
    Linked e (call e c s).2 := by
  cases c with
  | runSingle => exact h.runSingle
  | run =>
    unfold Run.call Run.run
    simp only
    split
    · exact h
    · exact h
    · exact Linked.runLoop e.n (s := { s with method := some .run }) h

theorem Linked.calls {e : Env} (cs : List Call) {s : State} (h : Linked e s) :
    Linked e (calls e cs s).2 := by
  induction cs generalizing s with
  | nil => exact h
  | cons c cs ih => exact ih h.call

/-- **C01.** After any sequence of calls the time steps started are exactly the first `k` dates, in
order, for some `k ≤ n`: no date is skipped, repeated or reordered. -/
theorem C01_dates_in_order (e : Env) (t : ℕ) (cs : List Call) :
    ∃ k, (calls e cs (State.fresh t)).2.started = List.range k ∧ k ≤ e.n :=
  (Linked.calls cs (show Linked e (State.fresh t) from rfl)).prefix

/-- The dates completed, when no step raises, are those started. -/
theorem runLoop_ok (e : Env) (hok : ∀ i, e.bodyOk i = true) (k : ℕ) (s : State) (i : ℕ)
    (hi : s.idx = if i = 0 then none else some (i - 1)) (hk : i + k ≤ e.n) :
    (runLoop e k s).1 = .ok ∧
    (runLoop e k s).2.started = s.started ++ (List.range k).map (i + ·) ∧
    (runLoop e k s).2.completed = s.completed ++ (List.range k).map (i + ·) ∧
    (runLoop e k s).2.procThreads = s.procThreads ∧
    (runLoop e k s).2.idx = (if i + k = 0 then none else some (i + k - 1)) := by
  induction k generalizing s i with
  | zero => simp [runLoop, hi]
  | succ k ih =>
    have hstep : (runSingle e s).1 = .ok ∧ (runSingle e s).2.idx = some i ∧
        (runSingle e s).2.started = s.started ++ [i] ∧
        (runSingle e s).2.completed = s.completed ++ [i] ∧
        (runSingle e s).2.procThreads = s.procThreads := by
      rcases runSingle_cases e s with ⟨⟨j, hj, hn⟩, -⟩ | ⟨i', hi', h2, h3⟩
      · rw [hi] at hj
        split_ifs at hj with h0
        simp only [Option.some.injEq] at hj
        omega
      · have : i' = i := by
          rcases hi' with ⟨h4, rfl⟩ | ⟨j, h4, rfl, -⟩
          · rw [hi] at h4; split_ifs at h4 with h0; exact h0.symm
          · rw [hi] at h4; split_ifs at h4 with h0
            simp only [Option.some.injEq] at h4; omega
        subst this
        rcases h3 with ⟨-, -, a, b, c, d⟩ | ⟨-, a, -⟩ | ⟨a, -⟩
        · exact ⟨a, h2, b, c, d⟩
        · rw [hok] at a; cases a
        · omega
    obtain ⟨a1, a2, a3, a4, a5⟩ := hstep
    obtain ⟨b1, b2, b3, b4, b5⟩ := ih (runSingle e s).2 (i + 1) (by simp [a2]) (by omega)
    have hl : runLoop e (k + 1) s = runLoop e k (runSingle e s).2 := by
      conv_lhs => unfold runLoop
      have : runSingle e s = (.ok, (runSingle e s).2) := by rw [← a1]
      rw [this]
    have hm : (List.range (k + 1)).map (i + ·) = i :: (List.range k).map (i + 1 + ·) := by
      rw [List.range_succ_eq_map, List.map_cons, List.map_map]
      refine congrArg₂ _ (by simp) (List.map_congr_left fun x _ => ?_)
      simp only [Function.comp_apply, Nat.succ_eq_add_one]; omega
    rw [hl, hm]
    refine ⟨b1, ?_, ?_, by rw [b4, a5], ?_⟩
    · rw [b2, a3, List.append_assoc]; rfl
    · rw [b3, a4, List.append_assoc]; rfl
    · rw [b5]
      rw [if_neg (by omega), if_neg (by omega)]
      congr 1
      omega

/-- **C01.** If no time step raises, `run()` on a fresh model processes exactly all dates in order. -/
theorem C01_run_complete (e : Env) (hok : ∀ i, e.bodyOk i = true) (t : ℕ) :
    (run e (State.fresh t)).1 = .ok ∧ (run e (State.fresh t)).2.started = List.range e.n ∧
      (run e (State.fresh t)).2.completed = List.range e.n := by
  obtain ⟨h1, h2, h3, -⟩ := runLoop_ok e hok e.n { State.fresh t with method := some .run } 0 rfl
    (by omega)
  refine ⟨h1, ?_, ?_⟩
  · change (runLoop e e.n _).2.started = _
    rw [h2]; simp [State.fresh]
  · change (runLoop e e.n _).2.completed = _
    rw [h3]; simp [State.fresh]

/-- **C01.** After any call the run method is set, so a later `run()` is rejected with the matching
error and changes nothing. -/
theorem C01_run_rejected (e : Env) (t : ℕ) (c : Call) (cs : List Call) :
    let s := (calls e (c :: cs) (State.fresh t)).2
    run e s = (if c = .run then .runTwice else .runAfterSingle, s) := by
  have hcall : ∀ (c : Call) (s : State) (m : Method), s.method = some m →
      (call e c s).2.method = some m := by
    intro c s m hm
    cases c with
    | runSingle => simp [call, runSingle_method, hm]
    | run => unfold call run; simp only; rw [hm]; cases m <;> exact hm
  have hcalls : ∀ (cs : List Call) (s : State) (m : Method), s.method = some m →
      (calls e cs s).2.method = some m := by
    intro cs
    induction cs with
    | nil => intro s m h; exact h
    | cons c cs ih => intro s m h; exact ih _ m (hcall c s m h)
  have hloop : ∀ (k : ℕ) (s : State) (m : Method), s.method = some m →
      (runLoop e k s).2.method = some m := by
    intro k
    induction k with
    | zero => intro s m h; exact h
    | succ k ih =>
      intro s m h
      have h1 : (runSingle e s).2.method = some m := by simp [runSingle_method, h]
      unfold runLoop
      split
      · next s' heq => rw [heq] at h1; exact ih s' m h1
      · exact h1
  intro s
  have hs : s.method = some (if c = .run then .run else .runSingle) := by
    refine hcalls cs (call e c (State.fresh t)).2 _ ?_
    cases c with
    | runSingle =>
      change (runSingle e (State.fresh t)).2.method = _
      rw [runSingle_method]; rfl
    | run => exact hloop e.n { State.fresh t with method := some .run } .run rfl
  unfold run
  rw [hs]
  cases c <;> simp

/-- **C01.** Once all dates have been started, `run_single()` raises "Model run already finished"
and processes nothing, however the state was reached. -/
theorem C01_finished (e : Env) (hn : 0 < e.n) (t : ℕ) (cs : List Call)
    (h : (calls e cs (State.fresh t)).2.started.length = e.n) :
    let s := (calls e cs (State.fresh t)).2
    (runSingle e s).1 = .finished ∧ (runSingle e s).2.started = s.started ∧
      (runSingle e s).2.completed = s.completed := by
  intro s
  -- `date_idx` never runs past the last date
  have hidx : ∀ (s : State), Linked e s → (∀ i, s.idx = some i → i < e.n) → ∀ c,
      ∀ i, (call e c s).2.idx = some i → i < e.n := by
    have hsingle : ∀ (s : State), (∀ i, s.idx = some i → i < e.n) →
        ∀ i, (runSingle e s).2.idx = some i → i < e.n := by
      intro s hs i hi
      rcases runSingle_cases e s with ⟨-, -, h2, -⟩ | ⟨i', hi', h2, -⟩
      · rw [h2] at hi; exact hs i hi
      · rw [h2] at hi
        obtain rfl := Option.some.inj hi
        rcases hi' with ⟨-, rfl⟩ | ⟨j, hj, rfl, hne⟩
        · exact hn
        · have := hs j hj; omega
    have hloop : ∀ (k : ℕ) (s : State), (∀ i, s.idx = some i → i < e.n) →
        ∀ i, (runLoop e k s).2.idx = some i → i < e.n := by
      intro k
      induction k with
      | zero => intro s h; exact h
      | succ k ih =>
        intro s hs
        have h1 := hsingle s hs
        unfold runLoop
        split
        · next s' heq => rw [heq] at h1; exact ih s' h1
        · exact h1
    intro s _ hs c
    cases c with
    | runSingle => exact hsingle s hs
    | run =>
      unfold call run
      simp only
      split
      · exact hs
      · exact hs
      · exact hloop _ _ hs
  have hall : ∀ (cs : List Call) (s : State), Linked e s → (∀ i, s.idx = some i → i < e.n) →
      ∀ i, (calls e cs s).2.idx = some i → i < e.n := by
    intro cs
    induction cs with
    | nil => intro s _ hs; exact hs
    | cons c cs ih => intro s hl hs; exact ih _ hl.call (hidx s hl hs c)
  have hl : Linked e s := Linked.calls cs (show Linked e (State.fresh t) from rfl)
  have hb := hall cs (State.fresh t) rfl (by simp [State.fresh])
  have hlen : s.started.length = e.n := h
  rcases runSingle_cases e s with ⟨-, h1, -, h3, h4, -⟩ | ⟨i, hi, -, -⟩
  · exact ⟨h1, h3, h4⟩
  · exfalso
    unfold Linked at hl
    rcases hi with ⟨h0, -⟩ | ⟨j, h0, -, hne⟩
    · rw [h0] at hl; simp only at hl; rw [hl] at hlen; simp at hlen; omega
    · rw [h0] at hl; simp only at hl
      rw [hl, List.length_range] at hlen
      have := hb j h0
      omega

theorem calls_singles (e : Env) (hok : ∀ i, e.bodyOk i = true) (k : ℕ) (s : State) (i : ℕ)
    (hi : s.idx = if i = 0 then none else some (i - 1)) (hk : i + k ≤ e.n) :
    (∀ o ∈ (calls e (List.replicate k .runSingle) s).1, o = .ok) ∧
    (calls e (List.replicate k .runSingle) s).2 = (runLoop e k s).2 := by
  induction k generalizing s i with
  | zero => simp [calls, runLoop]
  | succ k ih =>
    have h1 := runLoop_ok e hok 1 s i hi (by omega)
    have hr : (runSingle e s).1 = .ok := by
      have h2 := h1.1
      unfold runLoop at h2
      split at h2
      · next heq => rw [heq]
      · exact h2
    have he : runLoop e 1 s = runSingle e s := by
      unfold runLoop
      split
      · next s' heq => rw [heq]; rfl
      · rfl
    rw [he] at h1
    have hidx : (runSingle e s).2.idx = if i + 1 = 0 then none else some (i + 1 - 1) := h1.2.2.2.2
    obtain ⟨a, b⟩ := ih (runSingle e s).2 (i + 1) hidx (by omega)
    have hl : runLoop e (k + 1) s = runLoop e k (runSingle e s).2 := by
      conv_lhs => unfold runLoop
      have : runSingle e s = (.ok, (runSingle e s).2) := by rw [← hr]
      rw [this]
    rw [hl]
    simp only [List.replicate_succ, calls, call]
    refine ⟨?_, b⟩
    intro o ho
    rcases List.mem_cons.mp ho with h | h
    · rw [h]; exact hr
    · exact a o h

/-- **C01.** `n` calls of `run_single()` all succeed and process the same dates as one `run()`. -/
theorem C01_singles_equal_run (e : Env) (hok : ∀ i, e.bodyOk i = true) (t : ℕ) :
    let a := calls e (List.replicate e.n .runSingle) (State.fresh t)
    let b := run e (State.fresh t)
    (∀ o ∈ a.1, o = .ok) ∧ a.2.started = b.2.started ∧ a.2.completed = b.2.completed ∧
      a.2.idx = b.2.idx ∧ a.2.procThreads = b.2.procThreads := by
  intro a b
  obtain ⟨h1, h2⟩ := calls_singles e hok e.n (State.fresh t) 0 rfl (by omega)
  obtain ⟨-, c2, c3, c4, c5⟩ := runLoop_ok e hok e.n (State.fresh t) 0 rfl (by omega)
  obtain ⟨-, d2, d3, d4, d5⟩ :=
    runLoop_ok e hok e.n { State.fresh t with method := some .run } 0 rfl (by omega)
  have hb : b.2 = (runLoop e e.n { State.fresh t with method := some .run }).2 := rfl
  have ha : a.2 = (runLoop e e.n (State.fresh t)).2 := h2
  refine ⟨h1, ?_, ?_, ?_, ?_⟩
  · rw [ha, hb, c2, d2]
  · rw [ha, hb, c3, d3]
  · rw [ha, hb, c5, d5]
  · rw [ha, hb, c4, d4]

/-- A run with three dates. -/
def exEnv : Env := { n := 3, threads := some 2, bodyOk := fun _ => true }

example : (calls exEnv [.runSingle, .run, .runSingle, .runSingle, .runSingle] (State.fresh 8)).1
    = [.ok, .runAfterSingle, .ok, .ok, .finished] := by decide

example : (calls exEnv [.runSingle, .runSingle, .runSingle] (State.fresh 8)).2.started.length
    = exEnv.n := by decide

/-! ## C02 -/

/-- **C02.** A `run_single()` call that returns normally leaves the process-wide thread count as it
was; so does every call if no thread count is configured. -/
theorem C02_restored_partial (e : Env) (s : State)
    (h : (runSingle e s).1 = .ok ∨ e.threads = none) :
    (runSingle e s).2.procThreads = s.procThreads := by
  rcases runSingle_cases e s with ⟨-, h1, -, -, -, h2⟩ | ⟨i, -, -, h3⟩
  · rcases h with h | h
    · rw [h1] at h; cases h
    · rw [h2, h]; rfl
  · rcases h3 with ⟨-, -, -, -, -, a⟩ | ⟨-, -, b, -, -, a⟩ | ⟨-, b, -, -, a⟩
    · exact a
    · rcases h with h | h
      · rw [b] at h; cases h
      · rw [a, h]; rfl
    · rcases h with h | h
      · rw [b] at h; cases h
      · rw [a, h]; rfl

/-- **C02 is false as stated:** every call that raises leaves the configured thread count behind,
whatever it was before. -/
theorem C02_restored_false (e : Env) (s : State) (k : ℕ) (hk : e.threads = some k)
    (h : (runSingle e s).1 ≠ .ok) : (runSingle e s).2.procThreads = k := by
  rcases runSingle_cases e s with ⟨-, -, -, -, -, h2⟩ | ⟨i, -, -, h3⟩
  · rw [h2, hk]; rfl
  · rcases h3 with ⟨-, -, a, -⟩ | ⟨-, -, -, -, -, a⟩ | ⟨-, -, -, -, a⟩
    · exact absurd a h
    · rw [a, hk]; rfl
    · rw [a, hk]; rfl

/-- Reachable: the call after the last date of a three-date run in a process with eight threads
leaves two threads behind. -/
theorem C02_finished_witness :
    ∃ cs, let s := (calls exEnv cs (State.fresh 8)).2
      s.procThreads = 8 ∧ (runSingle exEnv s).1 = .finished ∧
        (runSingle exEnv s).2.procThreads = 2 :=
  ⟨[.run], by decide⟩

/-- **C02.** A whole `run()` of a fresh model whose steps do not raise leaves the thread count as it
was. -/
theorem C02_run_restored (e : Env) (hok : ∀ i, e.bodyOk i = true) (t : ℕ) :
    (run e (State.fresh t)).2.procThreads = t :=
  (runLoop_ok e hok e.n { State.fresh t with method := some .run } 0 rfl (by omega)).2.2.2.1

/-- **C02.** The resolved thread count never exceeds the available threads; for "auto" it is 1, 2 or
4 (or all available, if fewer), never falling with the grid size. -/
theorem C02_resolved (c : ThreadsCfg) (envSet : Bool) (rows cols avail k : ℕ)
    (h : resolveThreads c envSet rows cols avail = some k) :
    k ≤ avail ∧ (∀ n, c = .fixed n → k ≤ n ∧ (n ≤ avail → k = n)) ∧
      (c = .auto → envSet = false ∧ (k = 1 ∨ k = 2 ∨ k = 4 ∨ k = avail) ∧
        (4 ≤ avail → (rows * cols < 100 ↔ k = 1) ∧ (10000 ≤ rows * cols ↔ k = 4))) := by
  cases c with
  | systemDefault => simp [resolveThreads] at h
  | fixed n =>
    simp only [resolveThreads, Option.some.injEq] at h
    refine ⟨by omega, ?_, fun hc => by cases hc⟩
    intro m hm
    cases hm
    omega
  | auto =>
    cases envSet with
    | true => simp [resolveThreads] at h
    | false =>
      simp only [resolveThreads, Bool.false_eq_true, if_false, Option.some.injEq] at h
      refine ⟨by omega, fun n hn => ?_, fun _ => ⟨rfl, ?_, fun h4 => ?_⟩⟩
      · cases hn
      · split_ifs at h <;> omega
      · constructor <;> split_ifs at h <;> omega

/-- Growing the grid never lowers the automatic thread count. -/
theorem C02_auto_monotone (r c r' c' avail k k' : ℕ) (hle : r * c ≤ r' * c')
    (h : resolveThreads .auto false r c avail = some k)
    (h' : resolveThreads .auto false r' c' avail = some k') : k ≤ k' := by
  simp only [resolveThreads, Bool.false_eq_true, if_false, Option.some.injEq] at h h'
  split_ifs at h h' <;> omega

example : resolveThreads .auto false 50 60 8 = some 2 := by decide

end Verif.Run
