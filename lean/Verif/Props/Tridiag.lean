import Verif.Model.Tridiag
import Mathlib.Tactic.FieldSimp
import Mathlib.Algebra.Order.Field.Basic

/-!
# C20: the tridiagonal solver
-/

set_option linter.unusedSectionVars false

namespace Verif.Tridiag

variable {K : Type*} [Field K] [LinearOrder K] [IsStrictOrderedRing K]

/-- Specification: `x` satisfies every equation `a_k x_(k-1) + b_k x_k + c_k x_(k+1) = d_k`, where
the terms reaching outside the vector are absent. -/
def Solves (rows : List (Row K)) (x : List K) : Prop :=
  x.length = rows.length ∧ ∀ k r, rows[k]? = some r →
    (if k = 0 then 0 else r.a * x.getD (k - 1) 0) + r.b * x.getD k 0 + r.c * x.getD (k + 1) 0 = r.d

/-- Specification: strict diagonal dominance by rows. -/
def Dominant (rows : List (Row K)) : Prop := ∀ r ∈ rows, |r.a| + |r.c| < |r.b|

section aux

/-- The equations of rows below a row whose unknown is `xp`. -/
def TriEqs (xp : K) : List (Row K) → List K → Prop
  | [], [] => True
  | r :: rs, x :: xs => r.a * xp + r.b * x + r.c * xs.headD 0 = r.d ∧ TriEqs x rs xs
  | _, _ => False

/-- The equations after elimination. -/
def UpEqs : List (Row K) → List K → Prop
  | [], [] => True
  | r :: rs, x :: xs => r.b * x + r.c * xs.headD 0 = r.d ∧ UpEqs rs xs
  | _, _ => False

theorem fwd_equiv (rs : List (Row K)) : ∀ (prev : Row K) (rs' : List (Row K)),
    fwd prev rs = some rs' → ∀ (xp : K) (xs : List K),
      prev.b * xp + prev.c * xs.headD 0 = prev.d → (TriEqs xp rs xs ↔ UpEqs rs' xs) := by
  induction rs with
  | nil =>
    intro prev rs' h xp xs _
    simp only [fwd, Option.some.injEq] at h
    subst h
    cases xs <;> simp [TriEqs, UpEqs]
  | cons r rs ih =>
    intro prev rs' h xp xs he
    simp only [fwd] at h
    split_ifs at h with hb
    split at h
    · simp at h
    rename_i rs'' hf
    simp only [Option.some.injEq] at h
    subst h
    cases xs with
    | nil => simp [TriEqs, UpEqs]
    | cons x xs =>
      simp only [List.headD_cons] at he
      have hxp : xp = (prev.d - prev.c * x) / prev.b := by
        field_simp; linarith
      have key : r.a * xp + r.b * x + r.c * xs.headD 0 = r.d ↔
          (elim prev r).b * x + (elim prev r).c * xs.headD 0 = (elim prev r).d := by
        simp only [elim]
        rw [hxp]
        constructor
        · intro h
          rw [← h]; field_simp; ring
        · intro h
          have h' : (r.b - r.a / prev.b * prev.c) * x + r.c * xs.headD 0
            + r.a / prev.b * prev.d = r.d := by rw [h]; ring
          rw [← h']; field_simp; ring
      simp only [TriEqs, UpEqs]
      constructor
      · rintro ⟨h1, h2⟩
        exact ⟨key.mp h1, (ih _ _ hf x xs (key.mp h1)).mp h2⟩
      · rintro ⟨h1, h2⟩
        exact ⟨key.mpr h1, (ih _ _ hf x xs h1).mpr h2⟩

theorem back_equiv (rs : List (Row K)) : ∀ xs, back rs = some xs →
    ∀ ys, UpEqs rs ys ↔ ys = xs := by
  induction rs with
  | nil =>
    intro xs h ys
    simp only [back, Option.some.injEq] at h
    subst h
    cases ys <;> simp [UpEqs]
  | cons r rs ih =>
    intro xs h ys
    simp only [back] at h
    split at h
    · simp at h
    rename_i zs hz
    split_ifs at h with hb
    have hih := ih zs hz
    cases ys with
    | nil =>
      simp only [UpEqs, false_iff]
      intro e
      subst e
      split at h <;> simp at h
    | cons y ys =>
      simp only [UpEqs, hih]
      cases zs with
      | nil =>
        simp only [Option.some.injEq] at h
        subst h
        constructor
        · rintro ⟨h1, rfl⟩
          simp only [List.headD_nil, mul_zero, add_zero] at h1
          congr 1
          rw [← h1]; field_simp
        · intro e
          simp only [List.cons.injEq] at e
          obtain ⟨rfl, rfl⟩ := e
          refine ⟨?_, rfl⟩
          simp; field_simp
      | cons z zs =>
        simp only [Option.some.injEq] at h
        subst h
        constructor
        · rintro ⟨h1, rfl⟩
          simp only [List.headD_cons] at h1
          congr 1
          rw [← h1]; field_simp; ring
        · intro e
          simp only [List.cons.injEq] at e
          obtain ⟨rfl, rfl⟩ := e
          refine ⟨?_, rfl⟩
          simp; field_simp; ring

theorem triEqs_iff (rs : List (Row K)) : ∀ (xp : K) (xs : List K), TriEqs xp rs xs ↔
    (xs.length = rs.length ∧ ∀ k r, rs[k]? = some r →
      (if k = 0 then r.a * xp else r.a * xs.getD (k - 1) 0) + r.b * xs.getD k 0
        + r.c * xs.getD (k + 1) 0 = r.d) := by
  induction rs with
  | nil => intro xp xs; cases xs <;> simp [TriEqs]
  | cons r rs ih =>
    intro xp xs
    cases xs with
    | nil => simp [TriEqs]
    | cons x xs =>
      simp only [TriEqs, ih, List.length_cons, Nat.add_right_cancel_iff]
      constructor
      · rintro ⟨h1, h2, h3⟩
        refine ⟨h2, fun k r' hk => ?_⟩
        cases k with
        | zero =>
          simp at hk; subst hk
          have : xs.headD 0 = (x :: xs).getD (0 + 1) 0 := by cases xs <;> simp
          rw [← this]; simpa using h1
        | succ k =>
          have := h3 k r' (by simpa using hk)
          cases k with
          | zero => simpa using this
          | succ k => simpa using this
      · rintro ⟨h2, h3⟩
        refine ⟨?_, h2, fun k r' hk => ?_⟩
        · have := h3 0 r (by simp)
          have e : xs.headD 0 = (x :: xs).getD (0 + 1) 0 := by cases xs <;> simp
          rw [e]; simpa using this
        · have := h3 (k + 1) r' (by simpa using hk)
          cases k with
          | zero => simpa using this
          | succ k => simpa using this

theorem fwd_dominant (rs : List (Row K)) : ∀ prev : Row K, |prev.c| < |prev.b| → Dominant rs →
    ∃ rs', fwd prev rs = some rs' ∧ ∀ r ∈ rs', |r.c| < |r.b| := by
  induction rs with
  | nil => intro prev _ _; exact ⟨[], rfl, by simp⟩
  | cons r rs ih =>
    intro prev hp hd
    have hb : 0 < |prev.b| := lt_of_le_of_lt (abs_nonneg _) hp
    have hb0 : prev.b ≠ 0 := abs_pos.mp hb
    have hr := hd r (by simp)
    have hdom : |(elim prev r).c| < |(elim prev r).b| := by
      simp only [elim]
      have h1 : |r.a / prev.b * prev.c| ≤ |r.a| := by
        rw [abs_mul, abs_div, div_mul_eq_mul_div, div_le_iff₀ hb]
        exact mul_le_mul_of_nonneg_left hp.le (abs_nonneg _)
      have h2 : |r.b| - |r.a / prev.b * prev.c| ≤ |r.b - r.a / prev.b * prev.c| :=
        abs_sub_abs_le_abs_sub _ _
      linarith
    obtain ⟨rs', h1, h2⟩ := ih (elim prev r) hdom (fun x hx => hd x (by simp [hx]))
    refine ⟨elim prev r :: rs', by simp [fwd, hb0, h1], ?_⟩
    intro x hx
    rcases List.mem_cons.mp hx with rfl | hx
    · exact hdom
    · exact h2 x hx

theorem back_defined (rs : List (Row K)) (h : ∀ r ∈ rs, r.b ≠ 0) : ∃ xs, back rs = some xs := by
  induction rs with
  | nil => exact ⟨[], rfl⟩
  | cons r rs ih =>
    obtain ⟨xs, hx⟩ := ih fun x hx => h x (by simp [hx])
    have hb := h r (by simp)
    cases xs with
    | nil => exact ⟨[r.d / r.b], by simp [back, hx, hb]⟩
    | cons x xs => exact ⟨(r.d - r.c * x) / r.b :: x :: xs, by simp [back, hx, hb]⟩

end aux

/-- **C20.** Whenever the solver meets no zero pivot, its result is the unique solution of the
system. -/
theorem C20_solution_unique (rows : List (Row K)) (x : List K) (h : solve rows = some x) :
    ∀ y, Solves rows y ↔ y = x := by
  intro y
  have hS : Solves rows y ↔ TriEqs 0 rows y := by
    rw [triEqs_iff]; simp only [mul_zero, Solves]
  rw [hS]
  cases rows with
  | nil => simp [solve] at h
  | cons r rs =>
    simp only [solve] at h
    split at h
    · simp at h
    rename_i rs' hf
    rw [← back_equiv _ _ h y]
    cases y with
    | nil => simp [TriEqs, UpEqs]
    | cons y ys =>
      simp only [TriEqs, UpEqs, mul_zero, zero_add]
      constructor
      · rintro ⟨h1, h2⟩
        exact ⟨h1, (fwd_equiv rs r rs' hf y ys h1).mp h2⟩
      · rintro ⟨h1, h2⟩
        exact ⟨h1, (fwd_equiv rs r rs' hf y ys h1).mpr h2⟩

/-- **C20.** For strictly diagonally dominant systems of any size no pivot vanishes, so the solver
returns the unique solution. -/
theorem C20_dominant_solved (rows : List (Row K)) (hne : rows ≠ []) (hd : Dominant rows) :
    ∃ x, solve rows = some x ∧ Solves rows x ∧ ∀ y, Solves rows y → y = x := by
  obtain ⟨r, rs, rfl⟩ := List.exists_cons_of_ne_nil hne
  have hr := hd r (by simp)
  have h0 : |r.c| < |r.b| := by linarith [abs_nonneg r.a]
  obtain ⟨rs', h1, h2⟩ := fwd_dominant rs r h0 (fun x hx => hd x (by simp [hx]))
  have hb : ∀ x ∈ r :: rs', x.b ≠ 0 := by
    intro x hx
    have : |x.c| < |x.b| := by
      rcases List.mem_cons.mp hx with rfl | hx
      · exact h0
      · exact h2 x hx
    exact abs_pos.mp (lt_of_le_of_lt (abs_nonneg _) this)
  obtain ⟨x, hx⟩ := back_defined _ hb
  have hsol : solve (r :: rs) = some x := by simp only [solve, h1]; exact hx
  have huniq := C20_solution_unique _ x hsol
  exact ⟨x, hsol, (huniq x).mpr rfl, fun y hy => (huniq y).mp hy⟩

/-- **C20.** The array version returns, in every column without zero pivot, the result of the
scalar version for that column. -/
theorem C20_array_version {ι : Type*} (rows : List (Row (ι → K))) (i : ι) (x : List K)
    (h : solve (rows.map fun r => r.column i) = some x) :
    (solveArr rows).map (fun f => f i) = x := by
  have hfwd : ∀ (rs : List (Row (ι → K))) (prev : Row (ι → K)) (rs' : List (Row K)),
      fwd (prev.column i) (rs.map fun r => r.column i) = some rs' →
      (fwdArr prev rs).map (fun r => r.column i) = rs' := by
    intro rs
    induction rs with
    | nil => intro prev rs' h; simpa [fwd, fwdArr] using h
    | cons r rs ih =>
      intro prev rs' h
      simp only [List.map_cons, fwd] at h
      split_ifs at h
      split at h
      · simp at h
      rename_i rs'' hf
      simp only [Option.some.injEq] at h
      subst h
      simp only [fwdArr, List.map_cons]
      rw [ih (elimArr prev r) rs'' hf]
      rfl
  have hback : ∀ (rs : List (Row (ι → K))) (xs : List K),
      back (rs.map fun r => r.column i) = some xs → (backArr rs).map (fun f => f i) = xs := by
    intro rs
    induction rs with
    | nil => intro xs h; simpa [back, backArr] using h
    | cons r rs ih =>
      intro xs h
      simp only [List.map_cons, back] at h
      split at h
      · simp at h
      rename_i zs hz
      split_ifs at h
      have hb := ih zs hz
      simp only [backArr]
      cases hbr : backArr rs with
      | nil =>
        rw [hbr] at hb
        simp at hb
        subst hb
        simpa [Row.column] using h
      | cons y ys =>
        rw [hbr] at hb
        simp at hb
        subst hb
        simpa [Row.column] using h
  cases rows with
  | nil => simp [solve] at h
  | cons r rs =>
    simp only [List.map_cons, solve] at h
    split at h
    · simp at h
    rename_i rs' hf
    rw [← hfwd rs r rs' hf] at h
    exact hback (r :: fwdArr r rs) x (by simpa using h)

/-- A dominant system of three equations. -/
example : Dominant [(⟨0, 4, -1, 2⟩ : Row ℚ), ⟨-1, 5, -2, 1⟩, ⟨-2, 4, 0, 7⟩] := by
  intro r hr
  simp at hr
  rcases hr with rfl | rfl | rfl <;> norm_num [abs_of_pos, abs_of_neg]

/-- A zero pivot arises for a regular system that is not dominant. -/
theorem C20_zero_pivot_witness :
    solve [(⟨0, 1, 1, 1⟩ : Row ℚ), ⟨1, 1, 1, 1⟩, ⟨1, 1, 0, 1⟩] = none ∧
      Solves [(⟨0, 1, 1, 1⟩ : Row ℚ), ⟨1, 1, 1, 1⟩, ⟨1, 1, 0, 1⟩] [0, 1, 0] := by
  refine ⟨by norm_num [solve, fwd, elim], rfl, ?_⟩
  intro k r hk
  rcases k with _ | _ | _ | k <;> simp at hk <;> subst hk <;> norm_num

end Verif.Tridiag
