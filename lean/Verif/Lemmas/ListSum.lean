import Verif.Basic

/-!
Helper lemmas on sums over lists.
-/

set_option linter.unusedSectionVars false

namespace Verif

variable {K : Type*} [Field K] [LinearOrder K] [IsStrictOrderedRing K]

theorem sum_map_nonneg {α : Type*} (f : α → K) (l : List α) (h : ∀ x ∈ l, 0 ≤ f x) :
    0 ≤ (l.map f).sum :=
  List.sum_nonneg (by simpa using h)

theorem sum_map_take_add_drop {α : Type*} (f : α → K) (l : List α) (n : ℕ) :
    ((l.take n).map f).sum + ((l.drop n).map f).sum = (l.map f).sum := by
  rw [← List.sum_append, ← List.map_append, List.take_append_drop]

theorem sum_map_take_succ {α : Type*} (f : α → K) (l : List α) (k : ℕ) (x : α)
    (h : l[k]? = some x) :
    ((l.take (k + 1)).map f).sum = ((l.take k).map f).sum + f x := by
  rw [List.take_add_one, h, List.map_append, List.sum_append]
  simp only [Option.toList_some, List.map_cons, List.map_nil, List.sum_cons, List.sum_nil, add_zero]

end Verif
