import Verif.Basic

/-!
# Tridiagonal solver

Mirrors `openamundsen/tridiag.py`. A system is the list of its rows. Division by a zero pivot
(`ZeroDivisionError` in the compiled scalar version) is `none`.
-/

namespace Verif.Tridiag

/-- Row `k` of the system: `a[k]`, `b[k]`, `c[k]`, `d[k]` (`tridiag.py:17-31`). -/
structure Row (K : Type*) where
  a : K
  b : K
  c : K
  d : K

variable {K : Type*} [Field K] [LinearOrder K]

/-- Elimination of row `r` with the already eliminated row `prev`, `tridiag.py:46-48`. -/
def elim (prev r : Row K) : Row K :=
  let m := r.a / prev.b
  { r with b := r.b - m * prev.c, d := r.d - m * prev.d }

/-- Forward sweep `for k in range(1, n)`, `tridiag.py:45-48`: the rows after `prev`. -/
def fwd (prev : Row K) : List (Row K) → Option (List (Row K))
  | [] => some []
  | r :: rs =>
    if prev.b = 0 then none
    else
      match fwd (elim prev r) rs with
      | none => none
      | some rs' => some (elim prev r :: rs')

/-- Back substitution, `tridiag.py:50-54`. -/
def back : List (Row K) → Option (List K)
  | [] => some []
  | r :: rs =>
    match back rs with
    | none => none
    | some xs =>
      if r.b = 0 then none
      else
        match xs with
        | [] => some [r.d / r.b]
        | x :: xs => some ((r.d - r.c * x) / r.b :: x :: xs)

/-- `solve_tridiag`, `tridiag.py:39-56`. -/
def solve : List (Row K) → Option (List K)
  | [] => none
  | r :: rs =>
    match fwd r rs with
    | none => none
    | some rs' => back (r :: rs')

/-! ## Array version

`solve_tridiag_array`, `tridiag.py:59-82`: entries are arrays over columns `ι`, all operations are
elementwise. A zero pivot makes that column inf/NaN; here the field's division (`x / 0 = 0`) is used
and nothing is claimed about such columns. -/

/-- Elementwise elimination, `tridiag.py:71-74`. -/
def elimArr {ι : Type*} (prev r : Row (ι → K)) : Row (ι → K) :=
  let m := fun i => r.a i / prev.b i
  { r with b := fun i => r.b i - m i * prev.c i, d := fun i => r.d i - m i * prev.d i }

/-- Forward sweep, `tridiag.py:71-74`. -/
def fwdArr {ι : Type*} (prev : Row (ι → K)) : List (Row (ι → K)) → List (Row (ι → K))
  | [] => []
  | r :: rs => elimArr prev r :: fwdArr (elimArr prev r) rs

/-- Back substitution, `tridiag.py:76-80`. -/
def backArr {ι : Type*} : List (Row (ι → K)) → List (ι → K)
  | [] => []
  | r :: rs =>
    match backArr rs with
    | [] => [fun i => r.d i / r.b i]
    | x :: xs => (fun i => (r.d i - r.c i * x i) / r.b i) :: x :: xs

/-- `solve_tridiag_array`, `tridiag.py:59-82`. -/
def solveArr {ι : Type*} : List (Row (ι → K)) → List (ι → K)
  | [] => []
  | r :: rs => backArr (r :: fwdArr r rs)

/-- Column `i` of an array system. -/
def Row.column {ι : Type*} (r : Row (ι → K)) (i : ι) : Row K := ⟨r.a i, r.b i, r.c i, r.d i⟩

end Verif.Tridiag
