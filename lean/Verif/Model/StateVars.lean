import Mathlib.Data.List.Sort

/-!
# State variable manager

Mirrors `openamundsen/statevars.py:8-146, 218-258`.
-/

namespace Verif.StateVars

/-! ## Variables -/

/-- `dtype` of a state variable. -/
inductive DType | float | int | bool
  deriving DecidableEq, Repr

/-- One array element; `α` is the type of floating point numbers other than NaN. -/
inductive Val (α : Type*) | nan | flt (x : α) | int (z : ℤ) | bool (b : Bool)
  deriving DecidableEq, Repr

/-- A variable: its definition (`StateVariableDefinition`, `statevars.py:218-258`; units and names
left out) and its array, flattened. -/
structure Var (α : Type*) where
  name : String
  dtype : DType
  retain : Bool
  data : List (Val α)
  deriving DecidableEq, Repr

/-- `_DTYPE_INIT_VALS[arr.dtype]`, `statevars.py:8-14, 130`. The dictionary is keyed with the types
`float`, `int`, `bool` and the dtype objects for `float64` and `int64`; the lookup with the dtype
object of a bool array finds no key: `none` for the `KeyError`. -/
def initVal {α : Type*} : DType → Option (Val α)
  | .float => some .nan
  | .int => some (.int 0)
  | .bool => none

/-- `StateVariableManager.reset`, `statevars.py:119-130`, over the variables of all categories in
iteration order: the variables after the call, and whether the call returned normally. -/
def reset {α : Type*} : List (Var α) → List (Var α) × Bool
  | [] => ([], true)
  | v :: vs =>
    if v.retain then
      let (vs', ok) := reset vs
      (v :: vs', ok)
    else
      match initVal v.dtype with
      | none => (v :: vs, false)
      | some x =>
        let (vs', ok) := reset vs
        ({ v with data := List.replicate v.data.length x } :: vs', ok)

/-! ## Categories -/

/-- Outcome of `add_category`. -/
inductive AddResult | ok | categoryError | attributeError
  deriving DecidableEq, Repr

/-- `StateVariableManager.add_category`, `statevars.py:42-62`. `ident` is `str.isidentifier`.
`setattr(self, category, svc)` (line 60) matters for the list of categories for two names:
`categories` is a read-only property (`AttributeError`, after the list has been changed) and
`_categories` is the attribute holding the list itself, which is replaced by the new container (a
dictionary with the keys `_manager` and `_meta`). -/
def addCategory (ident : String → Bool) (cats : List String) (c : String) :
    List String × AddResult :=
  if c ∈ cats then (cats, .categoryError)
  else if !ident c then (cats, .categoryError)
  else
    let cats' := (cats ++ [c]).mergeSort (fun a b => decide (a ≤ b))
    if c = "categories" then (cats', .attributeError)
    else if c = "_categories" then (["_manager", "_meta"], .ok)
    else (cats', .ok)

/-- A sequence of calls (a caller that catches the errors and goes on). -/
def addAll (ident : String → Bool) (cats : List String) (cs : List String) : List String :=
  cs.foldl (fun cats c => (addCategory ident cats c).1) cats

/-- `StateVariableManager.parse`, `statevars.py:64-80`, on the characters of the key; `none` for the
`ValueError` of unpacking more than two parts. -/
def parse (s : List Char) : Option (List Char × Option (List Char)) :=
  if '.' ∈ s then
    match s.splitOn '.' with
    | [c, v] => some (c, some v)
    | _ => none
  else some (s, none)

end Verif.StateVars
