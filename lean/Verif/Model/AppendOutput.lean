import Verif.Model.OutputDef

/-!
# Appending gridded output

Mirrors `openamundsen/fileio/griddedoutput.py:145-193, 237-262, 340-341, 378-415`: the NetCDF file of the gridded outputs
with and without the option `append`. A file is what a reader sees: cells that were not written are missing. The value a
field writes at a date does not depend on the option (`Model/Gridded`), so it is given.
-/

namespace Verif.AppendOutput

open Verif.OutputDef

/-- A NetCDF file: lengths of the time dimensions, contents of the data variables, of the time variables and of their
bounds. -/
structure File (V : Type*) where
  size : Name → ℕ
  data : Name → ℕ → Option V
  time : Name → ℕ → Option ℤ
  bounds : Name → ℕ → Option (ℤ × ℤ)

/-- The field that defines the coordinates of a time dimension, `griddedoutput.py:378-391` (`times` keeps the first). -/
def owner (fs : List OutField) (d : Name) : Option OutField := fs.find? fun f => decide (timeName fs f = d)

/-- Times of a time variable, `griddedoutput.py:381-391, 411-415`. -/
def timesOf (fs : List OutField) (d : Name) : List ℤ :=
  match owner fs d with
  | none => []
  | some f => f.write

/-- Bounds of a time variable, `griddedoutput.py:384-386, 400-409`; only for aggregated fields. -/
def boundsOf (start : ℤ) (fs : List OutField) (d : Name) : List (ℤ × ℤ) :=
  match owner fs d with
  | none => []
  | some f => if f.agg then timeBounds start f.write else []

/-- The file before the first time step, `griddedoutput.py:163-188`: with the option all records are dropped. -/
def create {V : Type*} (append : Bool) (start : ℤ) (fs : List OutField) : File V :=
  if append then ⟨fun _ => 0, fun _ _ => none, fun _ _ => none, fun _ _ => none⟩
  else ⟨fun d => (timesOf fs d).length, fun _ _ => none, fun d k => (timesOf fs d)[k]?,
    fun d k => (boundsOf start fs d)[k]?⟩

/-- Assignment to a cell. -/
def set2 {A : Type*} (F : Name → ℕ → A) (n : Name) (k : ℕ) (a : A) : Name → ℕ → A :=
  fun m i => if m = n ∧ i = k then a else F m i

/-- Writing a field at a date, `griddedoutput.py:237-262`. A write behind the end of an unlimited dimension makes all
variables with this dimension longer; without the option the dimensions are fixed and long enough. -/
def put {V : Type*} (append : Bool) (start : ℤ) (fs : List OutField) (val : OutField → ℤ → V) (date : ℤ) (F : File V)
    (f : OutField) : File V :=
  if date ∈ f.write then
    let k := f.write.idxOf date
    let d := timeName fs f
    let F1 : File V := { F with
      size := fun m => if m = d then max (F.size m) (k + 1) else F.size m
      data := set2 F.data f.out k (some (val f date)) }
    if append then
      { F1 with
        time := set2 F1.time d k (timesOf fs d)[k]?
        bounds := if boundsOf start fs d = [] then F1.bounds else set2 F1.bounds d k (boundsOf start fs d)[k]? }
    else F1
  else F

/-- A time step, `griddedoutput.py:195-341`. -/
def step {V : Type*} (append : Bool) (start : ℤ) (fs : List OutField) (val : OutField → ℤ → V) (F : File V) (date : ℤ) :
    File V :=
  fs.foldl (put append start fs val date) F

/-- The file after the time steps at the given dates. -/
def run {V : Type*} (append : Bool) (start : ℤ) (fs : List OutField) (val : OutField → ℤ → V) (dates : List ℤ) : File V :=
  dates.foldl (step append start fs val) (create append start fs)

/-- The records of a field as a reader sees them: time, bounds of the interval and value. -/
def view {V : Type*} (fs : List OutField) (F : File V) (f : OutField) :
    List (Option ℤ × Option (ℤ × ℤ) × Option V) :=
  (List.range (F.size (timeName fs f))).map fun k =>
    (F.time (timeName fs f) k, F.bounds (timeName fs f) k, F.data f.out k)

end Verif.AppendOutput
