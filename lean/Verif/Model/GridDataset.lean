import Verif.Model.OutputDef

/-!
# The dataset of the gridded outputs

Mirrors `openamundsen/fileio/griddedoutput.py:198-233, 343-592, 594-619`: names, dimensions and sizes of the variables and
coordinates, and the storage of integer variables. Attributes, encodings and the rounding to float32 are not modelled.
-/

namespace Verif.GridDataset

open Verif.OutputDef

/-- An output field with the category of the state variable. -/
structure GField extends OutField where
  cat : Name

/-- `layout`: number of rows and columns, or number of pixels of the ROI. -/
inductive Layout
  | grid (rows cols : ℕ)
  | roiPixel (n : ℕ)

/-- Spatial coordinates and their lengths, `griddedoutput.py:418-446`. -/
def spatial : Layout → List (Name × ℕ)
  | .grid rows cols => [(['y'], rows), (['x'], cols)]
  | .roiPixel n => [(['p', 'i', 'x', 'e', 'l'], n)]

/-- Time variable of a field, `griddedoutput.py:358-391`. -/
def timeVar (fs : List GField) (f : GField) : Name := timeName (fs.map GField.toOutField) f.toOutField

/-- `dims` and `shape` of the array of a field, `griddedoutput.py:502-556`. -/
def dims (layout : Layout) (fs : List GField) (f : GField) : List (Name × ℕ) :=
  (timeVar fs f, f.write.length) ::
    ((if f.dim3 = 0 then [] else [(layerName f.cat, f.dim3)]) ++ spatial layout)

/-- Names of the variables with the bounds of the time intervals, `griddedoutput.py:401-410`. -/
def boundsNames (fs : List GField) : List Name :=
  (fs.filter fun f => f.agg).map fun f =>
    timeVar fs f ++ ['_', 'b', 'o', 'u', 'n', 'd', 's']

/-- The field as seen by the loop over the three-dimensional variables. -/
def GField.asVar (f : GField) : Var := ⟨f.cat, f.out, none, f.dim3⟩

/-- The dataset: for each data variable its dimensions with their sizes, and the lengths of the coordinates. -/
structure Dataset where
  vars : List (Name × List (Name × ℕ))
  sizes : List (Name × ℕ)

/-- `_create_dataset`, `griddedoutput.py:343-592`. The loop over the three-dimensional variables is the same as for the point
outputs (`layerCoords`). `xr.Dataset` raises an exception if a name is used for a variable and for a coordinate and if a
dimension has different sizes. -/
def create (layout : Layout) (fs : List GField) : Option Dataset :=
  match layerCoords (fs.map GField.asVar) [] with
  | none => none
  | some d =>
    let sizes := fs.map (fun f => (timeVar fs f, f.write.length)) ++ spatial layout ++ d
    if ∃ f ∈ fs, f.out ∈ sizes.map Prod.fst ++ boundsNames fs ++ [['c', 'r', 's']] then none
    else if ∃ f ∈ fs, ∃ p ∈ dims layout fs f, sizes.lookup p.1 ≠ some p.2 then none
    else some ⟨fs.map fun f => (f.out, dims layout fs f), sizes⟩

/-! ## Integer variables -/

/-- Conversion to int32. -/
def wrap (z : ℤ) : ℤ := (z + 2147483648) % 4294967296 - 2147483648

/-- Sums of an integer variable, `griddedoutput.py:198-224`: the array is int32. -/
def sum32 (vals : List ℤ) : ℤ := vals.foldl (fun acc v => wrap (acc + wrap v)) 0

/-- Fill value of integer variables, `griddedoutput.py:613-614`. -/
def FILL : ℤ := -2147483648

/-- What a reader sees (`none`: missing). -/
def readBack (z : ℤ) : Option ℤ := if z = FILL then none else some z

/-- A written integer value, `griddedoutput.py:237-262`. -/
def stored (agg : Bool) (vals : List ℤ) : Option ℤ :=
  if agg then readBack (sum32 vals)
  else
    match vals.getLast? with
    | none => none
    | some v => readBack (wrap v)

end Verif.GridDataset
