import Verif.Model.Stations
import Verif.Model.Gridded
import Verif.Model.Freq

/-!
# Definition of the outputs

Mirrors `openamundsen/fileio/pointoutput.py:140-343` and `openamundsen/fileio/griddedoutput.py:69-143, 237-319, 360-391`.
Names are lists of characters.
-/

namespace Verif.OutputDef

open Verif.Stations Verif.Freq

abbrev Name := List Char

/-! ## Points of the point output -/

section points

variable {K : Type*} [Field K] [LinearOrder K] [FloorRing K]

/-- An entry of `config.points`. -/
structure PointCfg (K : Type*) where
  name : Option Name
  x : K
  y : K

/-- `OutputPoint`, `pointoutput.py:38-70`, without longitude, latitude and altitude (taken from the DEM at row and
column). -/
structure Point (K : Type*) where
  name : Name
  x : K
  y : K
  row : ℕ
  col : ℕ

/-- Name of a configured point, `pointoutput.py:210-213`. -/
def pointName (num : ℕ) (p : PointCfg K) : Name :=
  match p.name with
  | some n => n
  | none => ['p', 'o', 'i', 'n', 't'] ++ showNat (num + 1)

/-- Additional output points, `pointoutput.py:208-257`; `none`: `ConfigurationError`. -/
def addPoints (g : Geom K) : ℕ → List (PointCfg K) → List (Point K) → Option (List (Point K))
  | _, [], points => some points
  | num, p :: rest, points =>
    let name := pointName num p
    if name ∈ points.map Point.name then none
    else
      let rc := rowcol g p.x p.y
      if rc.1 < 0 ∨ (g.rows : ℤ) ≤ rc.1 ∨ rc.2 < 0 ∨ (g.cols : ℤ) ≤ rc.2 then none
      else addPoints g (num + 1) rest (points ++ [⟨name, p.x, p.y, rc.1.toNat, rc.2.toNat⟩])

end points

/-! ## Variables of the point output -/

/-- A point output variable: category and name of the state variable, output name and number of layers (0 for
two-dimensional variables). -/
structure Var where
  cat : Name
  name : Name
  out : Option Name
  dim3 : ℕ

/-- `PointOutputVariable.__post_init__`, `pointoutput.py:33-35`. -/
def Var.outName (v : Var) : Name := v.out.getD v.name

/-- Check of the output names, `pointoutput.py:183-188`. -/
def acceptVars (vs : List Var) : Bool := decide (vs.map Var.outName).Nodup

/-- Name of the layer coordinate, `pointoutput.py:308`. -/
def layerName (cat : Name) : Name := cat ++ ['_', 'l', 'a', 'y', 'e', 'r']

/-- Assignment in a dictionary. -/
def insert (k : Name) (n : ℕ) : List (Name × ℕ) → List (Name × ℕ)
  | [] => [(k, n)]
  | (k', n') :: l => if k' = k then (k, n) :: l else (k', n') :: insert k n l

/-- The dictionary `three_dim_coords`, `pointoutput.py:285, 306-319`; `none`: exception. The test looks for the
category, but the keys are coordinate names. -/
def layerCoords : List Var → List (Name × ℕ) → Option (List (Name × ℕ))
  | [], d => some d
  | v :: rest, d =>
    if v.dim3 = 0 then layerCoords rest d
    else if v.cat ∈ d.map Prod.fst then
      match d.lookup (layerName v.cat) with
      | none => none
      | some n => if n ≠ v.dim3 then none else layerCoords rest d
    else layerCoords rest (insert (layerName v.cat) v.dim3 d)

/-- The other coordinates, `pointoutput.py:329-337`. -/
def pointCoords : List Name :=
  ["time", "point", "lon", "lat", "alt", "x", "y"].map String.toList

/-- `_create_dataset`, `pointoutput.py:281-343`: names of the variables with their number of layers. `xr.Dataset` raises
a `ValueError` if a name is used for a variable and for a coordinate and if a dimension has different sizes. The
sizes of the dimensions of time and points are the same for all variables. -/
def createDataset (vs : List Var) : Option (List (Name × ℕ)) :=
  match layerCoords vs [] with
  | none => none
  | some d =>
    if ∃ v ∈ vs, v.outName ∈ pointCoords ++ d.map Prod.fst then none
    else if ∃ v ∈ vs, v.dim3 ≠ 0 ∧ d.lookup (layerName v.cat) ≠ some v.dim3 then none
    else some (vs.map fun v => (v.outName, v.dim3))

/-! ## Fields of the gridded output -/

/-- `OutputField`, `griddedoutput.py:61-64`: output name, whether the field is aggregated, number of layers, write
dates. -/
structure OutField where
  out : Name
  agg : Bool
  dim3 : ℕ
  write : List ℤ

/-- `GriddedOutputManager.__init__`, `griddedoutput.py:88-131`: restriction of the dates to the run, fields without dates
are discarded, duplicate names raise. -/
def initFields (start stop : ℤ) : List OutField → List OutField → Option (List OutField)
  | [], fs => some fs
  | f :: rest, fs =>
    let w := f.write.filter fun t => decide (start ≤ t ∧ t ≤ stop)
    if w = [] then initFields start stop rest fs
    else if f.out ∈ fs.map OutField.out then none
    else initFields start stop rest (fs ++ [{ f with write := w }])

/-- `_field_key`, `griddedoutput.py:69-70`. -/
def OutField.key (f : OutField) : List ℤ × Bool := (f.write, !f.agg)

/-- Keys of `time_var_names` in the order of insertion, `griddedoutput.py:362-366`. -/
def timeKeys : List OutField → List (List ℤ × Bool) → List (List ℤ × Bool)
  | [], ks => ks
  | f :: rest, ks => if f.key ∈ ks then timeKeys rest ks else timeKeys rest (ks ++ [f.key])

/-- Name of the time variable of a field, `griddedoutput.py:360-377`. -/
def timeName (fs : List OutField) (f : OutField) : Name :=
  let ks := timeKeys fs []
  if ks.length = 1 then ['t', 'i', 'm', 'e']
  else ['t', 'i', 'm', 'e'] ++ showNat (ks.idxOf f.key + 1)

/-- `time_bounds`, `griddedoutput.py:384-386`. -/
def timeBounds (start : ℤ) (w : List ℤ) : List (ℤ × ℤ) := (start :: w).zip w

/-- `write_dates[date_idx] = ...` of a run: the values are stored at the given indices of an array that has the length of
the time coordinate, `griddedoutput.py:237-262, 320-335`. -/
def store {V : Type*} : List (ℕ × V) → List (Option V) → List (Option V)
  | [], arr => arr
  | (k, v) :: rest, arr => store rest (arr.set k (some v))

/-! ## Raster files -/

/-- Date part of the file name, `griddedoutput.py:279-291`; `fmt` prints a date. -/
def dateStr (fmt : ℤ → Name) (start step : ℤ) (f : OutField) (date : ℤ) : Name :=
  if f.agg then
    let k := f.write.idxOf date
    let from_ := if k = 0 then start else f.write.getD (k - 1) 0 + step
    fmt from_ ++ ['_'] ++ fmt date
  else fmt date

/-- File name without extension, `griddedoutput.py:293-319`; `layer` is `none` for two-dimensional variables. -/
def fileName (fmt : ℤ → Name) (start step : ℤ) (f : OutField) (layer : Option ℕ) (date : ℤ) : Name :=
  match layer with
  | none => f.out ++ ['_'] ++ dateStr fmt start step f date
  | some l => f.out ++ ['_'] ++ showNat l ++ ['_'] ++ dateStr fmt start step f date

/-- A raster file written for a field: two-dimensional fields have one, others one per layer. -/
def Written (f : OutField) (layer : Option ℕ) (date : ℤ) : Prop :=
  date ∈ f.write ∧ (layer = none ↔ f.dim3 = 0) ∧ ∀ l, layer = some l → l < f.dim3

end Verif.OutputDef
