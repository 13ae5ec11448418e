import Verif.Model.OutputDef
import Verif.Model.PointOutput

/-!
# CSV and in-memory point output

Mirrors the CSV part of `openamundsen/fileio/pointoutput.py:394-456` for one point. The value of an output variable at a
date is a function of the layer (0 for two-dimensional variables), `none` the fill value.
-/

namespace Verif.CsvOutput

open Verif.OutputDef Verif.PointOutput Verif.Freq

variable {D R : Type*} [LinearOrder D]

/-- The values of the output variables at the point at a date. -/
abbrev Vals (R : Type*) := Var → ℕ → Option R

/-- Data of a variable of the dataset at the point: by record, or by layer and record. -/
inductive Col (R : Type*)
  | flat (f : ℕ → Option R)
  | layers (f : ℕ → ℕ → Option R)

/-- The data variables of a dataset at the point, in order. -/
abbrev Cols (R : Type*) := List (Name × Col R)

/-- Value of a variable in a record. -/
def value (recs : List (D × Option (Vals R))) (v : Var) (i k : ℕ) : Option R :=
  (recs[k]?.bind Prod.snd).bind fun w => w v i

/-- The dataset of a chunk, `pointoutput.py:283-327` and `394-401`. -/
def chunkCols (vs : List Var) (recs : List (D × Option (Vals R))) : Cols R :=
  vs.map fun v => (v.outName, if v.dim3 = 0 then .flat (value recs v 0) else .layers (value recs v))

/-- `ds_out[k] = c`. -/
def assign (k : Name) (c : Col R) : Cols R → Cols R
  | [] => [(k, c)]
  | (k', c') :: l => if k' = k then (k, c) :: l else (k', c') :: assign k c l

/-- `ds[k].loc[:, i, :]`. -/
def layer (ds : Cols R) (k : Name) (i : ℕ) : Option (Col R) :=
  match ds.lookup k with
  | some (.layers f) => some (.flat (f i))
  | _ => none

/-- The columns of the layers of a variable, `pointoutput.py:435-436`. -/
def addLayers (ds : Cols R) (k : Name) : List ℕ → Cols R → Option (Cols R)
  | [], out => some out
  | i :: is, out => (layer ds k i).bind fun c => addLayers ds k is (assign (k ++ showNat i) c out)

/-- Conversion of the three-dimensional variables, `pointoutput.py:431-438`. -/
def expand (ds : Cols R) : List Var → Cols R → Option (Cols R)
  | [], out => some out
  | v :: vs, out =>
    if 0 < v.dim3 then
      (addLayers ds v.outName (List.range v.dim3) out).bind fun o =>
        expand ds vs (o.filter fun c => decide (c.1 ≠ v.outName))
    else expand ds vs out

/-- A line of a CSV file. -/
inductive Line (D R : Type*)
  | header (names : List Name)
  | row (date : D) (vals : List (Option R))
  deriving DecidableEq

/-- Value of a column in record `k`. (After the conversion there are no other columns.) -/
def Col.get (k : ℕ) : Col R → Option R
  | .flat f => f k
  | .layers _ => none

/-- The lines of the data frame of a chunk, `pointoutput.py:443-454`: the header is written if `first`. -/
def lines (first : Bool) (cols : Cols R) (recs : List (D × Option (Vals R))) : List (Line D R) :=
  (if first then [.header (cols.map Prod.fst)] else []) ++
    recs.zipIdx.map fun r => .row r.1.1 (cols.map fun c => c.2.get r.2)

/-- In-memory dataset and file of the point. -/
structure St (D R : Type*) where
  data : Option (List (D × Option (Vals R)))
  file : Option (List (Line D R))

/-- `update` with format "csv", `pointoutput.py:372-456`. -/
def update (vs : List Var) (write dates : List D) (date : D) (v : Vals R) (s : St D R) : Option (St D R) :=
  match current write dates date ⟨s.data, none⟩ with
  | none => none
  | some ds0 =>
    match setAt date v ds0 with
    | none => none
    | some recs =>
      if (recs.getLast?.map Prod.fst) = some date then
        (expand (chunkCols vs recs) vs (chunkCols vs recs)).map fun cols =>
          if write.head? = some date then ⟨none, some (lines true cols recs)⟩
          else ⟨none, some (s.file.getD [] ++ lines false cols recs)⟩
      else some { s with data := some recs }

/-- The updates of a run at the model dates `todo` (`model.py:211-236`). -/
def run (vs : List Var) (write dates : List D) (v : D → Vals R) : List D → St D R → Option (St D R)
  | [], s => some s
  | d :: todo, s =>
    match update vs write dates d (v d) s with
    | none => none
    | some s' => run vs write dates v todo s'

/-- `update` with format "memory": the dataset of all model dates is created at the first update and never written,
`pointoutput.py:355-356, 379-401, 406`. -/
def updateMemory {V : Type*} (dates : List D) (date : D) (v : V) (s : Option (List (D × Option V))) :
    Option (List (D × Option V)) :=
  setAt date v (s.getD (dates.map fun d => (d, none)))

/-- The updates of a run with format "memory". -/
def runMemory {V : Type*} (dates : List D) (v : D → V) : List D → Option (List (D × Option V)) →
    Option (Option (List (D × Option V)))
  | [], s => some s
  | d :: todo, s =>
    match updateMemory dates d (v d) s with
    | none => none
    | some s' => runMemory dates v todo (some s')

/-- `_default_output_vars`, `pointoutput.py:80-124`: category, name and output name. -/
def defaultNames : List (String × String × Option String) :=
  [("meteo", "temp", none), ("meteo", "precip", none), ("meteo", "snowfall", none), ("meteo", "rainfall", none),
   ("meteo", "rel_hum", none), ("meteo", "wind_speed", none), ("meteo", "sw_in", none), ("meteo", "sw_out", none),
   ("meteo", "lw_in", none), ("meteo", "lw_out", none), ("meteo", "sw_in_clearsky", none),
   ("meteo", "dir_in_clearsky", none), ("meteo", "diff_in_clearsky", none), ("meteo", "cloud_factor", none),
   ("meteo", "cloud_fraction", none), ("meteo", "wet_bulb_temp", none), ("meteo", "dew_point_temp", none),
   ("meteo", "atmos_press", none), ("meteo", "sat_vap_press", none), ("meteo", "vap_press", none),
   ("meteo", "spec_hum", none), ("surface", "temp", some "surface_temp"),
   ("surface", "heat_flux", some "surface_heat_flux"), ("surface", "sens_heat_flux", none),
   ("surface", "lat_heat_flux", none), ("surface", "advective_heat_flux", none),
   ("surface", "albedo", some "surface_albedo"), ("soil", "temp", some "soil_temp"),
   ("soil", "heat_flux", some "soil_heat_flux"), ("snow", "swe", some "swe"), ("snow", "depth", some "snow_depth"),
   ("snow", "temp", some "snow_temp"), ("snow", "thickness", some "snow_thickness"),
   ("snow", "density", some "snow_density"), ("snow", "ice_content", none), ("snow", "liquid_water_content", none),
   ("snow", "melt", none), ("snow", "runoff", none), ("snow", "sublimation", none), ("snow", "refreezing", none)]

/-- The default variables; the numbers of layers are those of the state variables. -/
def defaultVars (dim : String → String → ℕ) : List Var :=
  defaultNames.map fun n => ⟨n.1.toList, n.2.1.toList, n.2.2.map String.toList, dim n.1 n.2.1⟩

end Verif.CsvOutput
