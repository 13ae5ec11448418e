import Mathlib.Order.Defs.LinearOrder

/-!
# Point output

Mirrors `openamundsen/fileio/pointoutput.py:345-456`. The values of all variables at all points at a
date are one value `V`; a dataset (or file) is the list of its records, a record with value `none`
carries the fill value.
-/

namespace Verif.PointOutput

variable {D V : Type*} [LinearOrder D]

/-- `_current_chunk_dates`, `pointoutput.py:354-370` (formats other than "memory"); `none`: no write
date left (`IndexError`). -/
def chunkDates (write dates : List D) (date : D) : Option (List D) :=
  match write.find? (fun w => decide (date ≤ w)) with
  | none => none
  | some next =>
    match (write.filter fun w => decide (w < date)).getLast? with
    | none => some (dates.filter fun d => decide (d ≤ next))
    | some prev => some (dates.filter fun d => decide (prev < d ∧ d ≤ next))

/-- Assignment at index `np.argmax(ds.time == date)`, `pointoutput.py:390-401`: the first record of the
date, or the first record at all if there is none; an empty dataset is an error. -/
def setAt (date : D) (v : V) (ds : List (D × Option V)) : Option (List (D × Option V)) :=
  match ds.findIdx? (fun r => decide (r.1 = date)) with
  | some i => some (ds.modify i fun r => (r.1, some v))
  | none =>
    match ds with
    | [] => none
    | r :: rs => some ((r.1, some v) :: rs)

/-- In-memory dataset and the content of the file, if one exists. -/
structure St (D V : Type*) where
  data : Option (List (D × Option V))
  file : Option (List (D × Option V))
  deriving DecidableEq

/-- Output formats, `configschema.yml`. -/
inductive Format
  | netcdf
  | csv
  deriving DecidableEq

/-- Writing of the chunk, `pointoutput.py:406-456`: a new file at the first write date, otherwise the
records are appended; appending to a missing file is an error for NetCDF (`open_dataset`) and creates
the file for CSV (`mode="a"`). -/
def writeFile (fmt : Format) (first : Bool) (old : Option (List (D × Option V)))
    (ds : List (D × Option V)) : Option (List (D × Option V)) :=
  if first then some ds
  else
    match old with
    | some o => some (o ++ ds)
    | none => if fmt = .netcdf then none else some ds

/-- The dataset in memory, created for the current chunk if there is none, `pointoutput.py:379-380`. -/
def current (write dates : List D) (date : D) (s : St D V) : Option (List (D × Option V)) :=
  match s.data with
  | some ds => some ds
  | none => (chunkDates write dates date).map fun ds => ds.map fun d => (d, none)

/-- `update`, `pointoutput.py:372-456`, for the formats other than "memory". -/
def update (fmt : Format) (write dates : List D) (date : D) (v : V) (s : St D V) :
    Option (St D V) :=
  match current write dates date s with
  | none => none
  | some ds0 =>
    match setAt date v ds0 with
    | none => none
    | some ds =>
      if (ds.getLast?.map Prod.fst) = some date then
        match writeFile fmt (decide (write.head? = some date)) s.file ds with
        | none => none
        | some f => some { data := none, file := some f }
      else some { s with data := some ds }

/-- The updates of a run at the model dates `todo` (the loop of `model.py:211-236`). -/
def run (fmt : Format) (write dates : List D) (v : D → V) : List D → St D V → Option (St D V)
  | [], s => some s
  | d :: todo, s =>
    match update fmt write dates d (v d) s with
    | none => none
    | some s' => run fmt write dates v todo s'

end Verif.PointOutput
