import Mathlib.Algebra.Order.Field.Basic
import Mathlib.Data.List.Dedup
import Mathlib.Data.List.Sort
import Verif.Model.Time

/-!
# Forcing datasets

Mirrors `openamundsen/forcing.py:72-276, 376-391` and the end of `read_meteo_data`,
`openamundsen/fileio/meteo.py:119-164`. A missing value is `none`; an exception is an outer `none`.
Dates are seconds.
-/

namespace Verif.Forcing

variable {K : Type*} [Field K] [LinearOrder K]

/-! ## Point datasets -/

/-- `METEO_VAR_METADATA`, `constants.py:51-84`: supported variables and their units. -/
def meteoUnits : List (String × String) :=
  [("temp", "K"), ("precip", "kg m-2"), ("rel_hum", "%"), ("sw_in", "W m-2"),
   ("wind_speed", "m s-1"), ("wind_speed_gust", "m s-1"), ("wind_dir", "degree"),
   ("cloud_fraction", "%")]

/-- `MINIMUM_REQUIRED_METEO_VARS`, `constants.py:85`. -/
def minimumVars : List String := ["temp", "precip", "rel_hum", "sw_in", "wind_speed"]

/-- `_POINT_DATASET_ALLOWED_METEO_VARS`, `forcing.py:14`. -/
def allowed (name : String) : Bool := decide (name ∈ meteoUnits.map Prod.fst)

/-- A variable of the input: `attrs["units"]` and values. -/
structure Var (K : Type*) where
  units : Option String
  vals : List (Option K)

/-- The data variables of the input in the order in which they are processed (`forcing.py:126` iterates
over a set). -/
abbrev Data (K : Type*) := List (String × Var K)

/-- Outcome of the determination of the time step, `forcing.py:132-136`. -/
inductive Step
  | secs (d : ℤ)
  | nan
  | error

/-- Seven days in seconds. -/
def WEEK : ℤ := 604800

/-- All consecutive differences are `d`. -/
def uniform (d : ℤ) : List ℤ → Bool
  | a :: b :: l => decide (b - a = d) && uniform d (b :: l)
  | _ => true

/-- `pd.infer_freq` followed by `offset_to_timedelta`, `forcing.py:132-136`: NaN for fewer than three
dates, the step for uniform steps of less than a week; what pandas makes of other dates (calendar
frequencies, for which the conversion fails with a `ValueError` and the step is NaN; `None`, for
which `total_seconds` raises an `AttributeError`) is the parameter `other`. -/
def inferStep (other : List ℤ → Step) : List ℤ → Step
  | a :: b :: c :: l =>
    if 0 < b - a ∧ b - a < WEEK ∧ uniform (b - a) (a :: b :: c :: l) then .secs (b - a)
    else other (a :: b :: c :: l)
  | _ => .nan

/-- `data[var] *= x`. -/
def scaleVals (x : Option K) (vals : List (Option K)) : List (Option K) :=
  vals.map fun v =>
    match x, v with
    | some a, some b => some (b * a)
    | _, _ => none

/-- `data["cloud_fraction"].max() <= 1`; the maximum skips missing values. -/
def maxLeOne (vals : List (Option K)) : Bool :=
  match (vals.filterMap id).max? with
  | none => false
  | some m => decide (m ≤ 1)

/-- Conversions of a variable, `forcing.py:129-149`; `n` is `len(data)`, the number of data variables. -/
def convert (step : Step) (n : ℕ) (name : String) (v : Var K) : Option (Var K) :=
  if name = "precip" then
    if v.units = some "kg m-2 s-1" then
      match step with
      | .secs d => some ⟨some "kg m-2", scaleVals (some (d : K)) v.vals⟩
      | .nan => some ⟨some "kg m-2", scaleVals none v.vals⟩
      | .error => none
    else some v
  else if name = "cloud_fraction" then
    if v.units = some "1" ∨ (10 < n ∧ maxLeOne v.vals = true) then
      some ⟨some "%", scaleVals (some 100) v.vals⟩
    else some v
  else some v

/-- Units check and copy, `forcing.py:151-157`. -/
def checkUnits (name : String) (v : Var K) : Option (List (Option K)) :=
  match v.units with
  | none => some v.vals
  | some u => if some u = meteoUnits.lookup name then some v.vals else none

/-- One pass of the loop `forcing.py:126-157`. -/
def importVar (step : Step) (n : ℕ) (name : String) (v : Var K) : Option (List (Option K)) :=
  match convert step n name v with
  | none => none
  | some w => checkUnits name w

/-- The loop over the supported variables, `forcing.py:114, 126-157`. -/
def importAll (step : Step) (n : ℕ) : Data K → Option (List (String × List (Option K)))
  | [] => some []
  | (name, v) :: rest =>
    if allowed name then
      match importVar step n name v, importAll step n rest with
      | some vals, some out => some ((name, vals) :: out)
      | _, _ => none
    else importAll step n rest

/-- Meteorological part of `make_point_dataset`, `forcing.py:114-159` (station metadata are not
modelled). -/
def makePoint (other : List ℤ → Step) (dates : List ℤ) (data : Data K) :
    Option (List (String × List (Option K))) :=
  importAll (inferStep other dates) data.length data

/-! ## Combination of stations -/

/-- Point dataset of a station. -/
structure Ds (K : Type*) where
  id : String
  times : List ℤ
  vars : List (String × List (Option K))

/-- Values of a variable, missing values if there is no such variable, `forcing.py:257-263`. -/
def Ds.vals (ds : Ds K) (v : String) : List (Option K) :=
  match ds.vars.lookup v with
  | some l => l
  | none => ds.times.map fun _ => none

/-- Value of a variable at a date, missing if there is no such date. -/
def Ds.at (ds : Ds K) (v : String) (t : ℤ) : Option K :=
  match (ds.times.zip (ds.vals v)).lookup t with
  | some x => x
  | none => none

/-- `meteo_vars`, `forcing.py:244-249` (not sorted). -/
def combinedVars (addMin : Bool) (dss : List (Ds K)) : List String :=
  (((if addMin then minimumVars else []) ++ dss.flatMap fun ds => ds.vars.map Prod.fst).filter
    allowed).dedup

/-- The combined dataset: dates, variables and, per station, the values of each variable. -/
structure Combined (K : Type*) where
  times : List ℤ
  vars : List String
  rows : List (String × List (List (Option K)))

/-- `combine_point_datasets`, `forcing.py:241-276`: `xr.combine_nested` with an outer join of the dates
takes over equal date indices as they are and otherwise uses their sorted union, for which they must
be unique. -/
def combine (addMin : Bool) (dss : List (Ds K)) : Option (Combined K) :=
  let vars := combinedVars addMin dss
  match dss with
  | [] => none
  | d0 :: _ =>
    if dss.all fun ds => decide (ds.times = d0.times) then
      some ⟨d0.times, vars, dss.map fun ds => (ds.id, vars.map ds.vals)⟩
    else if dss.all fun ds => decide ds.times.Nodup then
      let times := (dss.flatMap Ds.times).dedup.mergeSort (fun a b => decide (a ≤ b))
      some ⟨times, vars, dss.map fun ds => (ds.id, vars.map fun v => times.map (ds.at v))⟩
    else none

/-- `is_valid_point_dataset`, `forcing.py:380-391`, of a combined dataset (which has the dimensions and
the metadata variables). -/
def isValid (c : Combined K) (dates : List ℤ) : Bool :=
  (minimumVars.all fun v => decide (v ∈ c.vars)) && decide (dates = c.times)

/-- `reindex(time=...)` of one series. -/
def reindex (old new : List ℤ) (vals : List (Option K)) : List (Option K) :=
  new.map fun t =>
    match (old.zip vals).lookup t with
    | some x => x
    | none => none

/-- `read_meteo_data` after slicing and resampling, `meteo.py:126-164`; `strict` is
`raise_on_missing_data`. -/
def assemble (strict : Bool) (start stop f : ℤ) (dss : List (Ds K)) : Option (Combined K) :=
  let present := dss.filter fun ds => decide (ds.times ≠ [])
  if present.isEmpty then
    if strict then none else some ⟨Time.dateRange start stop f, minimumVars, []⟩
  else
    match combine true present with
    | none => none
    | some c =>
      match c.times.head?, c.times.getLast? with
      | some a, some b =>
        if start < a ∨ b < stop then
          if strict then none
          else
            let new := Time.dateRange start stop f
            some ⟨new, c.vars, c.rows.map fun r => (r.1, r.2.map (reindex c.times new))⟩
        else some c
      | _, _ => none

end Verif.Forcing
