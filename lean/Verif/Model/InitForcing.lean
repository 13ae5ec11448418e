import Verif.Model.Forcing
import Verif.Model.Stations

/-!
# Forcing data of an initialisation

Mirrors the part of `OpenAmundsen.initialize` that sets up the forcing, `openamundsen/model.py:139-193`, with
`is_valid_point_dataset` and `prepare_point_coordinates` (`openamundsen/forcing.py:279-391`) and the in-place correction
of precipitation (`openamundsen/meteo/precipcorr.py:57-70, 126-221`), as operations on arrays that may be shared: a
dataset has names and addresses of arrays, the arrays are in a heap. Also the bounds of `_read_meteo_data`,
`openamundsen/model.py:775-787`.

Simplified: the contents of an array are an arbitrary type; reading of files, coordinate transformation, correction
factors and extension are parameters (they are modelled in `StationFiles`, `Stations` and `PrecipTable`); of the indexes
only the times are modelled; what happens before and after this part of `initialize` does not touch the forcing. Extending
the region of interest also changes the grid (`Stations.extendRoi`).
-/

namespace Verif.InitForcing

variable {A C : Type*}

/-! ## Arrays and datasets -/

/-- The arrays allocated so far; the address of an array is its position. -/
abbrev Heap (A : Type*) := List A

/-- A dataset: dimensions, time index, variables with the addresses of their arrays. -/
structure Dataset where
  dims : List String
  times : List ℤ
  vars : List (String × ℕ)

/-- Address of a variable. -/
def Dataset.addr? (d : Dataset) (v : String) : Option ℕ := d.vars.lookup v

/-- Contents of a variable. -/
def Dataset.val (d : Dataset) (h : Heap A) (v : String) : Option A := (d.addr? v).bind fun a => h[a]?

/-- `v in ds`. -/
def Dataset.has (d : Dataset) (v : String) : Bool := (d.addr? v).isSome

/-- New arrays with the given contents; variables with the same names at the new addresses. -/
def alloc (h : Heap A) (l : List (String × A)) : Heap A × List (String × ℕ) :=
  (h ++ l.map Prod.snd, l.zipIdx h.length |>.map fun p => (p.1.1, p.2))

/-- Contents of the variables of a dataset. -/
def contents (d : Dataset) (h : Heap A) : List (String × A) :=
  d.vars.filterMap fun p => h[p.2]?.map fun a => (p.1, a)

/-- `meteo.copy(deep=True)`, `model.py:149`. -/
def deepCopy (h : Heap A) (d : Dataset) : Heap A × Dataset :=
  let r := alloc h (contents d h)
  (r.1, { d with vars := r.2 })

/-! ## Validity and coordinates -/

/-- `_POINT_DATASET_META_VARS`, `forcing.py:8-13`. -/
def metaVars : List String := ["station_name", "lon", "lat", "alt"]

/-- `_POINT_DATASET_GRID_VARS`, `forcing.py:15-22`. -/
def gridVars : List String := ["x", "y", "col", "row", "within_grid_extent", "within_roi"]

/-- The supported variables in sorted order, `forcing.py:362`. -/
def sortedMeteo : List String :=
  ["cloud_fraction", "precip", "rel_hum", "sw_in", "temp", "wind_dir", "wind_speed", "wind_speed_gust"]

/-- `is_valid_point_dataset` with dates, `forcing.py:376-391`. -/
def valid (dates : List ℤ) (d : Dataset) : Bool :=
  decide (∀ x, x ∈ d.dims ++ ["station", "time"] → x ∈ d.dims ∧ x ∈ ["station", "time"]) &&
    (metaVars ++ Forcing.minimumVars).all d.has && decide (dates = d.times)

/-- `prepare_point_coordinates`, `forcing.py:304-366`: shallow copy, new arrays for the variables of the grid, selection of
the known variables. `coords` gives the contents of the variables of the grid from longitudes and latitudes. No dataset:
exception (no `lon`, `lat` or another variable of the metadata). -/
def prepare (coords : A → A → String → A) (h : Heap A) (d : Dataset) : Heap A × Option Dataset :=
  match d.val h "lon", d.val h "lat" with
  | some lon, some lat =>
    let r := alloc h (gridVars.map fun v => (v, coords lon lat v))
    (r.1,
      if metaVars.all d.has then
        some { d with vars :=
          (d.vars.filter fun p => decide (p.1 ∈ metaVars)) ++ r.2 ++
            (d.vars.filter fun p => decide (p.1 ∈ sortedMeteo)) }
      else none)
  | _, _ => (h, none)

/-! ## Changes in place -/

/-- The loop over the corrections, `precipcorr.py:126-221`: `precips *= corr_factors` changes the array of precipitation.
`fac` gives the new contents from the inputs read before the loop and the present contents; `none`: `NotImplementedError`
(then the corrections before it have been made). The flag tells if there was no exception. -/
def correctLoop (fac : C → List A → A → Option A) (ins : List A) (a : ℕ) : List C → Heap A → Heap A × Bool
  | [], h => (h, true)
  | c :: cs, h =>
    match h[a]? with
    | none => (h, false)
    | some p =>
      match fac c ins p with
      | none => (h, false)
      | some p' => correctLoop fac ins a cs (h.set a p')

/-- Variables the corrections read, `precipcorr.py:64-70`. -/
def correctionInputs : List String := ["x", "y", "alt", "temp", "rel_hum", "wind_speed", "precip"]

/-- `correct_station_precipitation`, `precipcorr.py:57-221`; `KeyError` if a variable is missing. -/
def correct (fac : C → List A → A → Option A) (cs : List C) (h : Heap A) (d : Dataset) : Heap A × Bool :=
  match cs with
  | [] => (h, true)
  | _ :: _ =>
    match correctionInputs.mapM (d.val h), d.addr? "precip" with
    | some ins, some a => correctLoop fac ins a cs h
    | _, _ => (h, false)

/-- `self.meteo.within_roi[...] = True`, `model.py:184-189`. `ext` gives the new contents of `within_roi` from those of
`within_grid_extent` and `within_roi`. -/
def extend (ext : Option (A → A → A)) (h : Heap A) (d : Dataset) : Heap A :=
  match ext, d.val h "within_grid_extent", d.val h "within_roi", d.addr? "within_roi" with
  | some f, some e, some r, some a => h.set a (f e r)
  | _, _, _, _ => h

/-! ## Initialisation -/

/-- `input_data.meteo.format`. -/
inductive Format
  | csv
  | netcdf
  | memory
  | callback
  deriving DecidableEq

/-- Settings of a model and what is read from its files. -/
structure Setup (A C : Type*) where
  format : Format
  dates : List ℤ
  /-- cloudiness method `prescribed` -/
  prescribed : Bool
  /-- result of `_read_meteo_data`, `model.py:775-813`: times and variables; `none`: exception -/
  files : Option (List ℤ × List (String × A))
  /-- contents of variables without stations -/
  noStations : A
  /-- a callable `meteo_callback` has been passed -/
  hasCallback : Bool
  coords : A → A → String → A
  corrections : List C
  fac : C → List A → A → Option A
  /-- `extend_roi_with_stations` -/
  ext : Option (A → A → A)

/-- The dataset of the format, `model.py:139-171`; `given` is the argument `meteo`. No dataset: `MeteoDataError`. -/
def select (s : Setup A C) (given : Option Dataset) (h : Heap A) : Heap A × Option Dataset :=
  match s.format with
  | .csv | .netcdf =>
    match s.files with
    | none => (h, none)
    | some (times, vars) =>
      let r := alloc h vars
      (r.1, some ⟨["station", "time"], times, r.2⟩)
  | .memory =>
    match given with
    | none => (h, none)
    | some d =>
      if valid s.dates d then
        let r := deepCopy h d
        (r.1, some r.2)
      else (h, none)
  | .callback =>
    if s.hasCallback then
      let r := alloc h ((metaVars ++ Forcing.minimumVars).map fun v => (v, s.noStations))
      (r.1, some ⟨["station", "time"], s.dates, r.2⟩)
    else (h, none)

/-- The forcing part of `initialize`, `model.py:139-193`: `self.meteo` (none: exception) and the arrays afterwards. -/
def initModel (s : Setup A C) (given : Option Dataset) (h : Heap A) : Heap A × Option Dataset :=
  match select s given h with
  | (h1, none) => (h1, none)
  | (h1, some d) =>
    if s.prescribed && !d.has "cloud_fraction" then (h1, none)
    else
      match prepare s.coords h1 d with
      | (h2, none) => (h2, none)
      | (h2, some m) =>
        match correct s.fac s.corrections h2 m with
        | (h3, false) => (h3, none)
        | (h3, true) => (extend s.ext h3 m, some m)

/-- A sequence of initialisations with the same argument; the results with the arrays at the end. -/
def initAll (given : Option Dataset) : List (Setup A C) → Heap A → Heap A × List (Option Dataset)
  | [], h => (h, [])
  | s :: ss, h =>
    let r := initModel s given h
    let rs := initAll given ss r.1
    (rs.1, r.2 :: rs.2)

/-! ## Bounds -/

/-- `input_data.meteo.bounds`. -/
inductive BoundsSetting (K : Type*)
  | grid
  | global
  | rect (xmin ymin xmax ymax : K)

/-- `model.py:775-787` with the extent of `ModelGrid` (`util.py:231-234`). No bounds: infinite bounds, for stations with
finite coordinates. -/
def boundsOf {K : Type*} [Field K] (g : Stations.Geom K) : BoundsSetting K → Option (Stations.Bounds K)
  | .grid => some ⟨g.xoff, g.yoff - g.rows * g.res, g.xoff + g.cols * g.res, g.yoff⟩
  | .global => none
  | .rect a b c d => some ⟨a, b, c, d⟩

end Verif.InitForcing
