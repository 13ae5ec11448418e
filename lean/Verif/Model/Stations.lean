import Mathlib.Algebra.Order.Field.Basic
import Mathlib.Algebra.Order.Floor.Ring

/-!
# Station selection, range filters, station positions

Mirrors `openamundsen/fileio/meteo.py:241-282, 561-611`, `openamundsen/forcing.py:279-362` and
`openamundsen/model.py:184-193, 609-624`.
-/

namespace Verif.Stations

variable {K : Type*} [Field K] [LinearOrder K]

/-! ## Selection rules -/

/-- Row of the metadata table, `meteo.py:525-533, 541`. -/
structure Station (K : Type*) where
  id : ℕ
  x : K
  y : K
  alt : Option K := none
  name : Option String := none

/-- `bounds`: (x_min, y_min, x_max, y_max). -/
structure Bounds (K : Type*) where
  xmin : K
  ymin : K
  xmax : K
  ymax : K

/-- Bounds filter, `meteo.py:589-594`. -/
def inBounds (b : Bounds K) (s : Station K) : Bool :=
  decide (b.xmin ≤ s.x) && decide (b.ymin ≤ s.y) && decide (s.x < b.xmax) && decide (s.y < b.ymax)

/-- `meta[~meta.index.duplicated(keep="first")]`, `meteo.py:610`. -/
def dedup : List ℕ → List (Station K) → List (Station K)
  | _, [] => []
  | seen, s :: ss => if s.id ∈ seen then dedup seen ss else s :: dedup (s.id :: seen) ss

/-- The loop over `include`, `meteo.py:600-607`; `none`: `MeteoDataError`. -/
def addIncluded (all : List (Station K)) : List ℕ → List (Station K) → Option (List (Station K))
  | [], tbl => some tbl
  | i :: is, tbl =>
    match all.filter fun s => decide (s.id = i) with
    | [] => none
    | rows => addIncluded all is (tbl ++ rows)

/-- Bounds and exclusions, `meteo.py:586-597`. -/
def kept (bounds : Option (Bounds K)) (exclude : Option (List ℕ)) (table : List (Station K)) :
    List (Station K) :=
  let m1 :=
    match bounds with
    | none => table
    | some b => table.filter (inBounds b)
  match exclude with
  | none => m1
  | some ex => m1.filter fun s => decide (s.id ∉ ex)

/-- `_apply_station_rules`, `meteo.py:561-611`. -/
def applyRules (bounds : Option (Bounds K)) (exclude inclusion : Option (List ℕ))
    (table : List (Station K)) : Option (List (Station K)) :=
  let m :=
    match inclusion with
    | none => some (kept bounds exclude table)
    | some inc => addIncluded table inc (kept bounds exclude table)
  m.map (dedup [])

/-! ## Range filters -/

/-- A range filter, `configschema.yml`; an absent bound is `none`. -/
structure Range (K : Type*) where
  var : ℕ
  min : Option K
  max : Option K

/-- `_apply_filter`, `meteo.py:267-282`, for one value (`none`: NaN, for which comparisons are false). -/
def filterVal (f : Range K) (v : Option K) : Option K :=
  let v1 :=
    match f.min, v with
    | some lo, some x => if x < lo then none else some x
    | _, _ => v
  match f.max, v1 with
  | some hi, some x => if x > hi then none else some x
  | _, _ => v1

/-- A dataset: for each variable present its time series; the time axis is that of the lists. -/
abbrev Data (K : Type*) := ℕ → Option (List (Option K))

/-- `_apply_filters`, `meteo.py:241-264`. -/
def applyFilters (fs : List (Range K)) (ds : Data K) : Data K :=
  fs.foldl (fun ds f v => if v = f.var then (ds v).map (List.map (filterVal f)) else ds v) ds

/-! ## Positions -/

section pos

variable [FloorRing K]

/-- Geometry of the model grid (`transform.xoff`, `transform.yoff`, resolution, shape). -/
structure Geom (K : Type*) where
  xoff : K
  yoff : K
  res : K
  rows : ℕ
  cols : ℕ

/-- `rasterio.transform.rowcol` with its default rounding (floor), `forcing.py:333-335`. -/
def rowcol (g : Geom K) (x y : K) : ℤ × ℤ := (⌊(g.yoff - y) / g.res⌋, ⌊(x - g.xoff) / g.res⌋)

/-- `within_grid_extent`, `forcing.py:345-347`. -/
def withinExtent (g : Geom K) (x y : K) : Bool :=
  let rc := rowcol g x y
  decide (0 ≤ rc.2) && decide (rc.2 < g.cols) && decide (0 ≤ rc.1) && decide (rc.1 < g.rows)

/-- `within_roi`, `forcing.py:349-358`. -/
def withinRoi (g : Geom K) (roi : ℕ → ℕ → Bool) (x y : K) : Bool :=
  if withinExtent g x y then roi (rowcol g x y).1.toNat (rowcol g x y).2.toNat else false

/-- `extend_roi_with_stations`, `model.py:184-193`. -/
def extendRoi (g : Geom K) (roi : ℕ → ℕ → Bool) (stations : List (K × K)) : ℕ → ℕ → Bool :=
  (stations.filter fun s => withinExtent g s.1 s.2 && !withinRoi g roi s.1 s.2).foldl
    (fun r s i j =>
      if i = (rowcol g s.1 s.2).1.toNat ∧ j = (rowcol g s.1 s.2).2.toNat then true else r i j) roi

/-- Exclusion of pixels without elevation, `model.py:609-612`. -/
def excludeNan (dem : ℕ → ℕ → Option K) (roi : ℕ → ℕ → Bool) : ℕ → ℕ → Bool :=
  fun i j => if (dem i j).isNone && roi i j then false else roi i j

end pos

end Verif.Stations
