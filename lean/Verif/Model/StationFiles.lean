import Verif.Model.Stations

/-!
# Reading the station data

Mirrors `openamundsen/fileio/meteo.py:88-141, 167-238, 462-558`: the metadata of the stations, the
selection of stations (`Stations.applyRules`) and the loop over their files. An exception is `none`.
The contents of a file are of a type `D`; filtering, slicing and resampling of a file are a function `prep`
(modelled in `Stations`, `Resample` and `Forcing`). Transformations of coordinates (pyproj) are functions.
Identifiers are numbers; the conversion of identifiers in a csv file by pandas is not modelled.
-/

namespace Verif.StationFiles

open Verif.Stations (Station Bounds applyRules)

variable {K D : Type*} [Field K] [LinearOrder K]

/-- A netCDF file: longitude, latitude and altitude (`none`: there is no such variable), the attribute
`station_name` and the data. -/
structure NcFile (K D : Type*) where
  id : ℕ
  pos : Option (K × K × K)
  name : Option String
  data : D

/-- A csv row of `stations.csv`: identifier, name, coordinates, altitude. -/
structure CsvRow (K : Type*) where
  id : ℕ
  name : String
  x : K
  y : K
  alt : K

/-- Dataset of a station: `station_id`, `station_name`, coordinates and data. -/
structure Loaded (K D : Type*) where
  id : ℕ
  name : Option String
  lon : K
  lat : K
  alt : Option K
  data : D

/-- `_read_meteo_metadata` for netCDF files, `meteo.py:496-533`: all files are opened, in the order of
their names; `toGrid` transforms longitude and latitude to the model grid. -/
def ncMeta (toGrid : K × K → K × K) : List (NcFile K D) → Option (List (Station K))
  | [] => some []
  | f :: fs =>
    match f.pos, ncMeta toGrid fs with
    | some (lon, lat, alt), some rest =>
      let p := toGrid (lon, lat)
      some (⟨f.id, p.1, p.2, some alt, none⟩ :: rest)
    | _, _ => none

/-- `_read_meteo_metadata` for csv files, `meteo.py:534-555`; the outer `none` of the argument: there is no
file `stations.csv` with the required columns. -/
def csvMeta (toGrid : K × K → K × K) (table : Option (List (CsvRow K))) : Option (List (Station K)) :=
  match table with
  | none => none
  | some rows => some (rows.map fun r =>
      let p := toGrid (r.x, r.y)
      ⟨r.id, p.1, p.2, some r.alt, some r.name⟩)

/-- `read_netcdf_meteo_file`, `meteo.py:167-195`: the file with the name of the station. The name of the
station is the attribute or else the identifier, `forcing.py:93-97` (the identifier as a name is
`none`). -/
def readNc (files : List (NcFile K D)) (s : Station K) : Option (Loaded K D) :=
  match files.find? fun f => decide (f.id = s.id) with
  | none => none
  | some f =>
    match f.pos with
    | none => none
    | some (lon, lat, alt) => some ⟨s.id, f.name, lon, lat, some alt, f.data⟩

/-- `read_csv_meteo_file`, `meteo.py:198-238`: position and name are those of the metadata. -/
def readCsv (toLonLat : K × K → K × K) (files : ℕ → Option D) (s : Station K) : Option (Loaded K D) :=
  match files s.id with
  | none => none
  | some d =>
    let p := toLonLat (s.x, s.y)
    some ⟨s.id, s.name, p.1, p.2, s.alt, d⟩

/-- The loop over the stations, `meteo.py:98-129`. -/
def loadAll (readOne : Station K → Option (Loaded K D)) (prep : D → Option D) (isEmpty : D → Bool) :
    List (Station K) → Option (List (Loaded K D))
  | [] => some []
  | s :: ss =>
    match readOne s with
    | none => none
    | some l =>
      match prep l.data with
      | none => none
      | some d =>
        match loadAll readOne prep isEmpty ss with
        | none => none
        | some rest => if isEmpty d then some rest else some ({ l with data := d } :: rest)

/-- `read_meteo_data`, `meteo.py:88-141`, up to the combination of the datasets; `strict` is
`raise_on_missing_data`. -/
def read (bounds : Option (Bounds K)) (exclude inclusion : Option (List ℕ)) (strict : Bool)
    (readOne : Station K → Option (Loaded K D)) (prep : D → Option D) (isEmpty : D → Bool)
    (table : Option (List (Station K))) : Option (List (Loaded K D)) :=
  match table with
  | none => none
  | some [] => none
  | some tbl =>
    match applyRules bounds exclude inclusion tbl with
    | none => none
    | some [] => none
    | some sel =>
      match loadAll readOne prep isEmpty sel with
      | none => none
      | some [] => if strict then none else some []
      | some ls => some ls

/-- Reading netCDF files. -/
def readNetcdf (bounds : Option (Bounds K)) (exclude inclusion : Option (List ℕ)) (strict : Bool)
    (toGrid : K × K → K × K) (prep : D → Option D) (isEmpty : D → Bool) (files : List (NcFile K D)) :
    Option (List (Loaded K D)) :=
  read bounds exclude inclusion strict (readNc files) prep isEmpty (ncMeta toGrid files)

/-- Reading csv files. -/
def readCsvFiles (bounds : Option (Bounds K)) (exclude inclusion : Option (List ℕ)) (strict : Bool)
    (toGrid toLonLat : K × K → K × K) (prep : D → Option D) (isEmpty : D → Bool)
    (table : Option (List (CsvRow K))) (files : ℕ → Option D) : Option (List (Loaded K D)) :=
  read bounds exclude inclusion strict (readCsv toLonLat files) prep isEmpty (csvMeta toGrid table)

end Verif.StationFiles
