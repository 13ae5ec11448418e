import Verif.Model.InitForcing

/-!
# Specification of the forcing of a model (C141)

On contents of variables alone, without arrays and addresses.
-/

namespace Verif.InitForcing

variable {A C : Type*}

/-- Data the model starts from. -/
def origin (s : Setup A C) (given : Option Dataset) (h : Heap A) (v : String) : Option A :=
  match s.format with
  | .csv | .netcdf => s.files.bind fun f => f.2.lookup v
  | .memory => given.bind fun d => d.val h v
  | .callback =>
    if v ∈ ["station_name", "lon", "lat", "alt", "temp", "precip", "rel_hum", "sw_in", "wind_speed"] then
      some s.noStations
    else none

/-- Precipitation with every correction applied once, in order; the corrections see the original data. -/
def corrected (s : Setup A C) (orig : String → Option A) (lon lat : A) : Option A :=
  if s.corrections = [] then orig "precip"
  else do
    let alt ← orig "alt"
    let temp ← orig "temp"
    let hum ← orig "rel_hum"
    let wind ← orig "wind_speed"
    let p ← orig "precip"
    s.corrections.foldlM
      (fun q c => s.fac c [s.coords lon lat "x", s.coords lon lat "y", alt, temp, hum, wind, p] q) p

/-- Forcing of the model. -/
def forcing (s : Setup A C) (orig : String → Option A) (lon lat : A) (v : String) : Option A :=
  if v = "precip" then corrected s orig lon lat
  else if v = "within_roi" then
    match s.ext with
    | none => some (s.coords lon lat "within_roi")
    | some f => some (f (s.coords lon lat "within_grid_extent") (s.coords lon lat "within_roi"))
  else if v ∈ ["x", "y", "col", "row", "within_grid_extent"] then some (s.coords lon lat v)
  else if v ∈ ["station_name", "lon", "lat", "alt", "cloud_fraction", "rel_hum", "sw_in", "temp", "wind_dir", "wind_speed",
      "wind_speed_gust"] then orig v
  else none

/-- The source of the data is acceptable. -/
def SourceOk (s : Setup A C) (given : Option Dataset) : Prop :=
  match s.format with
  | .csv | .netcdf => s.files.isSome = true
  | .memory => ∃ d, given = some d ∧ (∀ x, x ∈ d.dims ↔ x = "station" ∨ x = "time") ∧ d.times = s.dates ∧
      ∀ v ∈ ["station_name", "lon", "lat", "alt", "temp", "precip", "rel_hum", "sw_in", "wind_speed"],
        v ∈ d.vars.map Prod.fst
  | .callback => s.hasCallback = true

/-- All arrays of the dataset exist. -/
def Wf (d : Dataset) (h : Heap A) : Prop := ∀ p ∈ d.vars, p.2 < h.length

end Verif.InitForcing
