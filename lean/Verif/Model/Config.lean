import Mathlib.Algebra.Order.Field.Basic
import Mathlib.Algebra.Order.AbsoluteValue.Basic
import Mathlib.Logic.Function.Basic

/-!
# Configuration, logging, array normalisation

Mirrors `openamundsen/conf.py:27-80, 180-326`, `openamundsen/model.py:389-434` and
`openamundsen/util.py:360-384`.
-/

namespace Verif.Config

/-! ## Land cover parameters -/

section landcover

variable {C P V : Type*} [DecidableEq C] [DecidableEq P]

/-- A dict of parameters, `none` for absent keys. -/
abbrev Params (P V : Type*) := P → Option V

/-- The dict with the given items (later items win). -/
def ofItems (ps : List (P × V)) (init : Params P V) : Params P V :=
  ps.foldl (fun d kv => Function.update d kv.1 (some kv.2)) init

/-- Body of the loop of `_merge_land_cover_params`, `conf.py:202-208`. -/
def mergeClass (m : C → Option (Params P V)) (c : C) (ps : List (P × V)) : C → Option (Params P V) :=
  match m c with
  | some d => Function.update m c (some (ofItems ps d))
  | none => Function.update m c (some (ofItems ps fun _ => none))

/-- `_merge_land_cover_params`, `conf.py:200-210`: the loop over the user's classes. -/
def mergeParams (defaults : C → Option (Params P V)) (user : List (C × List (P × V))) :
    C → Option (Params P V) :=
  user.foldl (fun m cp => mergeClass m cp.1 cp.2) defaults

end landcover

/-! ## Coercions of the schema validation -/

/-- `_normalize_coerce_timestep`, `conf.py:39-47`. -/
def coerceTimestep (s : List Char) : List Char :=
  if s.getLast? = some 'H' then s.dropLast ++ ['h'] else s

/-- `_normalize_coerce_snowmodel`, `conf.py:49-54`. -/
def coerceSnowModel (s : String) : String := if s = "layers" then "multilayer" else s

/-- `_normalize_coerce_meteo_interpolation`, `conf.py:56-61`. -/
def coerceInterpolation {V : Type*} (d : String → Option V) : String → Option V :=
  match d "wind_speed" with
  | some v => Function.update (Function.update d "wind_speed" none) "wind" (some v)
  | none => d

/-- `_normalize_coerce_cloudiness`, `conf.py:63-77`; `none`: `ConfigurationError`. -/
def coerceCloudiness {V : Type*} (d : String → Option V) : Option (String → Option V) :=
  let d1 : Option (String → Option V) :=
    match d "day_method" with
    | some v =>
      match d "method" with
      | none => some (Function.update (Function.update d "day_method" none) "method" (some v))
      | some _ => none
    | none => some d
  d1.map fun d =>
    match d "night_method" with
    | some v =>
      Function.update (Function.update d "night_method" none) "clear_sky_fraction_night_method" (some v)
    | none => d

/-! ## Additional validation -/

section validate

variable {K : Type*} [Field K] [LinearOrder K]

inductive SnowModel
  | multilayer
  | cryolayers
  deriving DecidableEq

inductive Melt
  | energyBalance
  | temperatureIndex
  | enhancedTemperatureIndex
  deriving DecidableEq

inductive AlbedoMethod
  | snowAge
  | usaco
  | fsm
  deriving DecidableEq

/-- `decay_timescale_determination_temperature`. -/
inductive DecayTemp
  | air
  | surface
  deriving DecidableEq

/-- `refresh_method`. -/
inductive Refresh
  | binary
  | continuous
  deriving DecidableEq

/-- `config.snow.albedo`. -/
structure AlbedoCfg (K : Type*) where
  method : AlbedoMethod
  kPos : K
  kNeg : K
  cold : K
  melting : K
  temp : DecayTemp
  refreshSnowfall : K
  significantSnowfall : K
  refresh : Refresh

/-- The fields used by `validate_config`. Dates and durations in seconds; `writeFreq` is `none` if it is
not a fixed duration (e.g. "ME"). -/
structure Cfg (K : Type*) where
  start : ℤ
  stop : ℤ
  dt : ℤ
  geographic : Bool
  writeFreq : Option ℤ
  snow : SnowModel
  melt : Melt
  degreeDayFactor : Option K
  albedoFactor : Option K
  threshold : K
  albedo : AlbedoCfg K
  glaciers : Bool

inductive Err
  | configuration
  | zeroDivision
  deriving DecidableEq

/-- `constants.T0`. -/
def T0 : K := 27315 / 100

/-- Checks that raise `ConfigurationError`, `conf.py:217-251, 276-291, 316-323`. The delta-h model is
the only glacier model of the schema. -/
def rejected (c : Cfg K) : Bool :=
  decide (c.stop < c.start) ||
  decide ((c.stop - c.start) / c.dt * c.dt + c.start ≠ c.stop) ||
  c.geographic ||
  (decide (86400 < c.dt) &&
    match c.writeFreq with
    | none => true
    | some w => decide (w % c.dt ≠ 0)) ||
  (decide (c.snow = .multilayer) && decide (c.melt ≠ .energyBalance)) ||
  (match c.melt with
    | .energyBalance => false
    | .temperatureIndex => c.degreeDayFactor.isNone
    | .enhancedTemperatureIndex => c.degreeDayFactor.isNone || c.albedoFactor.isNone) ||
  (c.glaciers && decide (c.snow ≠ .cryolayers))

/-- Conversion of the threshold temperature, `conf.py:285-291`. -/
def convertThreshold (t : K) : K := if |t| < 20 then t + T0 else t

/-- Deprecated albedo methods, `conf.py:293-314`; `none`: `ZeroDivisionError`. -/
def convertAlbedo (a : AlbedoCfg K) : Option (AlbedoCfg K) :=
  match a.method with
  | .usaco =>
    if a.kNeg = 0 ∨ a.kPos = 0 then none
    else some { a with
      method := .snowAge
      cold := 1 / a.kNeg * 24
      melting := 1 / a.kPos * 24
      temp := .air
      refreshSnowfall := a.significantSnowfall
      refresh := .binary }
  | .fsm => some { a with method := .snowAge, temp := .surface, refresh := .continuous }
  | .snowAge => some a

/-- `validate_config`, `conf.py:213-326` (without warnings and the optional snow management module).
The order of the checks is irrelevant for the outcome except for which exception is raised. -/
def validate (c : Cfg K) : Except Err (Cfg K) :=
  if rejected c then .error .configuration
  else
    match convertAlbedo c.albedo with
    | none => .error .zeroDivision
    | some a => .ok { c with threshold := convertThreshold c.threshold, albedo := a }

end validate

/-! ## Logger -/

/-- Handlers of the package logger. -/
inductive Handler
  | null
  | host (id : ℕ)
  | default
  deriving DecidableEq

/-- Log level of the package logger: `none` is `NOTSET`. -/
structure Logger where
  handlers : List Handler
  level : Option ℕ
  deriving DecidableEq

/-- `configure_logger`, `model.py:389-424`. -/
def configure (enabled : Bool) (level : ℕ) (l : Logger) : Logger :=
  let rest := l.handlers.filter fun h => decide (h ≠ .default)
  let hostHandlers := rest.filter fun h => decide (h ≠ .null)
  if hostHandlers = [] then
    if enabled then ⟨rest ++ [.default], some level⟩ else ⟨rest, none⟩
  else ⟨rest, l.level⟩

/-- `_ensure_logger_configured`, `model.py:426-434`: the state of the logger and the process ID stored
in the model. -/
def ensure (enabled : Bool) (level : ℕ) (pid : ℕ) (s : Logger × Option ℕ) : Logger × Option ℕ :=
  if s.2 ≠ some pid then (configure enabled level s.1, some pid) else s

/-- What can happen in a process: a model configures logging, the host adds or removes a handler. -/
inductive LogOp
  | configure (enabled : Bool) (level : ℕ)
  | hostAdd (h : Handler)
  | hostRemove (id : ℕ)

/-- Handlers a host application may add. -/
def LogOp.legal : LogOp → Bool
  | .hostAdd h => decide (h ≠ .default)
  | _ => true

/-- One operation. -/
def logStep (l : Logger) : LogOp → Logger
  | .configure e lv => configure e lv l
  | .hostAdd h => { l with handlers := l.handlers ++ [h] }
  | .hostRemove i => { l with handlers := l.handlers.filter fun h => decide (h ≠ .host i) }

/-! ## Array normalisation -/

section normalize

variable {K : Type*} [Field K] [LinearOrder K]

/-- `normalize_array`, `util.py:360-384`. Result `none`: the scale factor is not finite (no values, or
all equal) and every element of the result is NaN. -/
def normalize (data : List (Option K)) (mn mx : K) : Option (List (Option K)) :=
  let vals := data.filterMap id
  match vals.min?, vals.max? with
  | some dmin, some dmax =>
    if dmax - dmin = 0 then none
    else
      let scale := (mx - mn) / (dmax - dmin)
      some (data.map fun v => v.map fun x => mn + scale * (x - dmin))
  | _, _ => none

end normalize

end Verif.Config
