import Verif.Model.GridGeom

/-!
# Resampling of shadows and stations of the extended grid

Mirrors `openamundsen/modules/radiation/irradiance.py:29-64, 93-138`.
-/

namespace Verif.ShadowGrid

open Verif.Stations Verif.GridGeom

/-- `a[::f]` (`1 ≤ f`). -/
def stride {α : Type*} (f : ℕ) : List α → List α
  | [] => []
  | x :: xs => x :: stride f (xs.drop (f - 1))
termination_by l => l.length
decreasing_by simp; omega

/-- `a.repeat(f)`. -/
def repeatEach {α : Type*} (f : ℕ) (l : List α) : List α := l.flatMap fun x => List.replicate f x

/-- `a[::f, ::f]`, `irradiance.py:38`; an array is the list of its rows. -/
def downsample {α : Type*} (f : ℕ) (a : List (List α)) : List (List α) := (stride f a).map (stride f)

/-- Repetition along both axes and cropping to the original shape, `irradiance.py:48-56`. -/
def upsample {α : Type*} (f rows cols : ℕ) (a : List (List α)) : List (List α) :=
  let b := (repeatEach f a).map (repeatEach f)
  let b := if rows < b.length then b.take rows else b
  if ∃ r ∈ b, cols < r.length then b.map fun r => r.take cols else b

/-- Shadows for the DEM, `irradiance.py:29-56`; `shadows` is the algorithm, with the resolution and the DEM as
arguments. -/
def shadowsFor {K α β : Type*} [Field K] (shadows : K → List (List α) → List (List β)) (res : K) (f rows cols : ℕ)
    (dem : List (List α)) : List (List β) :=
  if 1 < f then upsample f rows cols (shadows (res * f) (downsample f dem)) else shadows (res * f) dem

section stations

variable {K : Type*} [Field K] [LinearOrder K] [FloorRing K]

/-- Row and column of a station in the extended grid, `irradiance.py:98-101, 122-123`. -/
def extCell (g : Geom K) (off : ℤ × ℤ) (x y : K) : ℤ × ℤ :=
  ((rowcol g x y).1 + off.1, (rowcol g x y).2 + off.2)

/-- Selection of a station, `irradiance.py:104-113`; the second part of `dropna` (missing temperature or humidity) is
not part of the geometry. -/
def extSelected (g ext : Geom K) (off : ℤ × ℤ) (x y : K) : Bool :=
  let rc := extCell g off x y
  decide (0 ≤ rc.1) && decide (0 ≤ rc.2) && decide (rc.1 < ext.rows) && decide (rc.2 < ext.cols) &&
    !withinExtent g x y

end stations

end Verif.ShadowGrid
