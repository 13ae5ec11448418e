import Verif.Model.RoiPixel
import Verif.Model.GridDataset

/-!
# Types and fill values in both layouts of the gridded output

Mirrors `openamundsen/fileio/griddedoutput.py:196-256, 318-334, 497-519, 594-619` and
`openamundsen/util.py:151-172`. Simplified: one date and one layer of a variable; the decoding of files by
`xarray.open_dataset` (values equal to `_FillValue` become NaN, integers become floats, the attribute
moves to `encoding`) is taken from its documentation.
-/

namespace Verif.Layouts

open Verif.RoiPixel
open Verif.GridDataset (wrap FILL)

variable {K : Type*}

/-- A number of an integer or float array (`none`: NaN). -/
inductive Num (K : Type*) where
  | int (z : ℤ)
  | float (x : Option K)
  deriving DecidableEq

/-- Fill value of a variable, `griddedoutput.py:594-619`: `integer` variables except their means. -/
def fillValue (integer mean : Bool) : Num K := if integer && !mean then .int FILL else .float none

/-- Assignment to the array of the dataset: int32 or float32 (rounding `rnd`),
`griddedoutput.py:246-252, 318-334, 512-518`. -/
def store (rnd : K → K) : Num K → Num K
  | .int z => .int (wrap z)
  | .float x => .float (x.map rnd)

/-- Data of an aggregated field, `griddedoutput.py:205-232`: fill value outside of the region. -/
def aggregated (fill : Num K) (agg : ℕ → Num K) (roi : List Bool) : List (Num K) :=
  roi.mapIdx fun i b => if b then agg i else fill

/-- Initial value of a state variable, `statevars.py:8-14, 480-498`. -/
def initial (integer : Bool) : Num K := if integer then .int 0 else .float none

/-- What a reader of a file gets, with or without decoding. -/
def read [IntCast K] (decode : Bool) : Num K → Num K
  | .int z => if decode then .float (if z = FILL then none else some (z : K)) else .int z
  | .float x => .float x

/-- Fill value used by the conversion, `util.py:159-160`: the one of the file, in the type of the array read. -/
def conversionFill [IntCast K] (decode : Bool) : Num K → Num K
  | .int z => if decode then .float (some (z : K)) else .int z
  | .float x => .float x

/-- A field in the grid layout as read, `griddedoutput.py:246-247, 319-320`. -/
def gridLayout [IntCast K] (rnd : K → K) (decode : Bool) (field : List (Num K)) : List (Num K) :=
  field.map fun v => read decode (store rnd v)

/-- A field in the layout for the pixels of the region as read, `griddedoutput.py:248-252, 321-334`. -/
def pixelLayout [IntCast K] (rnd : K → K) (decode : Bool) (roi : List Bool) (field : List (Num K)) :
    List (Num K) :=
  (toPixels field roi).map fun v => read decode (store rnd v)

/-- The converted field, `util.py:151-172`. -/
def converted [IntCast K] (rnd : K → K) (decode : Bool) (nrows ncols : ℕ) (roi : List Bool)
    (fill : Num K) (field : List (Num K)) : List (Num K) :=
  fromPixels nrows ncols (pixelIdxs roi) (conversionFill decode fill) (pixelLayout rnd decode roi field)

end Verif.Layouts
