import Verif.Model.Glacier
import Verif.Model.CryoLayer

/-!
# Glacier geometry update with its effect on the layers

Model of `GlacierModel._update_geometry`, `openamundsen/modules/glacier/glaciermodel.py:60-131`, for the whole domain: all
glaciers, writing back of thickness and ice content, update of the layers.
-/

namespace Verif.GlacierMass

open Verif.Glacier (Pix)
open Verif.Cryo (CPixel)

variable {K : Type*} [Field K] [LinearOrder K]

/-- A pixel: glacier ID (0: none), elevation, water equivalents of ice and firn layer at the start of the mass balance year
(`mass_balance_start_we`, `glaciermodel.py:51`) and the layers. -/
structure GPixel (K : Type*) where
  gid : ℕ
  elev : K
  iceStart : K
  firnStart : K
  layers : CPixel K

/-- What the geometry update reads, `glaciermodel.py:62-68`. -/
def GPixel.pix (p : GPixel K) : Pix K where
  gid := p.gid
  elev := p.elev
  iceStart := p.iceStart
  firnStart := p.firnStart
  iceEnd := p.layers.ice.we
  firnEnd := p.layers.firn.we
  thickness := p.layers.ice.thick

/-- Writing back, `glaciermodel.py:128-129`: thickness and ice content of the ice layer of every pixel. -/
def GPixel.write (p : GPixel K) (q : Pix K) : GPixel K :=
  { p with layers := { p.layers with
      ice := { p.layers.ice with thick := q.thickness, ice := q.thickness * Glacier.iceDensity } } }

variable [FloorRing K]

/-- The loop over the glaciers, `glaciermodel.py:70-126`. -/
def glaciers (res : K) : List ℕ → List (Pix K) → Option (List (Pix K))
  | [], px => some px
  | g :: gs, px =>
    match Glacier.updateLimited g res px with
    | none => none
    | some px' => glaciers res gs px'

/-- `_update_geometry`, `glaciermodel.py:60-131`. `ids`: the glacier IDs in increasing order, `glaciermodel.py:39-40`; the other
arguments are those of `update_layers`. `none`: NaN. -/
def updateGeometry (res oldDensity iceDens : K) (firnDate : Bool) (ids : List ℕ) (ps : List (GPixel K)) :
    Option (List (GPixel K)) :=
  match glaciers res ids (ps.map GPixel.pix) with
  | none => none
  | some qs =>
    (List.zipWith GPixel.write ps qs).mapM fun p =>
      (Cryo.updateLayers oldDensity iceDens firnDate p.layers).map fun l => { p with layers := l }

end Verif.GlacierMass
