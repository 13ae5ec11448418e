import Mathlib.Algebra.Order.Field.Basic
import Mathlib.Algebra.BigOperators.Group.List.Basic
import Mathlib.Algebra.Order.Floor.Ring
import Mathlib.Data.List.Sort

/-!
# Glacier geometry (delta-h)

Mirrors `openamundsen/modules/glacier/glaciermodel.py`.
-/

namespace Verif.Glacier

variable {K : Type*} [Field K] [LinearOrder K] [IsStrictOrderedRing K]

/-- `x.min()` of a non-empty array. -/
def lmin : List K → K
  | [] => 0
  | x :: xs => xs.foldl min x

/-- `x.max()` of a non-empty array. -/
def lmax : List K → K
  | [] => 0
  | x :: xs => xs.foldl max x

/-- `_delta_h`, `glaciermodel.py:192-200`, for one normalised elevation. -/
def deltaH (area h : K) : K :=
  let d :=
    if 20000000 ≤ area then -((h - 2 / 100) ^ 6 + 12 / 100 * (h - 2 / 100))
    else if 5000000 ≤ area then -((h - 5 / 100) ^ 4 + 19 / 100 * (h - 5 / 100) + 1 / 100)
    else -((h - 30 / 100) ^ 2 + 60 / 100 * (h - 30 / 100) + 9 / 100)
  min (max d (-1)) 0

/-- `_scale_mass_loss_surplus`, `glaciermodel.py:229-230`, with `min_mass = 0`. -/
def scale (maxMass mn mx e : K) : K := (maxMass - 0) * (e - mn) / (mx - mn) + 0

/-- `_mass_loss_surplus_distribution`, `glaciermodel.py:203-226`: the function applied to each of the
elevations; `none` if a divisor is zero. -/
def surplus (loss : K) (elevs : List K) : Option (K → K) :=
  let mn := lmin elevs
  let mx := lmax elevs
  if mx = mn then none
  else
    let x0 : K := 0
    let x1 := loss / elevs.length * (15 / 10)
    if x1 = x0 then none
    else
      let y0 := (elevs.map (scale x0 mn mx)).sum
      let y1 := (elevs.map (scale x1 mn mx)).sum
      let k := (y1 - y0) / (x1 - x0)
      let d := y0 - k * x0
      if k = 0 then none
      else some (scale ((loss - d) / k) mn mx)

/-- Mass changes before the restriction, `glaciermodel.py:166-172`; `none` for equal elevations. -/
def unrestricted (elevs : List K) (total area : K) : Option (List K) :=
  let mn := lmin elevs
  let mx := lmax elevs
  if mx = mn then none
  else
    let dh := elevs.map fun e => deltaH area ((mx - e) / (mx - mn))
    let fs := total / dh.sum
    some (dh.map (fs * ·))

/-- The restriction of the surface lowering, `glaciermodel.py:174-184`, given the elevations and mass
changes of the pixels. -/
def restrict (lim : K) (px : List (K × K)) : Option (List K) :=
  let clip := px.filter fun p => decide (p.2 < lim)
  let keep := px.filter fun p => decide (¬ p.2 < lim)
  if lim < 0 ∧ clip ≠ [] ∧ 1 < keep.length then
    let before := (px.map Prod.snd).sum
    let after := (px.map fun p => if p.2 < lim then lim else p.2).sum
    match surplus (before - after) (keep.map Prod.fst) with
    | none => none
    | some f => some (px.map fun p => if p.2 < lim then lim else p.2 + f p.1)
  else some (px.map Prod.snd)

/-- `_ice_mass_change`, `glaciermodel.py:136-189`, for a non-empty list of elevations; `none`: NaN. -/
def iceMassChange (elevs : List K) (total area lim : K) : Option (List K) :=
  if total < 0 then
    match unrestricted elevs total area with
    | none => none
    | some mc => restrict lim (elevs.zip mc)
  else some (elevs.map fun _ => total / elevs.length)

/-! ## Geometry update -/

/-- `ICE_DENSITY`, `constants.py:36`. -/
def iceDensity : K := 917

/-- A pixel: glacier ID, elevation, water equivalents (ice + liquid) of ice and firn layer at the
start and end of the mass balance year, thickness of the ice layer. -/
structure Pix (K : Type*) where
  gid : ℕ
  elev : K
  iceStart : K
  firnStart : K
  iceEnd : K
  firnEnd : K
  thickness : K

/-- `old_ice_thickness`, `glaciermodel.py:67`. -/
def Pix.old (p : Pix K) : K := p.iceStart / iceDensity

/-- `mb`, `glaciermodel.py:62-66`. -/
def Pix.mb (p : Pix K) : K := (p.iceEnd - p.iceStart) + (p.firnEnd - p.firnStart)

/-- Pixels of the glacier, `glaciermodel.py:71`. -/
def inGlacier (gid : ℕ) (p : Pix K) : Bool := decide (p.gid = gid ∧ 0 < p.old)

/-- Pixels to be updated, `glaciermodel.py:86-87`. -/
def toUpdate (gid : ℕ) (p : Pix K) : Bool := inGlacier gid p && decide (10 ≤ p.old)

/-- New thickness of an updated pixel, `glaciermodel.py:124-126`. -/
def newThickness (p : Pix K) (change : K) : K :=
  max (p.old + (change - (p.firnEnd - p.firnStart)) / iceDensity) 0

/-- Assignment of the new thicknesses to the updated pixels, the others keep theirs. -/
def writeBack (sel : Pix K → Bool) : List (Pix K) → List K → List (Pix K)
  | [], _ => []
  | p :: ps, mc =>
    if sel p then
      match mc with
      | m :: ms => { p with thickness := newThickness p m } :: writeBack sel ps ms
      | [] => p :: writeBack sel ps []
    else p :: writeBack sel ps mc

/-- Update of one glacier, `glaciermodel.py:70-126`. `lim` is `max_allowed_change`, derived in lines
95-115 from the mass balance of the terminus (`maxAllowedChange`); `res` is the grid resolution. `none`: NaN thickness. -/
def updateGlacier (gid : ℕ) (res lim : K) (px : List (Pix K)) : Option (List (Pix K)) :=
  let upd := px.filter (toUpdate gid)
  if upd.length < 2 then some px
  else
    let total := (upd.map Pix.mb).sum
    let area := ((px.filter (inGlacier gid)).length : K) * res ^ 2
    match iceMassChange (upd.map Pix.elev) total area lim with
    | none => none
    | some mc => some (writeBack (toUpdate gid) px mc)

/-! ## Terminus -/

section terminus

variable [FloorRing K]

/-- `max_terminus_elev`, `glaciermodel.py:93-110`, of a non-empty list of elevations, with
`TERMINUS_MASS_BALANCE_ELEVATION_PERCENTAGE = 10` and `TERMINUS_ELEVATION_BUFFER = 50`, lines 11-12. -/
def maxTerminusElev (elevs : List K) : K :=
  let sorted := elevs.insertionSort (· ≤ ·)
  let num := ⌈(elevs.length : K) * (10 / 100)⌉.toNat
  max (lmax (sorted.take num)) (lmin elevs + 50)

/-- `max_allowed_change`, `glaciermodel.py:112-116`, for elevations and mass balances of the pixels. -/
def maxAllowedChange (px : List (K × K)) : K :=
  let e := maxTerminusElev (px.map Prod.fst)
  min (lmin ((px.filter fun p => decide (p.1 ≤ e)).map Prod.snd)) 0

/-- Update of one glacier including the limit, `glaciermodel.py:70-126`. -/
def updateLimited (gid : ℕ) (res : K) (px : List (Pix K)) : Option (List (Pix K)) :=
  updateGlacier gid res (maxAllowedChange ((px.filter (inGlacier gid)).map fun p => (p.elev, p.mb))) px

end terminus

end Verif.Glacier
