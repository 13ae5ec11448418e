import Mathlib.Algebra.Order.Field.Basic
import Mathlib.Algebra.Order.Field.Power
import Mathlib.Algebra.BigOperators.Group.List.Basic
import Mathlib.Data.Int.Log
import Mathlib.Algebra.Order.Round
import Verif.Model.CryoLayer

/-!
# The water of the cryolayer model in floating point arithmetic

All other modules calculate exactly. Here every operation on the water contents of the cryolayer model is followed by
rounding, in the order of the program, so that statements about the numbers the program really has can be made.

The arrays are float64 (`statevars.py`; no dtype is given for the variables of the snow model). Overflow and underflow are
left out: the relative error of a single operation is at most `u`.
-/

namespace Verif.Rounded

variable {K : Type*} [Field K] [LinearOrder K]

/-- What is assumed of rounding to the nearest or in any other direction with relative error `u`: monotone, numbers of the
format are kept, 1 is one of them. -/
structure IsRounding (u : K) (rd : K → K) : Prop where
  mono : Monotone rd
  one : rd 1 = 1
  idem : ∀ x, rd (rd x) = rd x
  rel : ∀ x, |rd x - x| ≤ u * |x|

/-- Rounding of positive numbers to `p` binary digits with a given rounding to integers: floor, ceiling, nearest with any
rule for ties. -/
def fltPos [FloorSemiring K] (r : K → ℤ) (p : ℕ) (x : K) : K := r (x / 2 ^ (Int.log 2 x - p + 1)) * 2 ^ (Int.log 2 x - p + 1)

/-- Floating point format with `p` binary digits and unlimited exponent. -/
def flt [FloorSemiring K] (r : K → ℤ) (p : ℕ) (x : K) : K :=
  if 0 < x then fltPos r p x else if x < 0 then -fltPos r p (-x) else 0

/-- Ice and liquid water content of a layer. -/
structure W (K : Type*) where
  ice : K
  lwc : K

/-- Layers from top to bottom; NEW_SNOW, OLD_SNOW, FIRN, ICE for the cryolayer model. -/
abbrev Pix (K : Type*) := List (W K)

variable (rd : K → K)

/-- Body of the melt loop, `cryolayermodel.py:229-238`. -/
def meltLayer (d : K) (L : W K) : K × W K :=
  if 0 < d ∧ 0 < L.ice then
    (rd (d - min d L.ice), ⟨rd (L.ice - min d L.ice), rd (L.lwc + min d L.ice)⟩)
  else (d, L)

/-- `melt`, `cryolayermodel.py:226-238`. -/
def melt : K → Pix K → Pix K
  | _, [] => []
  | d, L :: Ls => (meltLayer rd d L).2 :: melt (meltLayer rd d L).1 Ls

/-- `ice_content.sum(axis=0)`: rows are added one after the other. -/
def iceSum (p : Pix K) : K := p.foldl (fun s L => rd (s + L.ice)) 0

/-- Body of the sublimation loop, `cryolayermodel.py:261-269`. -/
def sublLayer (d : K) (L : W K) : K × W K :=
  if 0 < d ∧ 0 < L.ice then (rd (d - min d L.ice), ⟨rd (L.ice - min d L.ice), L.lwc⟩)
  else (d, L)

/-- The loop `cryolayermodel.py:260-269`: remaining change and layers. -/
def sublLoop : K → Pix K → K × Pix K
  | d, [] => (d, [])
  | d, L :: Ls =>
    let r := sublLoop (sublLayer rd d L).1 Ls
    (r.1, (sublLayer rd d L).2 :: r.2)

/-- `add_snow`, `cryolayermodel.py:458`, in kg m-2. -/
def addSnow (amount : K) : Pix K → Pix K
  | [] => []
  | L :: Ls => ⟨rd (L.ice + amount), L.lwc⟩ :: Ls

/-- `sublimation`, `cryolayermodel.py:240-277`, with the potential sublimation of line 248: reported amount and layers. -/
def sublimation (pot : K) (p : Pix K) : K × Pix K :=
  let subl := if 0 < iceSum rd p then min pot (iceSum rd p) else 0
  let r := sublLoop rd subl p
  (subl, if r.1 < 0 then addSnow rd (-r.1) r.2 else r.2)

/-- Refreezing of one layer with the available cold, `surface.py:316-326`. -/
def refreezeLayer (avail : K) (L : W K) : W K :=
  if 0 < avail then ⟨rd (L.ice + min L.lwc avail), rd (L.lwc - min L.lwc avail)⟩ else L

/-- Refreezing with the available cold of each layer given. -/
def refreeze : List K → Pix K → Pix K
  | a :: as, L :: Ls => refreezeLayer rd a L :: refreeze as Ls
  | _, Ls => Ls

/-- Body of the runoff loop, `cryolayermodel.py:290-295`. -/
def runoffLayer (r cap : K) (L : W K) : K × W K :=
  if 0 < rd (L.ice + L.lwc) then
    let l := rd (L.lwc + r)
    let out := max (rd (l - cap)) 0
    (out, ⟨L.ice, rd (l - out)⟩)
  else (r, L)

/-- `runoff`, `cryolayermodel.py:286-297`, with the retention capacities given (missing ones are zero, line 284). -/
def runoff : K → List K → Pix K → K × Pix K
  | r, _, [] => (r, [])
  | r, caps, L :: Ls =>
    let a := runoffLayer rd r (caps.headD 0) L
    let b := runoff a.1 caps.tail Ls
    (b.1, a.2 :: b.2)

/-- Reset of empty layers, `cryolayermodel.py:304-308`. -/
def refresh (L : W K) : W K := if rd (L.ice + L.lwc) ≤ 0 then ⟨0, 0⟩ else L

/-- `layer_transition`, `cryolayermodel.py:368-408`. A layer has positive thickness exactly if it contains water (thickness is
water equivalent divided by density, lines 311-312, density positive). -/
def transition (pos : Bool) (src dst : W K) : W K × W K :=
  if pos then
    if 0 < src.ice + src.lwc then
      if 0 < dst.ice + dst.lwc then (⟨0, 0⟩, ⟨rd (dst.ice + src.ice), rd (dst.lwc + src.lwc)⟩)
      else (⟨0, 0⟩, src)
    else (⟨0, 0⟩, dst)
  else (src, dst)

/-- `update_layers`, `cryolayermodel.py:299-334`; whether the densities and the date ask for a transition is given. -/
def updateLayers (toOld toFirn toIce : Bool) : Pix K → Pix K
  | [n, o, f, i] =>
    let a := transition rd toOld (refresh rd n) (refresh rd o)
    let b := transition rd toFirn a.2 (refresh rd f)
    let c := transition rd toIce b.2 (refresh rd i)
    [a.1, b.1, c.1, c.2]
  | p => p

/-- Inputs of a time step; those that depend on energy, thickness and density are arbitrary here. -/
structure In (K : Type*) where
  snow : K
  rain : K
  /-- melt of the energy balance or the temperature index method -/
  melt : K
  /-- cold available for refreezing in each layer -/
  cold : List K
  /-- potential sublimation, negative for deposition -/
  pot : K
  /-- retention capacity of new and old snow -/
  caps : List K
  toOld : Bool
  toFirn : Bool
  toIce : Bool

/-- Reported fluxes. -/
structure Out (K : Type*) where
  sublimation : K
  runoff : K

/-- The water part of a time step, `model.py:351-377`. -/
def step (e : In K) (p : Pix K) : Out K × Pix K :=
  let p1 := if 0 < e.snow then addSnow rd e.snow p else p
  let p2 := refreeze rd e.cold p1
  let p3 := melt rd e.melt p2
  let s := sublimation rd e.pot p3
  let r := runoff rd e.rain e.caps s.2
  (⟨s.1, r.1⟩, updateLayers rd e.toOld e.toFirn e.toIce r.2)

/-- A run: reported fluxes of all time steps and final layers. -/
def run : List (In K) → Pix K → List (Out K) × Pix K
  | [], p => ([], p)
  | e :: es, p =>
    let r := step rd e p
    let q := run es r.2
    (r.1 :: q.1, q.2)

end Verif.Rounded
