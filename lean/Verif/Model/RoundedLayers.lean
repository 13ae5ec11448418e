import Verif.Model.Rounded
import Verif.Model.MultiLayer
import Mathlib.Logic.Function.Basic
import Mathlib.Data.Rat.Floor

/-!
# Relayering of the multilayer model in floating point arithmetic

`_update_layers` with rounding after every operation, in the order of the program. Ice, liquid water and energy of the
layers are treated alike by the loop; contents are a family of numbers indexed by any type.
-/

namespace Verif.Rounded

variable {K : Type*} [Field K] [LinearOrder K] {ι : Type*}

/-- An old layer: remaining thickness and contents, `multilayermodel.py:574-577`. -/
structure Old (K ι : Type*) where
  thick : K
  cont : ι → K

/-- State of the redistribution: `k_new`, `new_thickness` and the contents of the new layers. -/
structure Acc (K ι : Type*) where
  kNew : ℕ
  newTh : K
  cont : ℕ → ι → K

variable (rd : K → K)

/-- Snow depth, `snow.py:352`: rows are added one after the other. -/
def depth (os : List (Old K ι)) : K := os.foldl (fun s o => rd (s + o.thick)) 0

/-- New thicknesses, `multilayermodel.py:592-601`. -/
def newThickness : K → List K → List K
  | _, [] => []
  | new, m :: ms =>
    if rd (new - m) ≤ m ∨ ms = [] then rd (m + rd (new - m)) :: ms.map fun _ => 0
    else m :: newThickness (rd (new - m)) ms

/-- `weight = min(new_thickness / thickness_prev, 1.0)`, `multilayermodel.py:616`; `x/0` is infinite for positive `x` and NaN
(`none`) for zero. -/
def weight (new old : K) : Option K :=
  if old = 0 then (if 0 < new then some 1 else none) else some (min (rd (new / old)) 1)

/-- The `while True` loop for one old layer, `multilayermodel.py:615-639`. `none` is a NaN weight or a write behind the end of
the arrays. -/
def relayerOld (maxLayers ns : ℕ) (ths : ℕ → K) (o : Old K ι) (a : Acc K ι) : Option (Acc K ι) :=
  if maxLayers ≤ a.kNew then none
  else
    match weight rd a.newTh o.thick with
    | none => none
    | some w =>
      let cont := Function.update a.cont a.kNew fun c => rd (a.cont a.kNew c + rd (w * o.cont c))
      if w = 1 then
        some ⟨a.kNew, rd (a.newTh - o.thick), cont⟩
      else if ns ≤ a.kNew + 1 then
        some ⟨a.kNew + 1, a.newTh, cont⟩
      else
        relayerOld maxLayers ns ths ⟨rd (o.thick * rd (1 - w)), fun c => rd (o.cont c * rd (1 - w))⟩
          ⟨a.kNew + 1, if w < 1 then ths (a.kNew + 1) else a.newTh, cont⟩
termination_by ns - a.kNew

/-- The loop over the old layers, `multilayermodel.py:614-639`. -/
def relayerLoop (maxLayers ns : ℕ) (ths : ℕ → K) : List (Old K ι) → Acc K ι → Option (Acc K ι)
  | [], a => some a
  | o :: os, a => (relayerOld rd maxLayers ns ths o a).bind (relayerLoop maxLayers ns ths os)

/-- `_update_layers`, `multilayermodel.py:591-641`: number of new layers, their thicknesses and contents. -/
def relayer (minTh : List K) (os : List (Old K ι)) : Option (ℕ × List K × (ℕ → ι → K)) :=
  if 0 < depth rd os then
    let thl := MultiLayer.dropThin (newThickness rd (depth rd os) minTh)
    let ns := thl.countP fun t => decide (0 < t)
    (relayerLoop rd minTh.length ns (fun k => thl.getD k 0) os ⟨0, thl.getD 0 0, fun _ _ => 0⟩).map fun a => (ns, thl, a.cont)
  else some (0, minTh.map fun _ => 0, fun _ _ => 0)

/-- Rounding to the nearest integer, ties to even (the rounding of IEEE 754 arithmetic). -/
def roundEven [IsStrictOrderedRing K] [FloorRing K] (x : K) : ℤ :=
  if x - ⌊x⌋ < 1 / 2 ∨ (x - ⌊x⌋ = 1 / 2 ∧ ⌊x⌋ % 2 = 0) then ⌊x⌋ else ⌊x⌋ + 1

/-- Double precision. -/
def dbl : ℚ → ℚ := flt roundEven 53

end Verif.Rounded
