import Mathlib.Analysis.SpecialFunctions.Pow.Real

/-!
# Inverse distance weighting

Mirrors `openamundsen/interpolation.py:19-110`.
-/

namespace Verif.Idw

/-- A station with usable coordinates and value. -/
structure Pt where
  x : ℝ
  y : ℝ
  z : ℝ

/-- Distance with smoothing, `interpolation.py:37`. -/
noncomputable def dist (smoothing : ℝ) (p : Pt) (x y : ℝ) : ℝ :=
  Real.sqrt ((x - p.x) ^ 2 + (y - p.y) ^ 2 + smoothing ^ 2)

open Classical in
/-- The loop over the stations for one target, `interpolation.py:36-48`, with accumulators `w` and
`total`. -/
noncomputable def loop (power smoothing x y : ℝ) : List Pt → ℝ → ℝ → ℝ
  | [], w, total => total / w
  | p :: ps, w, total =>
    let d := dist smoothing p x y
    if d = 0 then p.z
    else loop power smoothing x y ps (w + 1 / d ^ power) (total + p.z / d ^ power)

/-- Boolean indexing `xs[pos]`. -/
def compress {α : Type*} : List α → List Bool → List α
  | a :: as, true :: bs => a :: compress as bs
  | _ :: as, false :: bs => compress as bs
  | _, _ => []

/-- `np.isfinite` for a float that may be missing (infinities are outside the model). -/
def finite : List (Option ℝ) → List Bool := List.map Option.isSome

/-- Element-wise `&`. -/
def land (a b : List Bool) : List Bool := List.zipWith (· && ·) a b

/-- The points passed to the kernel: three arrays without missing values. -/
def points : List (Option ℝ) → List (Option ℝ) → List (Option ℝ) → List Pt
  | some x :: xs, some y :: ys, some z :: zs => ⟨x, y, z⟩ :: points xs ys zs
  | _, _, _ => []

/-- `idw` with `ignore_nan=True` (the value in every call of the code base),
`interpolation.py:53-110`. Outer `none`: the `ValueError` for unequal lengths; inner `none`: NaN. -/
noncomputable def idw (power smoothing : ℝ) (x y z : List (Option ℝ)) (targets : List (ℝ × ℝ)) :
    Option (List (Option ℝ)) :=
  if ¬ (x.length = y.length ∧ y.length = z.length) then none
  else
    let pos := land (land (finite x) (finite y)) (finite z)
    let x' := compress x pos
    let y' := compress y pos
    let z' := compress z pos
    if x'.length = 0 then some (targets.map fun _ => none)
    else some (targets.map fun t => some (loop power smoothing t.1 t.2 (points x' y' z') 0 0))

end Verif.Idw
