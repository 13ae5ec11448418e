import Verif.Model.Terrain
import Verif.Model.ClearSky

/-!
# Terrain parameters of rasters with missing values

The formulas of `Model/Terrain` (`openamundsen/terrain.py:11-132, 260-285`) for elevation models with pixels without
data (NaN, `none`): the shifts move missing values like any other value, and arithmetic with a missing value gives
a missing value.
-/

namespace Verif.Terrain

/-- `slope_aspect`, `terrain.py:34-78`, for one cell. The comparisons of an aspect that is NaN are false, so it stays
NaN (`terrain.py:71-76`). -/
noncomputable def slopeAspectGaps (n m : ℕ) (res : ℝ) (d : ℕ → ℕ → Option ℝ) (i j : ℕ) :
    Option ℝ × Option ℝ :=
  if n < 3 ∨ m < 3 then (some 0, none)
  else
    let gx : Option ℝ := do
      let c ← zc n m d i j
      let f ← zf m d i j
      let se ← zi n m d i j
      let a ← za n m d i j
      let w ← zd m d i j
      let g ← zg n m d i j
      pure (((c + 2 * f + se) - (a + 2 * w + g)) / (8 * res))
    let gy : Option ℝ := do
      let g ← zg n m d i j
      let h ← zh n d i j
      let se ← zi n m d i j
      let a ← za n m d i j
      let b ← zb n d i j
      let c ← zc n m d i j
      pure (((g + 2 * h + se) - (a + 2 * b + c)) / (8 * res))
    (do pure (slopeOf (← gx) (← gy)), do pure (aspectOf (← gx) (← gy)))

/-- `normal_vector`, `terrain.py:103-132`, for one cell. The third component before normalisation does not depend on the
elevations, but the length does (`terrain.py:127-130`), so all components are missing together. -/
noncomputable def normalVectorGaps (n m : ℕ) (res : ℝ) (d : ℕ → ℕ → Option ℝ) (i j : ℕ) :
    Option (ℝ × ℝ × ℝ) :=
  if n < 3 ∨ m < 3 then some (0, 0, 1)
  else
    let right := rollCols m (-1) d
    let up := rollRows n 1 d
    let diag := rollCols m (-1) (rollRows n 1 d)
    let v : ℕ → ℕ → Option (ℝ × ℝ × ℝ) := fun i j => do
      let z ← d i j
      let r ← right i j
      let u ← up i j
      let g ← diag i j
      pure (1 / 2 * res * (z - r + u - g), 1 / 2 * res * (z + r - u - g), res ^ 2)
    (copyCol (m - 1) (m - 2) (copyRow 0 1 v) i j).map fun v =>
      let len := Real.sqrt (v.1 ^ 2 + v.2.1 ^ 2 + v.2.2 ^ 2)
      (v.1 / len, v.2.1 / len, v.2.2 / len)

/-- `curvature(dem, res, "liston", L)`, `terrain.py:260-285`, with `k = ceil(L / res)` pixels. -/
noncomputable def curvatureGaps (n m k : ℕ) (L : ℝ) (d : ℕ → ℕ → Option ℝ) (i j : ℕ) : Option ℝ := do
  let z ← d i j
  let s0 ← shiftEdge n m k 0 d i j
  let s1 ← shiftEdge n m k 1 d i j
  let s2 ← shiftEdge n m k 2 d i j
  let s3 ← shiftEdge n m k 3 d i j
  let s4 ← shiftEdge n m k 4 d i j
  let s5 ← shiftEdge n m k 5 d i j
  let s6 ← shiftEdge n m k 6 d i j
  let s7 ← shiftEdge n m k 7 d i j
  pure (((z - (s6 + s2) / 2) / (2 * L) + (z - (s4 + s0) / 2) / (2 * L) +
    (z - (s5 + s1) / 2) / (2 * Real.sqrt 2 * L) + (z - (s7 + s3) / 2) / (2 * Real.sqrt 2 * L)) / 4)

/-- Direct irradiance of a pixel (`clearsky.py:101-106, 137-139`), given the other inputs of the pixel: missing
without normal vector, also in the shade (the product of zero and NaN is NaN). -/
noncomputable def directGaps (x : ClearSky.Input) (normal : Option (ℝ × ℝ × ℝ)) : Option ℝ :=
  normal.map fun v => ({ x with normal := v } : ClearSky.Input).direct

end Verif.Terrain
