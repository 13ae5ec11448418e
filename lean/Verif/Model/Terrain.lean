import Mathlib.Algebra.Order.Field.Basic
import Mathlib.Analysis.SpecialFunctions.Complex.Arg
import Mathlib.Analysis.SpecialFunctions.Trigonometric.Arctan

/-!
# Terrain parameters

Mirrors `openamundsen/terrain.py:11-132, 229-285, 336-419` (`slope_aspect`, `normal_vector`, `curvature`,
`_openness_dir`, `_shift_arr`) and `modules/radiation/clearsky.py:101-105`. A raster is a function of row (counted from
the north) and column; only its values for `i < n` and `j < m` matter. `res` is the cell size.
-/

namespace Verif.Terrain

section
variable {K : Type*}

/-- `np.roll(a, k, axis=0)` of an array with `n` rows. -/
def rollRows (n : ℕ) (k : ℤ) (a : ℕ → ℕ → K) : ℕ → ℕ → K := fun i j => a (((i : ℤ) - k) % n).toNat j

/-- `np.roll(a, k, axis=1)` of an array with `m` columns. -/
def rollCols (m : ℕ) (k : ℤ) (a : ℕ → ℕ → K) : ℕ → ℕ → K := fun i j => a i (((j : ℤ) - k) % m).toNat

/-- `a[dst, :] = a[src, :]`. -/
def copyRow (dst src : ℕ) (a : ℕ → ℕ → K) : ℕ → ℕ → K := fun i j => if i = dst then a src j else a i j

/-- `a[:, dst] = a[:, src]`. -/
def copyCol (dst src : ℕ) (a : ℕ → ℕ → K) : ℕ → ℕ → K := fun i j => if j = dst then a i src else a i j

/-! The eight shifted rasters, `terrain.py:43-63`. -/

/-- north-west neighbour, `terrain.py:43, 52-53` -/
def za (n m : ℕ) (d : ℕ → ℕ → K) := copyRow 0 1 (copyCol 0 1 (rollCols m 1 (rollRows n 1 d)))
/-- north neighbour, `terrain.py:44, 54` -/
def zb (n : ℕ) (d : ℕ → ℕ → K) := copyRow 0 1 (rollRows n 1 d)
/-- north-east neighbour, `terrain.py:45, 55-56` -/
def zc (n m : ℕ) (d : ℕ → ℕ → K) :=
  copyRow 0 1 (copyCol (m - 1) (m - 2) (rollCols m (-1) (rollRows n 1 d)))
/-- west neighbour, `terrain.py:46, 57` -/
def zd (m : ℕ) (d : ℕ → ℕ → K) := copyCol 0 1 (rollCols m 1 d)
/-- east neighbour, `terrain.py:47, 58` -/
def zf (m : ℕ) (d : ℕ → ℕ → K) := copyCol (m - 1) (m - 2) (rollCols m (-1) d)
/-- south-west neighbour, `terrain.py:48, 59-60` -/
def zg (n m : ℕ) (d : ℕ → ℕ → K) :=
  copyRow (n - 1) (n - 2) (copyCol 0 1 (rollCols m 1 (rollRows n (-1) d)))
/-- south neighbour, `terrain.py:49, 61` -/
def zh (n : ℕ) (d : ℕ → ℕ → K) := copyRow (n - 1) (n - 2) (rollRows n (-1) d)
/-- south-east neighbour, `terrain.py:50, 62-63` -/
def zi (n m : ℕ) (d : ℕ → ℕ → K) :=
  copyCol (m - 1) (m - 2) (copyRow (n - 1) (n - 2) (rollCols m (-1) (rollRows n (-1) d)))

variable [Field K]

/-- `dzdx` (towards the east), `terrain.py:65`. -/
def dzdx (n m : ℕ) (res : K) (d : ℕ → ℕ → K) (i j : ℕ) : K :=
  ((zc n m d i j + 2 * zf m d i j + zi n m d i j) - (za n m d i j + 2 * zd m d i j + zg n m d i j)) /
    (8 * res)

/-- `dzdy` (towards the south), `terrain.py:66`. -/
def dzdy (n m : ℕ) (res : K) (d : ℕ → ℕ → K) (i j : ℕ) : K :=
  ((zg n m d i j + 2 * zh n d i j + zi n m d i j) - (za n m d i j + 2 * zb n d i j + zc n m d i j)) /
    (8 * res)

/-- The vector product before normalisation, with first row and last column filled,
`terrain.py:115-125`. -/
def rawNormal (n m : ℕ) (res : K) (d : ℕ → ℕ → K) (i j : ℕ) : K × K × K :=
  let right := rollCols m (-1) d
  let up := rollRows n 1 d
  let diag := rollCols m (-1) (rollRows n 1 d)
  let v : ℕ → ℕ → K × K × K := fun i j =>
    (1 / 2 * res * (d i j - right i j + up i j - diag i j),
      1 / 2 * res * (d i j + right i j - up i j - diag i j), res ^ 2)
  copyCol (m - 1) (m - 2) (copyRow 0 1 v) i j

end

/-! ## Slope and aspect -/

/-- Radians to degrees. -/
noncomputable def deg (x : ℝ) : ℝ := x * (180 / Real.pi)

/-- Slope (degrees) for a gradient, `terrain.py:67`. -/
noncomputable def slopeOf (gx gy : ℝ) : ℝ := deg (Real.arctan (Real.sqrt (gx ^ 2 + gy ^ 2)))

open Classical in
/-- Aspect (degrees) for a gradient, `terrain.py:69-76`; `arctan2(y, x)` is the argument of `x + i y`
(for the flat case the result depends on the sign of zero in the code). -/
noncomputable def aspectOf (gx gy : ℝ) : ℝ :=
  let a := deg (Complex.arg ⟨-gx, gy⟩)
  if a < 0 then 90 - a else if 90 < a then 360 - a + 90 else 90 - a

open Classical in
/-- `slope_aspect`, `terrain.py:11-78`, for one cell; `none`: NaN. -/
noncomputable def slopeAspect (n m : ℕ) (res : ℝ) (d : ℕ → ℕ → ℝ) (i j : ℕ) : ℝ × Option ℝ :=
  if n < 3 ∨ m < 3 then (0, none)
  else (slopeOf (dzdx n m res d i j) (dzdy n m res d i j),
    some (aspectOf (dzdx n m res d i j) (dzdy n m res d i j)))

open Classical in
/-- `normal_vector`, `terrain.py:81-132`, for one cell. -/
noncomputable def normalVector (n m : ℕ) (res : ℝ) (d : ℕ → ℕ → ℝ) (i j : ℕ) : ℝ × ℝ × ℝ :=
  if n < 3 ∨ m < 3 then (0, 0, 1)
  else
    let v := rawNormal n m res d i j
    let len := Real.sqrt (v.1 ^ 2 + v.2.1 ^ 2 + v.2.2 ^ 2)
    (v.1 / len, v.2.1 / len, v.2.2 / len)

/-- Cosine of the angle of incidence before clipping, `clearsky.py:101-105`; the second component of the
normal points north, that of the sun vector south. -/
def incidence (sun normal : ℝ × ℝ × ℝ) : ℝ :=
  sun.1 * normal.1 + sun.2.1 * -normal.2.1 + sun.2.2 * normal.2.2

/-! ## Curvature -/

/-- `_shift_arr(M, dir, k, mode="edge")`, `terrain.py:403-418`: index of the row and column that the
value at `(i, j)` is taken from. -/
def shiftIdx (n m k : ℕ) (dir : ℕ) (i j : ℕ) : ℕ × ℕ :=
  let down := min (i + k) (n - 1)
  let up := i - k
  let right := min (j + k) (m - 1)
  let left := j - k
  match dir with
  | 0 => (down, j)
  | 1 => (down, left)
  | 2 => (i, left)
  | 3 => (up, left)
  | 4 => (up, j)
  | 5 => (up, right)
  | 6 => (i, right)
  | _ => (down, right)

/-- `_shift_arr` with padding by edge values. -/
def shiftEdge {K : Type*} (n m k dir : ℕ) (d : ℕ → ℕ → K) (i j : ℕ) : K :=
  d (shiftIdx n m k dir i j).1 (shiftIdx n m k dir i j).2

/-- `curvature(dem, res, "liston", L)`, `terrain.py:260-285`; `k = ceil(L / res)` pixels. -/
noncomputable def curvature (n m k : ℕ) (L : ℝ) (d : ℕ → ℕ → ℝ) (i j : ℕ) : ℝ :=
  let s := fun dir => shiftEdge n m k dir d i j
  ((d i j - (s 6 + s 2) / 2) / (2 * L) + (d i j - (s 4 + s 0) / 2) / (2 * L) +
    (d i j - (s 5 + s 1) / 2) / (2 * Real.sqrt 2 * L) +
    (d i j - (s 7 + s 3) / 2) / (2 * Real.sqrt 2 * L)) / 4

/-! ## Openness -/

open Classical in
/-- Angle at distance `dist` for a height difference, `terrain.py:366`: zenith angle of the line of
sight. -/
noncomputable def sightAngle (dz dist : ℝ) : ℝ := Real.pi / 2 - Complex.arg ⟨dist, dz⟩

/-- Memory cell shared by the iterations of the `prange` loop of `_openness_dir`,
`terrain.py:363-369`, for one pixel: the stored angle (`none`: infinity) and for each iteration what it
has read (outer `none`: nothing yet) and whether it has written. The iterations of a `prange` loop may run on
different threads; the indexed assignment is not a reduction that numba would make safe. -/
structure OpnSt where
  stored : Option ℝ
  less : ℕ → Option Bool
  done : ℕ → Bool

open Classical in
/-- The next atomic action of iteration `k` with angle `a`: first compare with the stored value
(`idxs = np.flatnonzero(angle < opn_dir)`), then store. -/
noncomputable def opnStep (angle : ℕ → ℝ) (s : OpnSt) (k : ℕ) : OpnSt :=
  match s.less k with
  | none =>
    let b : Bool := match s.stored with
      | none => true
      | some x => decide (angle k < x)
    { s with less := Function.update s.less k (some b) }
  | some b =>
    if s.done k then s
    else { s with stored := if b then some (angle k) else s.stored, done := Function.update s.done k true }

/-- Execution of the loop under a schedule. -/
noncomputable def opnRun (angle : ℕ → ℝ) (sched : List ℕ) : OpnSt :=
  sched.foldl (opnStep angle) ⟨none, fun _ => none, fun _ => false⟩

end Verif.Terrain
