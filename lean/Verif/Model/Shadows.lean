import Mathlib.Analysis.SpecialFunctions.Trigonometric.Basic
import Mathlib.Algebra.Order.Round

/-!
# Terrain shadows

Mirrors `openamundsen/modules/radiation/shadows.py:5-96`. Rows are counted to the south, columns to the east;
the sun vector has components to the east, to the south and up.
-/

namespace Verif.Shadows

open Classical

/-- Row and column. -/
abbrev Cell := ℤ × ℤ

/-- `np.round`: to the nearest integer, ties to even. -/
noncomputable def roundEven (x : ℝ) : ℤ :=
  if x - ⌊x⌋ < 1 / 2 then ⌊x⌋
  else if 1 / 2 < x - ⌊x⌋ then ⌊x⌋ + 1
  else if ⌊x⌋ % 2 = 0 then ⌊x⌋ else ⌊x⌋ + 1

/-- A raster with `n` rows and `m` columns; `none` is NaN. -/
structure Dem where
  n : ℤ
  m : ℤ
  z : Cell → Option ℝ

/-- The bounds check, `shadows.py:79`. -/
def Dem.Inside (d : Dem) (c : Cell) : Prop := 0 ≤ c.2 ∧ c.2 < d.m ∧ 0 ≤ c.1 ∧ c.1 < d.n

/-- Direction of the sun. -/
structure SunVec where
  x : ℝ
  y : ℝ
  z : ℝ

/-- First two components of `inv_sun_vec`, `shadows.py:39`. -/
noncomputable def inv (s : SunVec) : ℝ × ℝ := (-s.x / max |s.x| |s.y|, -s.y / max |s.x| |s.y|)

/-- `normal_sun_vec`, `shadows.py:41-44`. -/
noncomputable def normalSun (s : SunVec) : ℝ × ℝ × ℝ :=
  let h := Real.sqrt (s.x ^ 2 + s.y ^ 2)
  (-s.x * s.z / h, -s.y * s.z / h, h)

/-- Origins of the scanning lines, `shadows.py:47-62`; `k` sweeps (`none`: -1, all pixels). -/
noncomputable def isStart (d : Dem) (s : SunVec) (sweeps : Option ℤ) (c : Cell) : Prop :=
  let k := sweeps.getD (max d.n d.m)
  let first := fun (v : ℤ) => v < k
  let last := fun (v size : ℤ) => size - k ≤ v
  d.Inside c ∧
    ((if s.x < 0 then first c.2 else last c.2 d.m) ∨ (if s.y < 0 then first c.1 else last c.1 d.n))

/-- Cell visited in step `t` of the line from `c`, `shadows.py:73-76`. -/
noncomputable def pos (s : SunVec) (c : Cell) (t : ℕ) : Cell :=
  (roundEven (c.1 + (inv s).2 * t), roundEven (c.2 + (inv s).1 * t))

/-- `z_proj` in step `t` of the line from `c`, `shadows.py:82-89`; `none`: NaN. -/
noncomputable def zProj (d : Dem) (res : ℝ) (s : SunVec) (c : Cell) (t : ℕ) : Option ℝ :=
  (d.z (pos s c t)).map fun z =>
    (inv s).1 * t * res * (normalSun s).1 + (inv s).2 * t * res * (normalSun s).2.1 + z * (normalSun s).2.2

/-- `z_proj < max_z_proj`, `shadows.py:91`; the running maximum is `none` for `-inf`, `some none` for NaN. -/
noncomputable def below (z : Option ℝ) (mx : Option (Option ℝ)) : Bool :=
  match z, mx with
  | some a, some (some b) => decide (a < b)
  | _, _ => false

/-- The loop over one line, `shadows.py:72-94`: the cells to which 0 is written, in order. The loop has no bound
in the code; `fuel` bounds it here. -/
noncomputable def sweep (d : Dem) (res : ℝ) (s : SunVec) (c : Cell) : ℕ → ℕ → Option (Option ℝ) → List Cell
  | 0, _, _ => []
  | fuel + 1, t, mx =>
    if ¬ d.Inside (pos s c t) then []
    else if below (zProj d res s c t) mx then pos s c t :: sweep d res s c fuel (t + 1) mx
    else sweep d res s c fuel (t + 1) (some (zProj d res s c t))

/-- `max(dem.shape)` steps are enough (`C72_terminates`). -/
def steps (d : Dem) : ℕ := (max d.n d.m).toNat

/-- Cells written by the line from `c`. -/
noncomputable def written (d : Dem) (res : ℝ) (s : SunVec) (c : Cell) : List Cell :=
  sweep d res s c (steps d) 0 none

/-- Effect of a sequence of writes `illum[idy, jdx] = 0` on the initial array of ones, `shadows.py:64, 92`. The
array is only written in the parallel loop, never read. -/
def illum (writes : List Cell) : Cell → ℕ :=
  writes.foldl (fun a c => Function.update a c 0) fun _ => 1

/-- A sequence of writes that the parallel loop over the given origins (each once) can produce: any
interleaving of the lines' writes. -/
def IsRun (d : Dem) (res : ℝ) (s : SunVec) (origins writes : List Cell) : Prop :=
  writes.Perm (origins.flatMap (written d res s))

/-- Shadow mask: the cell is written by the line of some origin. -/
def Shaded (d : Dem) (res : ℝ) (s : SunVec) (sweeps : Option ℤ) (c : Cell) : Prop :=
  ∃ o, isStart d s sweeps o ∧ c ∈ written d res s o

end Verif.Shadows
