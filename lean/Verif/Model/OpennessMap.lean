import Verif.Model.Shift
import Verif.Model.Terrain
import Mathlib.Algebra.Order.Floor.Semiring

/-!
# Topographic openness

Mirrors `openamundsen/terrain.py:288-333` (`openness`) and `336-371` (`_openness_dir`). The iterations of the parallel
loop are taken as atomic and in order (see `Model/Terrain.opnRun` and C70 for other schedules). Elevations are numbers
(no NaN); infinity = `none`.
-/

namespace Verif.OpennessMap

open Verif.Shift Verif.Terrain

/-- `int(np.ceil(L / res))`, `terrain.py:363`; `prange` of a negative number is empty. -/
noncomputable def count (L res : ℝ) : ℕ := ⌈L / res⌉₊

/-- `dist`, `terrain.py:364`. -/
noncomputable def dist (res : ℝ) (dir i : ℕ) : ℝ := res * (i + 1) * if dir % 2 = 0 then 1 else Real.sqrt 2

/-- `angle` at a pixel, `terrain.py:365-366`. -/
noncomputable def angle (M : Arr ℝ) (res : ℝ) (dir r c i : ℕ) : ℝ :=
  sightAngle ((shiftRetain dir i M).val r c - M.val r c) (dist res dir i)

open Classical in
/-- Assignment to the pixels with `angle < opn_dir`, `terrain.py:368-369`. -/
noncomputable def lower (stored : Option ℝ) (a : ℝ) : Option ℝ :=
  match stored with
  | none => some a
  | some x => if a < x then some a else some x

/-- `_openness_dir` at a pixel, `terrain.py:336-371`. -/
noncomputable def opennessDir (M : Arr ℝ) (res L : ℝ) (dir r c : ℕ) : Option ℝ :=
  ((List.range (count L res)).map (angle M res dir r c)).foldl lower none

/-- `dem = -dem`, `terrain.py:324-325`. -/
def negate (M : Arr ℝ) : Arr ℝ := { M with val := fun i j => -M.val i j }

/-- `openness` with `mean=False`, `terrain.py:321-328`: the eight directions of a pixel. -/
noncomputable def opennessAll (M : Arr ℝ) (res L : ℝ) (negative : Bool) (r c : ℕ) : List (Option ℝ) :=
  (List.range 8).map fun dir => opennessDir (if negative then negate M else M) res L dir r c

open Classical in
/-- `openness` with `mean=True`, `terrain.py:330-331`: infinite if a direction is. -/
noncomputable def opennessMean (M : Arr ℝ) (res L : ℝ) (negative : Bool) (r c : ℕ) : Option ℝ :=
  let l := opennessAll M res L negative r c
  if none ∈ l then none else some ((l.map fun x => x.getD 0).sum / l.length)

end Verif.OpennessMap
