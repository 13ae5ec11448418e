import Mathlib.Data.List.Basic
import Mathlib.Logic.Function.Basic

/-!
# ROI index bookkeeping and parallel kernels

Mirrors `openamundsen/util.py:285-296` (flat ROI indices), `openamundsen/model.py:287-312`
(`global_mask`), and the `prange` loops over the ROI.
-/

namespace Verif.Grid

/-- `np.flatnonzero(sel)` / `np.where(roi.flat)[0]` (`util.py:296`, `model.py:292`): indices of the
selected cells in row-major order, starting at `off`. -/
def flatnonzero (off : ℕ) : List Bool → List ℕ
  | [] => []
  | true :: bs => off :: flatnonzero (off + 1) bs
  | false :: bs => flatnonzero (off + 1) bs

/-- Boolean indexing `xs[mask]` of a one-dimensional array. -/
def select {α : Type*} : List α → List Bool → List α
  | x :: xs, true :: bs => x :: select xs bs
  | _ :: xs, false :: bs => select xs bs
  | _, _ => []

/-- `global_mask` for a one-dimensional mask, `model.py:287-300`: the flat global mask; `none` for
the `ValueError` of a size mismatch. `n` is the number of grid cells. -/
def globalMask (n : ℕ) (idxs : List ℕ) (mask : List Bool) : Option (List Bool) :=
  if mask.length ≠ idxs.length then none
  else some ((select idxs mask).foldl (fun g i => g.set i true) (List.replicate n false))

/-- `global_mask` for a two-dimensional mask, `model.py:301-307`. -/
def globalMask2 (n : ℕ) (idxs : List ℕ) (masks : List (List Bool)) : Option (List (List Bool)) :=
  masks.mapM (globalMask n idxs)

/-! ## Parallel loops -/

/-- A pixel's thread as a deterministic machine: `step i s` is the next memory state of pixel `i`
(its cells of all written arrays plus local variables), `none` if the body of the loop is finished.
That the body of iteration `i` writes only cells of pixel `i` and reads no cell another iteration
writes is the modelling assumption for the `prange` loops listed in DESIGN.md. -/
structure Kernel (ι S : Type*) where
  step : ι → S → Option S

variable {ι S : Type*} [DecidableEq ι]

/-- One atomic step of pixel `i`, nothing if it has finished. -/
def Kernel.tick (k : Kernel ι S) (g : ι → S) (i : ι) : ι → S :=
  match k.step i (g i) with
  | none => g
  | some s => Function.update g i s

/-- Execution under a schedule: the sequence of pixels that perform the next atomic step. -/
def Kernel.exec (k : Kernel ι S) (sched : List ι) (g : ι → S) : ι → S := sched.foldl k.tick g

end Verif.Grid
