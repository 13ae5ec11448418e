import Verif.Basic
import Mathlib.Algebra.Module.Prod

/-!
# Specification: contents of the top of a layered column

A column is a list of (thickness, content) pairs, top first, each layer being uniform.
`cumProfile col z` is the content of the uppermost `z` metres. It knows nothing about relayering.
-/

namespace Verif

variable {K M : Type*} [Field K] [LinearOrder K] [AddCommGroup M] [Module K M]

/-- Content of the uppermost `z` metres of a column of uniform layers. -/
def cumProfile : List (K × M) → K → M
  | [], _ => 0
  | (t, m) :: col, z => if t ≤ z then m + cumProfile col (z - t) else (z / t) • m

/-- Content above depth `z` of a column; nothing lies above depth 0. -/
def contentAbove (col : List (K × M)) (z : K) : M := if z ≤ 0 then 0 else cumProfile col z

end Verif
