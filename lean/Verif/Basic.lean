import Mathlib.Algebra.Order.Field.Basic
import Mathlib.Algebra.Order.BigOperators.Group.List
import Mathlib.Algebra.BigOperators.Group.List.Basic
import Mathlib.Algebra.Order.Ring.Rat
import Mathlib.Data.Rat.Defs
import Mathlib.Tactic.Linarith
import Mathlib.Tactic.Ring
import Mathlib.Tactic.FieldSimp
import Mathlib.Tactic.NormNum
import Mathlib.Tactic.Positivity

/-!
# Shared conventions

Physical constants of `openamundsen/constants.py` and the handling of missing values.
Numbers live in an arbitrary linearly ordered field `K` (the examples use `ℚ`).
-/

namespace Verif

variable {K : Type*} [Field K]

/-- `constants.py:15` `T0`: melting point of water (K). -/
def T0 : K := 27315 / 100

/-- `constants.py:29` `LATENT_HEAT_OF_FUSION` (J kg-1). -/
def LF : K := 334000

/-- `constants.py:25` `SPEC_HEAT_CAP_ICE` (J kg-1 K-1). -/
def cIce : K := 2100

/-- `constants.py:26` `SPEC_HEAT_CAP_WATER` (J kg-1 K-1). -/
def cWater : K := 4180

/-- `constants.py:36` `ICE_DENSITY` (kg m-3). -/
def iceDensity : K := 917

/-- `constants.py:35` `WATER_DENSITY` (kg m-3). -/
def waterDensity : K := 1000

/-- `np.nan_to_num(x, nan=0.0)`: a missing value becomes zero. -/
def nanToZero (x : Option K) : K := x.getD 0

section
variable [LinearOrder K] [IsStrictOrderedRing K]

theorem LF_pos : (0 : K) < LF := by norm_num [LF]
theorem T0_pos : (0 : K) < T0 := by norm_num [T0]
theorem cIce_pos : (0 : K) < cIce := by norm_num [cIce]
theorem cWater_pos : (0 : K) < cWater := by norm_num [cWater]
theorem iceDensity_pos : (0 : K) < iceDensity := by norm_num [iceDensity]
theorem waterDensity_pos : (0 : K) < waterDensity := by norm_num [waterDensity]
end

end Verif
