import Mathlib.Algebra.Order.Field.Basic

/-!
# Crop coefficient curve and leaf area index

Mirrors `openamundsen/modules/evapotranspiration/evapotranspiration.py:640-770` and
`openamundsen/landcover.py:53-103`. Stage lengths are non-negative whole days.
-/

namespace Verif.CropCoeff

variable {K : Type*} [Field K] [LinearOrder K] [IsStrictOrderedRing K]

/-- `np.vstack((ini, dev, mid, late)).flatten(order="F")`, `evapotranspiration.py:725`, for arrays of
equal size. -/
def interleave : List ℕ → List ℕ → List ℕ → List ℕ → List ℕ
  | a :: as, b :: bs, c :: cs, d :: ds => a :: b :: c :: d :: interleave as bs cs ds
  | _, _, _, _ => []

/-- `lengths.cumsum()` started at `acc`. -/
def cumsum (acc : ℕ) : List ℕ → List ℕ
  | [] => []
  | l :: ls => (acc + l) :: cumsum (acc + l) ls

/-- `np.searchsorted(a, day)` (side `left`) for a sorted array: number of leading elements below
`day`. -/
def searchsorted (a : List ℕ) (day : ℤ) : ℕ := (a.takeWhile fun c : ℕ => decide ((c : ℤ) < day)).length

/-- The four coefficients. -/
structure Coeffs (K : Type*) where
  ini : K
  mid : K
  fin : K
  min : K

/-- Linear interpolation of eq. (66), `evapotranspiration.py:736-741, 745-750`; `none`: division by
a zero stage length. -/
def interp (day : ℤ) (start : ℕ) (len : ℕ) (a b : K) : Option K :=
  if len = 0 then none else some (a + (((day - start : ℤ) : K) / (len : K)) * (b - a))

/-- `evapotranspiration.py:728-750` for given stage lengths, their cumulative sum and the search
index. -/
def coeffAt (c : Coeffs K) (lengths cum : List ℕ) (idx : ℕ) (day : ℤ) : Option K :=
  if idx = 0 ∨ idx = cum.length + 1 then some c.min
  else if (idx - 1) % 4 = 0 then some c.ini
  else if (idx - 1) % 4 = 1 then
    interp day (cum.getD (idx - 2) 0) (lengths.getD (idx - 1) 0) c.ini c.mid
  else if (idx - 1) % 4 = 2 then some c.mid
  else interp day (cum.getD (idx - 2) 0) (lengths.getD (idx - 1) 0) c.mid c.fin

/-- `crop_coefficient`, `evapotranspiration.py:640-750, 766`, without plant height. Outer `none`: the
`ValueError` for unequal sizes; inner `none`: undefined number. -/
def cropCoefficient (day : ℤ) (ini dev mid late : List ℕ) (c : Coeffs K) : Option (Option K) :=
  if ¬ (ini.length = dev.length ∧ dev.length = mid.length ∧ mid.length = late.length) then none
  else
    let lengths := interleave ini dev mid late
    let cum := cumsum 0 lengths
    some (coeffAt c lengths cum (searchsorted (0 :: cum) day) day)

/-- Lower limit of the plant height, `evapotranspiration.py:753-760`. -/
def minHeight (c : Coeffs K) (n idx : ℕ) (maxH : K) : K :=
  if idx = 0 ∨ idx = n + 1 then 0
  else if (idx - 1) % 4 = 0 then c.min / c.mid * maxH
  else if (idx - 1) % 4 = 1 then c.ini / c.mid * maxH
  else maxH

/-- Plant height, `evapotranspiration.py:752-764`. -/
def plantHeight (day : ℤ) (ini dev mid late : List ℕ) (c : Coeffs K) (maxH : K) :
    Option (Option K) :=
  match cropCoefficient day ini dev mid late c with
  | none => none
  | some none => some none
  | some (some k) =>
    let cum := cumsum 0 (interleave ini dev mid late)
    some (some (max (k / c.mid * maxH)
      (minHeight c cum.length (searchsorted (0 :: cum) day) maxH)))

/-- `growing_period_day`, `landcover.py:101-103`. -/
def growingPeriodDay (dayOfYear plantDate : ℤ) : ℤ := dayOfYear - plantDate + 1

/-- Growth stage lengths of a class: four numbers or a list of sub-cycles, `landcover.py:85-98`. -/
inductive Stages
  | single (ini dev mid late : ℕ)
  | cycles (l : List (ℕ × ℕ × ℕ × ℕ))

/-- Leaf area index of a class, `landcover.py:56-83`; for sub-cycles `length_ini + length_dev` adds
Python lists, i.e. concatenates them; the initial length passed is the number 0. -/
def lai (day : ℤ) (minLai maxLai : K) : Stages → Option (Option K)
  | .single ini dev mid late =>
    cropCoefficient day [0] [ini + dev] [mid] [late] ⟨minLai, maxLai, minLai, minLai⟩
  | .cycles l =>
    cropCoefficient day [0] (l.map (fun g => g.1) ++ l.map (fun g => g.2.1)) (l.map fun g => g.2.2.1)
      (l.map fun g => g.2.2.2) ⟨minLai, maxLai, minLai, minLai⟩

end Verif.CropCoeff
