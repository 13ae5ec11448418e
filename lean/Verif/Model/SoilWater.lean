import Verif.Model.Evapo

/-!
# Soil water parameters of the evapotranspiration model

Mirrors `openamundsen/modules/evapotranspiration/evapotranspiration.py:12-58, 153-212` for one pixel of the
region of interest.
-/

namespace Verif.SoilWater

variable {K : Type*} [Field K] [LinearOrder K] [IsStrictOrderedRing K]

/-- Water content at field capacity, `evapotranspiration.py:13-23`; `none`: no such class (KeyError).
Classes 1 sand, 2 loamy sand, 3 sandy loam, 4 loam, 5 silt loam, 6 silt, 7 silt clay loam, 8 silty clay,
9 clay (`evapotranspiration.py`/`constants` enumeration). -/
def fieldCapacity : ℤ → Option K
  | 1 => some ((7 / 100 + 17 / 100) / 2)
  | 2 => some ((11 / 100 + 19 / 100) / 2)
  | 3 => some ((18 / 100 + 28 / 100) / 2)
  | 4 => some ((20 / 100 + 30 / 100) / 2)
  | 5 => some ((22 / 100 + 36 / 100) / 2)
  | 6 => some ((28 / 100 + 36 / 100) / 2)
  | 7 => some ((30 / 100 + 37 / 100) / 2)
  | 8 => some ((30 / 100 + 42 / 100) / 2)
  | 9 => some ((32 / 100 + 40 / 100) / 2)
  | _ => none

/-- Water content at the wilting point, `evapotranspiration.py:24-34`. -/
def wiltingPoint : ℤ → Option K
  | 1 => some ((2 / 100 + 7 / 100) / 2)
  | 2 => some ((3 / 100 + 10 / 100) / 2)
  | 3 => some ((6 / 100 + 16 / 100) / 2)
  | 4 => some ((7 / 100 + 17 / 100) / 2)
  | 5 => some ((9 / 100 + 21 / 100) / 2)
  | 6 => some ((12 / 100 + 22 / 100) / 2)
  | 7 => some ((17 / 100 + 24 / 100) / 2)
  | 8 => some ((17 / 100 + 29 / 100) / 2)
  | 9 => some ((20 / 100 + 24 / 100) / 2)
  | _ => none

/-- Readily evaporable water, `evapotranspiration.py:35-45`. -/
def readilyEvaporable : ℤ → Option K
  | 1 => some ((2 + 7) / 2)
  | 2 => some ((4 + 8) / 2)
  | 3 => some ((6 + 10) / 2)
  | 4 => some ((8 + 10) / 2)
  | 5 => some ((8 + 11) / 2)
  | 6 => some ((8 + 11) / 2)
  | 7 => some ((8 + 11) / 2)
  | 8 => some ((8 + 12) / 2)
  | 9 => some ((8 + 12) / 2)
  | _ => none

/-- Adjustment of the depletion fraction, `evapotranspiration.py:49-59`. -/
def depletionAdj : ℤ → Option K
  | 1 => some (110 / 100)
  | 2 => some (1075 / 1000)
  | 3 => some (105 / 100)
  | 4 => some (1025 / 1000)
  | 5 => some 1
  | 6 => some (975 / 1000)
  | 7 => some (95 / 100)
  | 8 => some (925 / 1000)
  | 9 => some (90 / 100)
  | _ => none

/-- Land cover parameters of a class with a set of parameters: the keys may be missing. -/
structure Lc (K : Type*) where
  depletionFraction : Option K
  rootingDepth : Option K

/-- Parameters and initial depletion of the root zone of a pixel; `none` = NaN. -/
structure Px (K : Type*) where
  tew : Option K
  rew : Option K
  taw : Option K
  raw : Option K
  dr : Option K

/-- `EvapotranspirationModel.initialize`, `evapotranspiration.py:153-206`, for one pixel with a soil texture
(0 or less: none) and a land cover class (`none`: no class or no parameters for it). The outer `none`
stands for a KeyError. -/
def setup (depth : K) (texture : ℤ) (lc : Option (Lc K)) : Option (Px K) := do
  -- lines 155-160
  let df : Option K ← match lc with
    | none => some none
    | some p => p.depletionFraction.map some
  -- lines 165-194
  let (px, df) ← (if texture > 0 then do
      let fc ← fieldCapacity texture
      let wp ← wiltingPoint texture
      let tew := 1000 * (fc - 1 / 2 * wp) * depth
      let rew ← readilyEvaporable texture
      let taw := 1000 * (fc - wp)
      let swc := fc
      let dr := 1000 * (fc - swc)
      let adj ← depletionAdj texture
      return (⟨some tew, some rew, some taw, none, some dr⟩, df.map (· * adj))
    else return (⟨none, none, none, none, none⟩, df) : Option (Px K × Option K))
  -- lines 200-206
  match lc with
  | none => return px
  | some p => do
    let rd ← p.rootingDepth
    let taw := px.taw.map (· * rd)
    return { px with
      taw := taw
      dr := px.dr.map (· * rd)
      raw := match df, taw with
        | some d, some t => some (d * t)
        | _, _ => none }

/-- The parameters as they enter the time steps (`Verif.Evapo.Soil`), if all are available. -/
def Px.soil (p : Px K) : Option (Evapo.Soil K) :=
  match p.tew, p.rew, p.taw, p.raw with
  | some a, some b, some c, some d => some ⟨a, b, c, d⟩
  | _, _, _, _ => none

end Verif.SoilWater
