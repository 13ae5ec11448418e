import Verif.Model.Tridiag
import Verif.Model.MultiLayer

/-!
# Heat conduction

Mirrors `openamundsen/heatconduction.py` (`temp_change` and its array version `temp_change_array`) and its call in `multilayermodel.py`.
-/

namespace Verif.Heat

open Verif.Tridiag

variable {K : Type*} [Field K] [LinearOrder K]

/-- Arguments of `temp_change` (`heatconduction.py:8-18`). Arrays are functions of the layer
index of which the entries below `N` are used. -/
structure Column (K : Type*) where
  N : ℕ
  dx : ℕ → K
  T : ℕ → K
  lam : ℕ → K
  hc : ℕ → K
  dt : K
  Tbottom : K
  dxBottom : K
  lamBottom : K
  flux : K

/-- `therm_cond_between`, `heatconduction.py:69-73`. -/
def between (c : Column K) (k : ℕ) : K :=
  if k + 1 < c.N then 2 / (c.dx k / c.lam k + c.dx (k + 1) / c.lam (k + 1))
  else 2 / (c.dx k / c.lam k + c.dxBottom / c.lamBottom)

/-- The rows of the linear system, `heatconduction.py:84-112`: first row, interior rows, last row
(`N ≥ 2`). -/
def row (c : Column K) (k : ℕ) : Row K :=
  if k = 0 then
    { a := 0
      b := c.hc 0 + between c 0 * c.dt
      c := -between c 0 * c.dt
      d := (c.flux - between c 0 * (c.T 0 - c.T 1)) * c.dt }
  else if k + 1 < c.N then
    { a := -between c (k - 1) * c.dt
      b := c.hc k + (between c (k - 1) + between c k) * c.dt
      c := -between c k * c.dt
      d := between c (k - 1) * (c.T (k - 1) - c.T k) * c.dt
        + between c k * (c.T (k + 1) - c.T k) * c.dt }
  else
    { a := -between c (k - 1) * c.dt
      b := c.hc k + (between c (k - 1) + between c k) * c.dt
      c := 0
      d := between c (k - 1) * (c.T (k - 1) - c.T k) * c.dt
        + between c k * (c.Tbottom - c.T k) * c.dt }

/-- `temp_change`, `heatconduction.py:67-117`. A zero denominator is `none`; the replacement of
NaN values by zero (`replace_nan`) is left out because no NaN arises for finite arguments. -/
def tempChange (c : Column K) : Option (List K) :=
  if c.N = 1 then
    if c.hc 0 + between c 0 * c.dt = 0 then none
    else some [(c.flux + between c 0 * (c.Tbottom - c.T 0)) * c.dt / (c.hc 0 + between c 0 * c.dt)]
  else solve ((List.range c.N).map (row c))

/-! ## Array version

`temp_change_array`, `heatconduction.py:120-224`: the arrays have a second axis `ι`, the pixels. -/

/-- Arguments of `temp_change_array`, `heatconduction.py:120-131`: layer and pixel index. -/
structure Columns (ι K : Type*) where
  N : ℕ
  dx : ℕ → ι → K
  T : ℕ → ι → K
  lam : ℕ → ι → K
  hc : ℕ → ι → K
  dt : K
  Tbottom : ι → K
  dxBottom : ι → K
  lamBottom : ι → K
  flux : ι → K

variable {ι : Type*}

/-- `therm_cond_between`, `heatconduction.py:172-180`. -/
def betweenArr (c : Columns ι K) (k : ℕ) : ι → K :=
  if k + 1 < c.N then fun i => 2 / (c.dx k i / c.lam k i + c.dx (k + 1) i / c.lam (k + 1) i)
  else fun i => 2 / (c.dx k i / c.lam k i + c.dxBottom i / c.lamBottom i)

/-- Interior rows `k`, `k + 1`, ... and the last row, `heatconduction.py:199-217`; `cPrev` is
`c[k - 1, :]`, `m` the number of rows left. -/
def rowsArr (c : Columns ι K) : ℕ → ℕ → (ι → K) → List (Row (ι → K))
  | 0, _, _ => []
  | 1, k, cPrev =>
    [{ a := cPrev
       b := fun i => c.hc k i + (betweenArr c (k - 1) i + betweenArr c k i) * c.dt
       c := fun _ => 0
       d := fun i => betweenArr c (k - 1) i * (c.T (k - 1) i - c.T k i) * c.dt
        + betweenArr c k i * (c.Tbottom i - c.T k i) * c.dt }]
  | m + 2, k, cPrev =>
    let ck := fun i => -betweenArr c k i * c.dt
    { a := cPrev
      b := fun i => c.hc k i + (betweenArr c (k - 1) i + betweenArr c k i) * c.dt
      c := ck
      d := fun i => betweenArr c (k - 1) i * (c.T (k - 1) i - c.T k i) * c.dt
        + betweenArr c k i * (c.T (k + 1) i - c.T k i) * c.dt } :: rowsArr c (m + 1) (k + 1) ck

/-- `temp_change_array`, `heatconduction.py:170-224`, per layer an array over the pixels; the
division by zero gives 0 here and infinity or NaN (then 0) in the program. -/
def tempChangeArr (c : Columns ι K) : List (ι → K) :=
  if c.N = 1 then
    [fun i => (c.flux i + betweenArr c 0 i * (c.Tbottom i - c.T 0 i)) * c.dt /
      (c.hc 0 i + betweenArr c 0 i * c.dt)]
  else
    let c0 := fun i => -betweenArr c 0 i * c.dt
    solveArr ({ a := fun _ => 0
                b := fun i => c.hc 0 i + betweenArr c 0 i * c.dt
                c := c0
                d := fun i => (c.flux i - betweenArr c 0 i * (c.T 0 i - c.T 1 i)) * c.dt } ::
              rowsArr c (c.N - 1) 1 c0)

/-- The column of a pixel. -/
def Columns.pixel (c : Columns ι K) (i : ι) : Column K where
  N := c.N
  dx := fun k => c.dx k i
  T := fun k => c.T k i
  lam := fun k => c.lam k i
  hc := fun k => c.hc k i
  dt := c.dt
  Tbottom := c.Tbottom i
  dxBottom := c.dxBottom i
  lamBottom := c.lamBottom i
  flux := c.flux i

/-- The new temperatures `temp + temp_change`, `multilayermodel.py:504-514`. -/
def newTemp (c : Column K) (x : List K) (k : ℕ) : K := c.T k + x.getD k 0

/-! ## Snow column -/

/-- Soil and boundary data of `_heat_conduction` (`multilayermodel.py:444-456`). -/
structure SnowBoundary (K : Type*) where
  dt : K
  /-- thermal conductivity of the snow layers -/
  lam : ℕ → K
  soilThickness : K
  soilLam : K
  soilTemp : K
  flux : K

open Verif.MultiLayer

/-- The arguments of the call of `temp_change` in `_heat_conduction`,
`multilayermodel.py:503-514`. The bottom temperature is `temp[-1, i, j]`, line 509: the last slot
of the *snow* temperature array. -/
def snowColumn (s : SnowBoundary K) (p : Pixel K) : Column K where
  N := p.n
  dx := fun k => (p.layers.map Layer.thick).getD k 0
  T := fun k => (p.layers.map Layer.temp).getD k 0
  lam := s.lam
  hc := fun k => (p.layers.map Layer.heatCap).getD k 0
  dt := s.dt
  Tbottom := (p.layers.map Layer.temp).getLastD 0
  dxBottom := s.soilThickness
  lamBottom := s.soilLam
  flux := s.flux

/-- `_heat_conduction` for one pixel, `multilayermodel.py:497-514`: the new layer temperatures. -/
def snowHeatConduction (s : SnowBoundary K) (p : Pixel K) : Option (Pixel K) :=
  if 0 < p.n then
    match tempChange (snowColumn s p) with
    | none => none
    | some x => some (p.setActive ((p.layers.take p.n).mapIdx fun k L =>
        { L with temp := L.temp + x.getD k 0 }))
  else some p

end Verif.Heat
