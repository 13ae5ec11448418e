import Verif.Model.MultiLayer

/-!
# Specification vocabulary for the multilayer snowpack

Observables of a pixel: total ice, total liquid water, sums over the top `k` slots, and
well-formedness of a snowpack. None of these mention how the kernels work.
-/

namespace Verif.MultiLayer

variable {K : Type*} [Field K] [LinearOrder K]

/-- Total ice of a pixel (kg m-2). -/
def totalIce (p : Pixel K) : K := (p.layers.map Layer.ice).sum

/-- Total liquid water of a pixel (kg m-2). -/
def totalLwc (p : Pixel K) : K := (p.layers.map Layer.lwc).sum

/-- Ice in the top `k` layers. -/
def iceAbove (p : Pixel K) (k : ℕ) : K := ((p.layers.take k).map Layer.ice).sum

/-- Ice and liquid water in the top `k` layers. -/
def massAbove (p : Pixel K) (k : ℕ) : K := ((p.layers.take k).map fun L => L.ice + L.lwc).sum

/-- Melt equivalent (kg m-2) of the heat stored above the melting point in the top `k` layers. -/
def warmMeltAbove (p : Pixel K) (k : ℕ) : K :=
  ((p.layers.take k).map fun L => max (L.heatCap * (L.temp - T0) / LF) 0).sum

/-- A well-formed snowpack: the active layers are the top `n` slots with non-negative contents,
all other slots are empty. -/
structure WF (p : Pixel K) : Prop where
  n_le : p.n ≤ p.layers.length
  active : ∀ L ∈ p.layers.take p.n, 0 ≤ L.thick ∧ 0 ≤ L.ice ∧ 0 ≤ L.lwc
  inactive : ∀ L ∈ p.layers.drop p.n, L.thick = 0 ∧ L.ice = 0 ∧ L.lwc = 0

/-- The active layers as a column of (thickness, content) pairs for a layer observable `f`. -/
def column (f : Layer K → K) (p : Pixel K) : List (K × K) :=
  (p.layers.take p.n).map fun L => (L.thick, f L)

/-- Depth of the upper boundary of layer `j`. -/
def topOf (p : Pixel K) (j : ℕ) : K := ((p.layers.take j).map Layer.thick).sum

/-- Heat content relative to the melting point (J m-2). -/
def heat (L : Layer K) : K := L.heatCap * (L.temp - T0)

/-- Sum of an observable over the active layers. -/
def activeSum (f : Layer K → K) (p : Pixel K) : K := ((p.layers.take p.n).map f).sum

/-- A plausible layer: thickness vanishes exactly with the ice, and (where the retention capacity
is derived from the pore volume) it is not denser than ice. -/
def LayerOK (m : LwcMethod) (L : Layer K) : Prop :=
  (L.thick = 0 ↔ L.ice = 0) ∧ (m = .poreVolume → L.ice ≤ iceDensity * L.thick)

/-- A plausible snowpack for a given number of layer slots. -/
structure PackOK (m : LwcMethod) (slots : ℕ) (p : Pixel K) : Prop where
  wf : WF p
  slots_eq : p.layers.length = slots
  layers : ∀ L ∈ p.layers.take p.n, LayerOK m L

end Verif.MultiLayer
