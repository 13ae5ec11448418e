import Verif.Model.Shadows

/-!
# Sky view factor

Mirrors `openamundsen/terrain.py:135-226`. `maxElev` stands for `max_elev_angle` (line 195), the largest slope of
the DEM rounded up, at least 1; `azims` for `azim_angles` (line 193). The parameter `elev_step` is not used by the
code.
-/

namespace Verif.Shadows

open Classical

/-- `sun_vec`, `terrain.py:207-218`; angles in degrees. -/
noncomputable def sunDir (azim elev : ℝ) : SunVec :=
  ⟨Real.sin (azim * (Real.pi / 180)) * Real.cos (elev * (Real.pi / 180)),
    -Real.cos (azim * (Real.pi / 180)) * Real.cos (elev * (Real.pi / 180)),
    Real.sin (elev * (Real.pi / 180))⟩

/-- `elev_angles`, `terrain.py:199`: from the largest angle down to 1. -/
def elevAngles (maxElev : ℕ) : List ℕ := (List.range maxElev).reverse.map (· + 1)

/-- `svf_cur` of one cell after the loop over elevations, `terrain.py:208-221`. -/
noncomputable def svfCur (lit : ℕ → Prop) (maxElev : ℕ) : ℕ :=
  (elevAngles maxElev).foldl (fun cur e => if lit e then e else cur) maxElev

/-- The cell is lit from the given direction. -/
def Lit (d : Dem) (res : ℝ) (sweeps : Option ℤ) (azim : ℝ) (c : Cell) (e : ℕ) : Prop :=
  ¬ Shaded d res (sunDir azim e) sweeps c

/-- `sky_view_factor`, `terrain.py:186-226`, for one cell. -/
noncomputable def skyView (d : Dem) (res : ℝ) (sweeps : Option ℤ) (azims : List ℝ) (maxElev : ℕ) (c : Cell) : ℝ :=
  if d.n = 1 ∧ d.m = 1 then 1
  else (azims.map fun a =>
    Real.cos (svfCur (Lit d res sweeps a c) maxElev * (Real.pi / 180)) ^ 2).sum / azims.length

end Verif.Shadows
