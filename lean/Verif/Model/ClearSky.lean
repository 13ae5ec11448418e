import Mathlib.Analysis.SpecialFunctions.Pow.Real
import Mathlib.Analysis.SpecialFunctions.Trigonometric.Inverse
import Verif.Model.Terrain

/-!
# Clear-sky shortwave irradiance

Mirrors `openamundsen/modules/radiation/clearsky.py:84-307` for one pixel. The fraction of lit pixels and their
mean cosine of incidence (lines 183-188) enter as arguments.
-/

namespace Verif.ClearSky

open Real

/-- Eccentricity correction, `clearsky.py:90-96`. -/
noncomputable def eccCorr (da : ℝ) : ℝ :=
  1000110 / 1000000 + 34221 / 1000000 * cos da + 1280 / 1000000 * sin da + 719 / 1000000 * cos (2 * da) +
    77 / 1000000 * sin (2 * da)

/-- Relative optical air mass, `clearsky.py:109-111`; the clip applies to the denominator. `z`: zenith angle
(radians). -/
noncomputable def airMass (z : ℝ) : ℝ :=
  1 / min (cos z + 15 / 100 * (93885 / 1000 - z * (180 / π)) ^ (-(1253 / 1000) : ℝ)) (141952 / 10000)

/-- Pressure-corrected air mass, `clearsky.py:114, 258`. -/
noncomputable def airMassPress (m press : ℝ) : ℝ := m * press / 101325

/-- `trans_rayleigh`, `clearsky.py:261-263`. -/
noncomputable def transRayleigh (p : ℝ) : ℝ :=
  exp (-(903 / 10000) * p ^ (84 / 100 : ℝ)) * (1 + p - p ^ (101 / 100 : ℝ))

/-- `trans_ozone`, `clearsky.py:266-275`; `lm`: ozone layer (cm) times air mass. -/
noncomputable def transOzone (lm : ℝ) : ℝ :=
  1 - (1611 / 10000 * lm * (1 + 13948 / 100 * lm) ^ (-(3035 / 10000) : ℝ) -
    2715 / 1000000 * lm * 1 / (1 + 44 / 1000 * lm + 3 / 10000 * lm ^ 2))

/-- `trans_gases`, `clearsky.py:278`. -/
noncomputable def transGases (p : ℝ) : ℝ := exp (-(127 / 10000) * p ^ (26 / 100 : ℝ))

/-- `trans_vapor`, `clearsky.py:284-286`; `wm`: precipitable water (cm) times air mass. -/
noncomputable def transVapor (wm : ℝ) : ℝ :=
  1 - 24959 / 10000 * wm * 1 / ((1 + 79034 / 1000 * wm) ^ (6828 / 10000 : ℝ) + 6385 / 1000 * wm)

/-- `trans_aerosols`, `clearsky.py:289`; `v`: visibility (km). -/
noncomputable def transAerosols (v p : ℝ) : ℝ :=
  (97 / 100 - 1265 / 1000 * v ^ (-(66 / 100) : ℝ)) ^ (p ^ (9 / 10 : ℝ))

/-- `elev_corr`, `clearsky.py:292`. -/
noncomputable def elevCorr (elev : ℝ) : ℝ := 22 / 1000000 * min elev 3000

/-- `trans_aerosol_abs`, `clearsky.py:295-297`. -/
noncomputable def transAerosolAbs (ω p ta : ℝ) : ℝ :=
  1 - (1 - ω) * (1 - p + p ^ (106 / 100 : ℝ)) * (1 - ta)

/-- Atmosphere and surface seen by one pixel. -/
structure Input where
  /-- pressure (Pa) -/
  press : ℝ
  /-- precipitable water (kg m-2) -/
  water : ℝ
  elev : ℝ
  /-- ozone layer thickness (m) -/
  ozone : ℝ
  /-- visibility (m) -/
  visibility : ℝ
  /-- single scattering albedo -/
  ssa : ℝ
  clearSkyAlbedo : ℝ
  groundAlbedo : ℝ
  svf : ℝ
  dayAngle : ℝ
  sun : ℝ × ℝ × ℝ
  normal : ℝ × ℝ × ℝ
  /-- 1: lit, 0: shaded -/
  shadow : ℝ
  sunFrac : ℝ
  meanAoi : ℝ

namespace Input
variable (x : Input)

/-- `zenith_angle`, `clearsky.py:84`. -/
noncomputable def zenith : ℝ := arccos x.sun.2.2
/-- relative optical air mass of the pixel -/
noncomputable def m : ℝ := airMass x.zenith
/-- pressure-corrected air mass of the pixel -/
noncomputable def p : ℝ := airMassPress x.m x.press
noncomputable def tOzone : ℝ := transOzone (x.ozone * 100 * x.m)
noncomputable def tVapor : ℝ := transVapor (x.water / 10 * x.m)
noncomputable def tAer : ℝ := transAerosols (x.visibility / 1000) x.p
noncomputable def tAbs : ℝ := transAerosolAbs x.ssa x.p x.tAer

/-- `aoi`, `clearsky.py:101-106`. -/
noncomputable def aoi : ℝ := max (Terrain.incidence x.sun x.normal) 0

/-- `trans_dir`, `clearsky.py:126-134`. -/
noncomputable def transDir : ℝ :=
  min (max (transRayleigh x.p * x.tOzone * transGases x.p * x.tVapor * x.tAer + elevCorr x.elev) 0) 1

/-- `top_atmosphere_rad`, `clearsky.py:136`. -/
noncomputable def toa : ℝ := 13661 / 10 * eccCorr x.dayAngle

/-- `pot_irr`, `clearsky.py:137`. -/
noncomputable def pot : ℝ := x.toa * x.aoi * x.shadow

/-- `dir_irr`, `clearsky.py:139`. -/
noncomputable def direct : ℝ := 9751 / 10000 * x.pot * x.transDir

/-- `diff_irr_rayleigh`, `clearsky.py:142-153`. -/
noncomputable def rayleigh : ℝ :=
  79 / 100 * x.toa * cos x.zenith * x.tOzone * transGases x.p * x.tVapor * x.tAbs * (1 / 2) *
    (1 - transRayleigh x.p) / (1 - x.p + x.p ^ (102 / 100 : ℝ))

/-- `scattering_ratio`, `clearsky.py:156`: as in the code, with a product where the fit of the cited source is a
sum. -/
noncomputable def scatter : ℝ := -(2562 / 10000) * x.zenith ^ 2 * (1409 / 10000) * x.zenith + 9067 / 10000

/-- `trans_aerosol_ratio`, `clearsky.py:157`. -/
noncomputable def aerRatio : ℝ := x.tAer / x.tAbs

/-- `diff_irr_aerosols`, `clearsky.py:158-169`. -/
noncomputable def aerosols : ℝ :=
  79 / 100 * x.toa * cos x.zenith * x.tOzone * transGases x.p * x.tVapor * x.tAbs * x.scatter *
    (1 - x.aerRatio) / (1 - x.p + x.p ^ (102 / 100 : ℝ))

/-- `atmospheric_albedo`, `clearsky.py:172`. -/
noncomputable def atmAlbedo : ℝ := x.clearSkyAlbedo + (1 - x.scatter) * (1 - x.aerRatio)

/-- `diff_irr_atmos_ref`, `clearsky.py:173-178`. -/
noncomputable def atmosRef : ℝ :=
  (x.direct * cos x.zenith + x.rayleigh + x.aerosols) * x.groundAlbedo * x.atmAlbedo /
    (1 - x.groundAlbedo * x.atmAlbedo)

/-- `diff_irr`, `clearsky.py:180`. -/
noncomputable def diff : ℝ := x.rayleigh + x.aerosols + x.atmosRef

/-- `diff_irr_topo_corr`, `clearsky.py:189-194`. -/
noncomputable def diffuse : ℝ :=
  x.diff * x.svf + (1 - x.svf) * (x.pot * x.transDir * x.sunFrac * x.meanAoi + x.diff) * x.groundAlbedo

end Input

end Verif.ClearSky
