import Verif.Model.Irradiance

/-!
# Longwave irradiance over the region of interest

Mirrors `openamundsen/modules/radiation/irradiance.py:286-329`: the pixels of the region are coupled by the share of
snow-free pixels. Clear-sky emissivity (line 290) is an input.
-/

namespace Verif.LongwaveField

/-- A pixel of the region: clear-sky emissivity, air temperature, sky view factor, cloud fraction, incoming shortwave
radiation, surface temperature and snow water equivalent. -/
structure Px where
  em : ℝ
  temp : ℝ
  svf : ℝ
  cloud : ℝ
  sw : ℝ
  ts : ℝ
  swe : ℝ

open Classical in
/-- `snowfree_count`, `irradiance.py:315`. -/
noncomputable def snowFree (xs : List Px) : ℕ := (xs.filter fun x => decide (x.swe = 0)).length

/-- `rock_fraction`, `irradiance.py:316`. -/
noncomputable def rockFraction (xs : List Px) : ℝ := snowFree xs / xs.length

/-- `m.lw_in[roi]`, `irradiance.py:296-329`. -/
noncomputable def field (xs : List Px) : List ℝ :=
  xs.map fun x => Irradiance.longwave x.em x.temp x.svf x.cloud (rockFraction xs) x.sw x.ts

end Verif.LongwaveField
