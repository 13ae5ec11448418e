import Verif.Model.Gaps
import Verif.Model.Meteorology

/-!
# Weather with gaps from station data with gaps

As `Meteorology.forcing`, but without asking that the values are present.
-/

namespace Verif.GapsMeteo

open Verif.MeteoFields (Station)
open Verif.Meteorology (Setup Met)

variable {ι : Type*} [DecidableEq ι]

/-- Inputs of the multilayer snow model at a pixel, NaN where a value is missing; dry air density `model.py:847`, latent
heat `model.py:830`, saturation humidity `surface.py:522-539`. `none`: pressure missing (depends on elevation only,
`model.py:825`). -/
noncomputable def weather (m : Met ι) (i : ι) (sw lw : Option ℝ) : Option Gaps.Weather :=
  (m.press i).map fun p =>
    { temp := m.temp i
      wetBulb := m.wet i
      specHum := m.spec i
      swIn := sw
      lwIn := lw
      wind := m.wind i
      rain := m.rain i
      snow := m.snow i
      density := (m.temp i).map fun t => Atmosphere.modelDensity t p
      latVap := (m.temp i).map Atmosphere.latentHeat
      qsat := fun x => (SurfaceTemp.satHumidity p x).getD 0 }

/-- A time step: the records of the stations and the incoming radiation at the pixel, if known. -/
structure Hour where
  stations : List Station
  sw : Option ℝ
  lw : Option ℝ

/-- Inputs at a pixel in a series of time steps, `model.py:263-290`. -/
noncomputable def weathers (s : Setup ι) (fuel : ℕ) (i : ι) (hs : List Hour) : Option (List Gaps.Weather) :=
  hs.mapM fun d => (Meteorology.step s fuel d.stations Meteorology.blank).bind fun m => weather m i d.sw d.lw

end Verif.GapsMeteo
