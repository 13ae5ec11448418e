# Formal model of openAMUNDSEN in Lean 4: design

## What this is

`/verif/lean` holds a Lean 4 model of the computational core of openAMUNDSEN and
proofs of the properties in `properties.jsonl`. The Python source was read as text;
it was neither built nor run. Every model definition cites the file and lines it mirrors.

## Layout

* `Verif/Model/*.lean` – one file per source area; definitions only (plus tiny `rfl` lemmas).
* `Verif/Spec/*.lean` – specification notions that do not mention the model
  (cumulative profile, interval partition, weighted mean, ...).
* `Verif/Lemmas/*.lean` – helper lemmas.
* `Verif/Props/*.lean` – the property theorems, named `Cnn_...`, each with an `example`
  showing that a concrete non-trivial case meets its hypotheses.
* Theorems with suffix `_partial` prove part of a claim; theorems with suffix `_false`
  (or `_witness`) prove that a claim as a user would expect it does **not** hold of the code.

## Modelling conventions

* **Numbers.** Python floats are modelled by exact numbers: an arbitrary linearly ordered field
  `K` where the code only adds, multiplies, divides and compares, and `ℝ` where it needs
  `exp`, `log`, `sqrt`, powers or trigonometry. Rounding is modelled for the water kernels of the
  cryolayer model and the relayering of the multilayer model only (C137, C138); overflow, signed
  zero and infinities are outside the model.
* **Missing values.** NaN is `none : Option K` wherever the code tests for it or where a NaN
  can enter from forcing data. Comparisons with NaN are false as in IEEE.
* **Division.** Lean's `x / 0 = 0` is never relied upon. Where the divisor can be zero in the
  code, the model branches on it explicitly (`none`/error for `0/0`, limit value for `x/0`
  as in the IEEE arithmetic numba and numpy use), or the theorem's hypotheses exclude it
  by exactly the condition that the code checks.
* **Exceptions** are values (`Except`/`Option`).
* **Time** is an integer number of minutes (or an index); calendars are modelled explicitly
  where the code inspects day, month and year.
* **Pixels.** numba `prange` kernels are modelled per pixel; `Verif/Model/Grid.lean` lifts a
  pixel function to the grid, and C08 proves the lift independent of the thread schedule. C136 does
  without this convention: there the kernels are programs of single memory accesses, arbitrarily interleaved.
* **Constants** have the decimal values of `constants.py`.

## Trusted base

* Lean 4.33.0's kernel and the Mathlib definitions used in statements.
* Axioms: only `propext`, `Classical.choice`, `Quot.sound` (checked with `#print axioms`
  by `scripts/axioms.sh`, which prints how many theorems depend on each). No own axioms, no `sorry`, no
  `native_decide`, no `bv_decide`.
* The hand translation from Python to Lean. It was checked by reading, by the examples beside the theorems and by
  edits of the model (last section), never by running the program.
* Third-party behaviour (numpy, pandas, xarray, rasterio, numba, pyproj, pwlf, cerberus) is represented only by the
  explicitly modelled operations. In particular: kernels compiled with `parallel=True` use the error model of numpy
  (`x/0` is infinite or NaN) and do not check array bounds; the other compiled functions raise on division by zero.
* The tables of `DataFlow` (C102, C120) are transcriptions: which state variables each module declares, reads and sets.
  The theorems hold for every behaviour of the modules that respects the tables.
* `Parallel` (C136) assumes that single reads and writes of array elements are atomic and sequentially consistent.
* Exact arithmetic in all modules except `Rounded` and `RoundedLayers` (C137, C138). There, rounding is any monotone
  function with bounded relative error that keeps its own results and 1; floating point formats of any precision and
  rounding direction are proved to be such functions. Overflow, underflow and signed zeros are not modelled.

## Not modelled

* File formats, NetCDF/CSV encoding, coordinate reprojection (`pyproj`), YAML parsing.
* Floating-point rounding, except as said above; in particular not for `exp`, `log`, powers and trigonometry.
* Performance, logging text, progress display, the live view GUI, the command line.
* The search for the best break points of the piecewise regression (`pwlf`); the fit for given break points is modelled (C91).
* The external snow management module.

## Which code is modelled

Every definition of `Verif/Model` cites the lines it stands for; `scripts/coverage.py --gaps` lists the lines inside of functions
that no definition cites. Lines cited / lines of code (without docstrings and comments):

| source (`openamundsen/`) | cited | modules (`Verif/Model/`) | left out |
|---|---|---|---|
| `__init__.py` | 0/22 |  | package exports, version |
| `cli.py` | 0/7 |  | command line |
| `conf.py` | 150/183 | Config, Time | reading the YAML files and printing validation messages; cerberus itself (its rules are modelled as far as C03, C52, C53 and C120 use them) |
| `fileio/griddedoutput.py` | 495/542 | GridDataset, Gridded, Layouts, OutputDef, RoiPixel, WriteDates | opening and closing files, NetCDF encodings |
| `fileio/meteo.py` | 304/304 | Forcing, ForcingPath, Resample, StationFiles, Stations, WindDir |  |
| `fileio/pointoutput.py` | 253/253 | OutputDef, PointOutput |  |
| `fileio/raster.py` | 54/54 | GridGeom, InputGrids, SvfFile |  |
| `forcing.py` | 194/194 | Forcing, ForcingPath, InitForcing, StationFiles, Stations |  |
| `heatconduction.py` | 96/96 | HeatConduction |  |
| `interpolation.py` | 45/45 | Idw, MeteoFields, MeteoInterp, Parallel, Piecewise |  |
| `landcover.py` | 71/77 | CropCoeff, LandCover | declaration of state variables |
| `liveview.py` | 0/120 |  | window |
| `logformat.py` | 0/23 |  | log texts |
| `meteo/atmosphere.py` | 128/128 | Atmosphere, Precip, WetBulbGrid |  |
| `meteo/interpolation.py` | 364/365 | ForcingPath, Idw, MeteoFields, MeteoInterp, Meteorology, Parallel, Piecewise | `pwlf` call |
| `meteo/precipcorr.py` | 214/214 | FillStations, InitForcing, PrecipCorr, PrecipTable |  |
| `model.py` | 543/661 | Atmosphere, Callback, Config, Coupled, CoupledCryo, CryoLayer, DerivedMeteo, ForcingPath, GlacierYear, Grid, GridGeom, InitForcing, InputGrids, Meteorology, MultiLayerStep, PixelBudget, PixelWater, PointOutput, Precip, Rounded, Run, SimTime, Stations, SvfFile, Time | `initialize`: the order of the calls except for the forcing (C141; the steps themselves are modelled), messages of missing data, logging |
| `modules/canopy/canopy.py` | 162/169 | Callback, Canopy, CanopySubl, LandCover, PixelWater | declaration of state variables |
| `modules/evapotranspiration/evapotranspiration.py` | 412/484 | CropCoeff, Evapo, EvapoClass, LandCover, PixelBudget, RefEvapo, SealedEvap, SoilWater | declaration of state variables (names: `DataFlow`) |
| `modules/glacier/glaciermodel.py` | 134/143 | Glacier, GlacierMass, GlacierYear | declaration of state variables |
| `modules/radiation/clearsky.py` | 120/120 | ClearSky, ClearSkyField, Terrain, TerrainGaps |  |
| `modules/radiation/irradiance.py` | 272/272 | Callback, ClearSkyField, Irradiance, ShadowGrid |  |
| `modules/radiation/shadows.py` | 52/52 | Shadows |  |
| `modules/radiation/sunparams.py` | 59/59 | SimTime, Sun |  |
| `modules/snow/cryolayermodel.py` | 311/329 | CoupledCryo, CryoLayer, PixelWater, Rounded | declaration of state variables, `update_surface_layer_type` |
| `modules/snow/multilayermodel.py` | 277/321 | Coupled, HeatConduction, MultiLayer, MultiLayerStep, Parallel, RoundedLayers | argument lists of the kernels |
| `modules/snow/snow.py` | 169/171 | Coupled, CoupledCryo, CryoLayer, MultiLayer, Parallel, RoundedLayers, Snow |  |
| `modules/soil/init.py` | 26/26 | Coupled, CoupledCryo, Soil |  |
| `modules/soil/soil.py` | 167/167 | Coupled, Parallel, Soil |  |
| `snowmodel.py` | 0/11 |  | abstract methods |
| `statevars.py` | 43/255 | StateVars | declarations (names, retained or not: `DataFlow`; units and descriptions not) |
| `surface.py` | 452/457 | Coupled, CoupledCryo, CryoLayer, Meteorology, Rounded, Surface, SurfaceTemp |  |
| `terrain.py` | 162/171 | Shift, SkyView, SvfFile, Terrain, TerrainGaps | mean of the openness directions |
| `tridiag.py` | 26/26 | Tridiag |  |
| `util.py` | 143/167 | Config, Freq, Grid, GridGeom, InitForcing, Layouts, RoiPixel, SvfFile | YAML, coordinate transformation (`pyproj`) |


## Plan per property

| id | model | how proved |
|----|-------|-----------|
| C01 | `Model/Run`: state machine of `run`/`run_single` over call lists | invariant by induction over call histories |
| C02 | `Model/Run`: process-global thread count | case analysis; negation with witness for the finished run |
| C03 | `Model/Time`: seconds as integers | arithmetic (divisibility) |
| C04 | `Model/Time`: Gregorian month table, dates as day numbers | counting argument over month lengths; witnesses for long steps |
| C05 | `Model/Grid`: flat row-major arrays | induction over cell lists |
| C06, C07 | `Model/StateVars` | list induction; invariant over call histories |
| C08 | `Model/Grid`: interleavings of per-pixel steps | induction over schedules |
| C09–C11 | `Model/Precip` (elevations may be NaN: the ROI may contain station pixels without elevation, `C103_roi_elevation_false`) | order reasoning in an ordered field; C11 false if a pure-rain pixel has no elevation |
| C12 | `Model/Idw` over ℝ | weighted-mean lemmas, permutation invariance |
| C13–C19 | `Model/MultiLayer` | induction over layer lists; relayering refined to a cumulative profile |
| C20 | `Model/Tridiag` | forward/backward induction, pivots from diagonal dominance |
| C21–C23 | `Model/HeatConduction` | system rows summed / extremal row argument; witness for C23 |
| C24–C27 | `Model/Snow` over ℝ | exp monotonicity, invariants over histories |
| C28–C34 | `Model/CryoLayer` | induction over the four layers, conservation per operation, composition |
| C35–C37 | `Model/Canopy` | mass balance algebra, ring buffer induction |
| C38–C42 | `Model/Evapo`, `Model/CropCoeff` | invariants over histories, search-sorted lemma |
| C43 | `Model/Glacier` | finite sums |
| C44–C47 | `Model/PointOutput`, `Model/Gridded`, `Model/RoiPixel` | induction over the time loop |
| C48–C51 | `Model/Stations`, `Model/Resample` | list/set reasoning |
| C52, C53 | `Model/Config` | decision logic |
| C54 | `Model/Config` | invariant over call histories |
| C55 | `Model/Config` | order reasoning |
| C56–C59 | `Model/MeteoInterp` | composition of the IDW results with trends and clips; witness for C58 |
| C60–C64 | `Model/Atmosphere`, `Model/PrecipCorr` over ℝ | inverse-function algebra, monotonicity; witnesses for C64 |
| C65 | `Model/MeteoInterp`: Liston wind field | normalisation range plus interval arithmetic; uniform terrain gives missing wind |
| C66 | `Model/Atmosphere`: secant iteration with fuel | induction over iterations, monotonicity of the psychrometric residual |
| C67, C68 | `Model/Terrain`: rolled rasters with copied borders | index arithmetic, trigonometry; witness that slopes are halved across the border |
| C69 | `Model/Terrain`: edge-padded shifts | index arithmetic, sign reasoning |
| C70 | `Model/Terrain`: interleaved compare and store of the parallel loop | induction for sequential schedules; witness of a lost update |
| C71 | `Model/Sun` over ℝ | trigonometric identities |
| C72, C73 | `Model/Shadows`: sweep lines, running maximum, writes in any order | induction over sweep lines; order reasoning |
| C74 | `Model/ClearSky` over ℝ | interval reasoning on powers; witness for the air mass limit |
| C75, C76 | `Model/Irradiance` | decision logic; weighted means; witness for a station outside the domain |
| C77 | `Model/Surface`: mixing and surface layer | order reasoning, algebra at the switching points |
| C78 | `Model/Surface` over ℝ | monotonicity of roots and quotients |
| C79 | `Model/Surface`: flux functions and the two-stage melt procedure | algebra; witness for the sign of the flux corrections |
| C80 | `Model/SurfaceTemp`: grid search and secant loop for one pixel | induction over the grid; invariants of the loop; witness for the dependence on other pixels; termination of the secant loop for concave balances, and for the saturation humidity of the program, which is convex on either side of the melting point but not across it (`Lemmas/SatHumidity`, `Lemmas/SecantHumidity`): one-sided argument on either side, contraction of the ratio of the last two balances across |
| C81 | `Model/Soil` over ℝ | real powers, derivative |
| C82 | `Model/Soil` with `Model/HeatConduction` | instance of the column balance; witness for the bottom flux |
| C83 | `Model/Atmosphere` | algebra; witness for the library density |
| C84 | `Model/Soil` against a separate heat content function | derivative; negation for freezing soil |
| C85 | `Model/Forcing`: variables with units, dates in seconds; frequency inference of pandas for uniform steps below a week, otherwise an arbitrary result | case analysis per variable; witnesses for cloud cover |
| C86 | `Model/Forcing`: station tables, outer join of the dates | list lookup, sorted union; witness for a gap between stations |
| C87 | `Model/GridGeom`: affine transforms without rotation | integer/field arithmetic |
| C88 | `Model/GridGeom`: linspace, meshgrid, masks | index arithmetic, induction over masks |
| C89 | `Model/WriteDates`: period boundaries as multiples of a day, instantiated with months and years | modular arithmetic; witnesses for runs not starting at midnight |
| C90 | `Model/GlacierYear`: flags of `Model/Time`, recorded storage | induction over the time loop; witness for the omitted first step |
| C91 | `Model/Piecewise`: loop over the number of segments; the fitting library is an arbitrary partial function | loop invariant over the number of segments |
| C92 | `Model/Freq`: frequency strings as lists of characters; pandas' own parser is not modelled | digit parsing round trip; witnesses for anchored frequencies |
| C93 | `Model/OutputDef`: lists of points and variables, cell lookup of `Model/Stations`, xarray's checks of names and dimension sizes | list invariants, floor arithmetic; witness for reserved names |
| C94 | `Model/OutputDef`, `Model/Gridded`: numbering of time coordinates, bounds | induction over fields, blocks of C45; witnesses for user-defined dates |
| C95 | `Model/OutputDef`: file names as strings | injectivity of the name parts; witness for a clash |
| C96 | `Model/WindDir`: mean of wind components over ℝ on top of `Model/Atmosphere` | trigonometry, sums |
| C97 | `Model/SealedEvap`: formulas over ℝ | order of ℝ; witness for the air density |
| C98 | `Model/ShadowGrid`: two-dimensional arrays as functions with shapes, station cells of `Model/Stations` and `Model/GridGeom` | index arithmetic |
| C99 | `Model/FillStations`: arrays per date, interpolation of `Model/MeteoInterp` | case analysis per station and date |
| C100 | `Model/LandCover`: maps as functions, classes as association list | list membership |
| C101 | `Model/Glacier` extended: sorting by elevation, minima | order statistics of lists |
| C102 | `Model/DataFlow`: modules as steps with sets of variables read, written and conditionally written, arbitrary functions respecting them; table of the modules of a time step | soundness of a taint analysis by induction over modules and time steps, evaluated on the table; witness for the glacier ids |
| C103 | `Model/InputGrids`: rasters as functions to optional values | case analysis per pixel; witnesses for stations on nodata pixels and glacier nodata values |
| C104 | `Model/MeteoFields`: fields as functions of pixels on top of `Model/MeteoInterp` | unfolding per pixel, list filters |
| C105 | `Model/DerivedMeteo`: composition of `Model/Atmosphere`, canopy of `Model/Canopy` | order of ℝ, monotonicity of the Magnus formula; witness for forest pixels |
| C106 | `Model/Shift`: arrays as functions with shapes | index arithmetic; witness for the retain mode |
| C107 | `Model/SoilWater`: tables as functions of the texture class, formulas over ordered fields | case analysis over the nine classes; witnesses for shallow layers and coarse soils |
| C108 | `Model/PixelWater`: precipitation, canopy and snow models of a pixel in sequence | induction over time steps from the step balances C33, C18, C35 |
| C109 | `Model/RefEvapo`: formulas over ℝ | algebra and order of ℝ; independent statement of FAO-56 equation 53 |
| C110 | `Model/EvapoClass`: dispatch over the kinds of classes on top of `Model/Evapo` | case analysis, induction over time steps |
| C111 | `Model/ClearSkyField`: fields as functions of pixels on top of `Model/ClearSky`, `Model/ShadowGrid` | unfolding per pixel |
| C112 | no new model: `Model/PointOutput` and `Model/Gridded` side by side | from C44 and C46 |
| C113 | `Model/StationFiles`: metadata as lists, files as partial functions | list induction, filters |
| C114 | `Model/GridDataset`: variables with dimension names and sizes; creation fails on conflicting sizes | list induction; witness that the layer check never fires |
| C115 | `Model/PrecipTable`: `Model/FillStations`, phase of `Model/Precip` and `Model/DerivedMeteo`, factors of `Model/PrecipCorr` in sequence over a table | list induction, per record; C64 and C99 for the parts |
| C116 | `Model/SvfFile`: the file as optional state carried from run to run, rounding to 3 decimals | induction over runs; witnesses for the first run and for stale files |
| C117 | `Model/SimTime`: calendar of `Model/Time`, sun of `Model/Sun` | integer division, periodicity; witness near midnight |
| C118 | `Model/ForcingPath`: composition of `Model/StationFiles`, slicing, `Model/Forcing`, `Model/MeteoFields`; files at the model step, no filters, no precipitation corrections | positions of the stations in the combined dataset (`final_rows`), values through slicing, then `C113_*`, `C104_station`, `C57_*` |
| C119 | `Model/PixelBudget`: `Model/PixelWater` and `Model/EvapoClass` in sequence | induction over time steps from C108 and C110; witness for rain on snow and meltwater |
| C120 | `Model/DataFlow` extended by a table of declarations | case analysis over all configurations |
| C121 | `Model/MultiLayerStep` (IEEE division: NaN is `none`) | exact condition for an undefined redistribution by induction over the layers (`C16_relayering_undefined_iff`), shape of the pack after melt and sublimation, invariant over a run; false in general: witness run from bare ground with a thin remainder. With rounding (not modelled) such a remainder can also be left by a complete melt, because the demand is the rounded sum of the ice contents |
| C122 | `Model/Coupled` composes the models of snow, albedo, soil, surface and heat conduction in the order of `_model_interface`, from the state of `initialize` | every step of the coupled model is a step of `Model/MultiLayerStep` with admissible inputs (refinement), hence C18 and C121 apply; the preconditions of the energy balance, heat conduction and compaction are discharged from an invariant of the state; induction over the forcing series. Meteorological values are present (NaN forcing is not modelled here); canopy, evapotranspiration, snow management and glaciers are off |
| C123 | `Model/MultiLayerStep` | invariant by cases over the phases: melt resets warm layers, refreezing stops at the melting point, merged energy is a sum of non-positive terms |
| C124 | `Model/CoupledCryo` composes the models of the cryolayers, albedo, surface, humidity and the search for the surface temperature in the order of `_model_interface`, for a whole domain (the search is shared by its pixels), from the state of `initialize`; an endless search is `none`, NaN in a pixel is `none` for that pixel | every step of a pixel is a step of `Model/CryoLayer` with admissible inputs (refinement), hence C33 and C24 apply; the search ends by C80 with the conditions on the balance derived from the weather; albedo of firn and ice as an additional invariant; independence of pixels by induction over the series; witness for the latent heat of melting snow without a new snow layer. Meteorological values are present; soil, canopy, evapotranspiration, snow management and glaciers are off |
| C125 | `_compaction_anderson` repeated over any series of air temperatures (`Model/Snow`); the coupled cryolayer run of `Model/CoupledCryo` | false of the code: the rate is positive at every density, so a layer passes every density after finitely many steps (the increment is bounded below on bounded densities); for every configuration with retention in the pore volume a run of cold, calm, dry days after one snowfall ends with negative liquid water and runoff, by tracking the single layer through the whole step |
| C126 | `Surface.Pixel.energyBalance` (one linearised step of the multilayer energy balance) and the coupled run of `Model/Coupled` | the balance linearised at the present temperature is evaluated at `m` and at `M`; radiation by factoring the quartic, sensible and latent heat together, conduction termwise; induction over the series. The bounds on radiation, humidity and layer temperature are hypotheses about the step (soil and snow temperatures are not bounded here, because the flux into the top layer is explicit in time); for the saturation humidity of the program the condition on evaporation is proved |
| C127 | `Heat.tempChange` with the flux of `Surface.Pixel.groundFlux`; `Model/Coupled` | the maximum principle of C22 with a flux: the top layer enters it with the temperature it would have after receiving the flux alone, a convex mean of its old and the surface temperature if 2λΔt ≤ Δz·C. Witnesses over ℚ for one step; growth over n steps by a closed form for one layer. Runs: lower bounds through melt, sublimation, runoff and relayering as in C123 (convex cone of heat contents), upper bound from C123, soil column with the same principle; induction over the series. The conditions for the snow are stated for the step (thin snow exchanges heat with the surface through a layer mixed with soil, so no condition on the configuration suffices) |
| C128 | `Atmosphere.wetBulb` (fuel in place of `while True`), `DerivedMeteo.process` | the saturation vapor pressure minus its jump at the melting point is continuous with slope bounds; near-convexity (kink of at most 6 Pa/K) and a bound on the growth of the slope over 10 K show that every secant step contracts the distance to the root up to an additive error from the jump; near the root the contraction is strong enough to meet the tolerance. Geometric contraction gives at most 69 rounds whatever the input. `WetBulbGrid.loop` is the loop over whole arrays, which ends when no element moves any more; every element reaches the value it reaches alone (refinement), so 70 rounds suffice for every grid |
| C129 | `Meteorology.step`: composition of `MeteoFields.interpolateData`, `DerivedMeteo.process`, `WetBulbGrid.wetBulbs`, `Precip.process`; `forcing`, `cryoForcing`: inputs of `Coupled.run` and `CoupledCryo.run` | the ranges of the stages (C104, C105, C128, C10) give the hypotheses `ForcingOK`, `Weather`, `Shade` of the runs (C122, C124), which then hold for all station data. Open pixels only; incoming radiation is an input |
| C130 | `CanopySubl.massLoss`: mass loss rate of an ice sphere from albedo, radiation, wind, temperature, vapour pressure and humidity, `rate` the coefficient that `Canopy.snowStep` takes | equivalence with an independent system of two balance equations with the particle temperature as second unknown (`Sphere`), solved uniquely; sign and monotonicity from the closed form with the Nusselt number factored out; `_false` for the vapour density |
| C131 | `GlacierMass.updateGeometry`: all glaciers one after the other (`Glacier.updateLimited`), write back to thickness and ice content of all pixels, `Cryo.updateLayers` | water equivalent of a pixel before and after in closed form, from `writeBack` and the mass conservation of `updateLayers` (C29); growth over the years by induction; glaciers in balance keep their shape and gains are shared equally among the thick pixels; `_partial` with transition density 917 and no liquid water |
| C132 | `Coupled.step` as in C122 | existence of the prepared snowpack, the melt demand and the new layer temperatures with the balances written out: closure of the surface from C79, layer properties from C77, column sums from C21 and C82, melt from C13, glued by `step_refines`; the claim that heat leaving the snow enters the soil is refuted with two states that differ in the soil temperature only (`_false`) |
| C133 | `Model/Resample`: slicing and resampling of a file by kind of variable, the comparison of the spelled with the inferred time step as a flag | bins of a regular series hold one record each; equality of sorted lists; false for daily data not spelled "D": precipitation moves to the day before |
| C134 | `Model/TerrainGaps`: the terrain formulas of `Model/Terrain` on rasters with missing values (the shifts are those of `Model/Terrain`, a result is missing as soon as a value read is missing) | exact set of cells read by each formula for every pixel; false: a missing cell makes all its neighbours lose their slope and three of them their normal vector and direct irradiance; with a complete neighbourhood the values are those of any completed raster |
| C135 | `Model/Callback`: a time step from the assigned fields through phase, redistribution (`Model/Precip`), radiation (`Model/Irradiance`) and canopy (`Model/Canopy`) to the fields at its end, for station data and for a callback; the rest of the model is an arbitrary function of these fields | the step is idempotent without redistribution factors and forest, induction over the time steps; false with redistribution factors and below a canopy (witnesses); a callback that does not assign the cloud fraction gets no longwave radiation |
| C136 | `Model/Parallel`: the bodies of the `prange` loops `_melt`, `_sublimation`, `_runoff`, `_heat_conduction`, `_update_layers`, `_compaction_anderson`, `_compaction_empirical`, `_soil_properties`, `_soil_heat_flux` and `_idw` as programs that read and write single cells of shared arrays; the threads may be interleaved between any two accesses | footprint of every program, general theorem on race-free iterations (induction over the schedule), termination under every fair schedule, and refinement: the final memory is that of the per-pixel models of C13–C17, C21, C25, C82 and C12. The loops of the shadows and of the openness do not stay in a cell of their own; C72 and C70 treat them |
| C137 | `Rounded.*`: the water of the cryolayer model with rounding after every operation; rounding is any monotone, idempotent function that keeps 1 and has relative error `u` (`IsRounding`); energy, thickness and density dependent inputs are arbitrary | signs and a relative error bound for every stage, composed over a step and by induction over the run; floating point formats of any number of digits and any rounding direction are an instance (`C137_format`); with exact arithmetic the step is that of `Model/CryoLayer` (`C137_exact`); `_false` with a two-layer pack |
| C138 | `RoundedLayers.*`: `_update_layers` with rounding after every operation, contents are any family of numbers treated alike (ice, liquid water, energy); `none` is NaN or a write behind the arrays | invariant of the loop: remaining new and remaining old thickness differ by at most the accumulated error, contents plus rest keep the total; division of a smaller by a larger number rounds below 1 (proved for the formats of C137); with exact arithmetic the loop is that of C16 (`C138_exact`); `_false` with double precision and the default configuration |
| C139 | `Terrain.*`, `Shadows.*` as they are; mirroring and transposition of rasters, directions and sun vectors as specification | border forms of the shifted rasters (`za_eq` ...), rounding to even is odd and commutes with even shifts; lines are mapped cell by cell; `_false` for normal vectors (any ridge) and for shadows of a tower on 2 x 2 pixels |
| C140 | `ForcingPath`, `StationFiles`, `Forcing`, `MeteoFields`, `PrecipTable`, `Resample` as they are, for two periods | the selection does not read the period; the records a station contributes at a date are those of its file (`at_prep`), stations without records in one of the periods contribute nothing at a date of both; corrections append date by date; bins of the resampling are the same up to the earlier end; false for daily bins that do not begin at midnight (witness) |
| C141 | new `InitForcing`: arrays in a heap, datasets as names with addresses, the formats of `initialize` with deep and shallow copies, in-place correction and extension; failures keep the heap | frame reasoning: every address a model writes is allocated by it; contents of the model's dataset equal a specification on contents alone; induction over the sequence of initialisations; the last sentence is false (`model.meteo` is accepted again): general theorem and witness |
| C142 | `Stations` and `GridGeom` plus the settings of `_read_meteo_data` | rewriting both criteria to inequalities; they differ on the upper and lower edge of the grid: exact difference and witnesses |
| C143 | `Gaps`: the coupled multilayer model with every meteorological value optional (NaN carried through each operation); cryolayer pixel, canopy and evapotranspiration with missing values | complete data: equal to `Coupled`; otherwise case split over the terms of the energy balance, refinement to `MultiLayerStep`, induction over the run; cryolayer snowpack (`GapsCryo`): refinement to `CryoLayer`, the searches restricted to pixels with known balances; false for its surface temperature, which is set to the melting point in frost (witness); canopy: false, one gap makes the intercepted load NaN for the rest of the run (exact condition and witness); fresh snow on warm ground melts without energy during a gap (witness) |
| C144 | new `ExtIrradiance`: stations with coordinates, the selection by offsets of the two grids (`Stations.rowcol`, `GridGeom.extOffsets`), the list of ratios appended in two parts, on top of `ClearSkyField.stations` and `Irradiance`; the cells of the extended DEM at the stations have elevations | floor arithmetic for the offset, permutation of the two parts to one selection, convexity of `idw`; the last sentence is false: a station within the extent of the grid but outside of the domain has no clear-sky value (the extended cell is not consulted) |
| C145 | new `AppendOutput`: a NetCDF file as sizes of its time dimensions and the contents of time, bounds and data variables (unlimited dimensions grow with a write, cells not written read as missing), the writes of `update` field by field in both modes; the values written are given (C45, C94) | exact contents after any sequence of dates by induction; strictly increasing output dates on the model time axis give the prefix and equality of the files; false for unsorted output dates (records without time in between) and for output dates between the time steps |
| C146 | `MeteoFields`, `Meteorology`, `Irradiance`, `ForcingPath` as they are | every stage is shown to be invariant under permutations (loop of the weighting by splitting at a station in the pixel centre, fits through sums, ranges through minimum and maximum of a set) and under shifts; stations without record are filtered out by `dropna`; false if two stations with different records are exactly at the centre of the same pixel (the first one decides). The fit of `pwlf` is assumed to depend on the set of points only |
| C147 | `Model/CsvOutput`: the dataset of a chunk at one point as an ordered list of named columns, the loop that adds a column per layer and drops the three-dimensional variable, the lines written to the file of the point (`pointoutput.py:424-454`), the run with in-memory data | induction over the output variables for the columns, simulation of the run of `PointOutput` for the lines; names that do not end in a digit cannot clash. False if a configured name equals the name of a layer column (the check of duplicate names does not see it): witness |
| C148 | `Gaps` with the conductance of the soil surface optional (NaN for dry soil) | moist soil: refinement to `Coupled` and the sign of the linearised balance. False for dry soil: the availability of moisture, the balance and the temperature change are NaN on bare ground under unsaturated air and the temperature never changes, by induction over a run of any length with any radiation; with snow on the ground or saturated air the conductance is not read |
| C149 | `Meteorology` (interpolation, derived variables, wet-bulb loop over all pixels, precipitation phase) for two regions of interest, followed by `Coupled` or `CoupledCryo` | pointwise for the interpolation; the wet-bulb loop ends in a common round, and pixels that are done stay where they are; equal inputs, hence equal runs; the secant search for the surface temperature likewise ends per pixel. Partial: false for the wind with method liston (minimum and maximum over the region; a single pixel has no wind at all), for snow with the rule "no snow below rain" (only monotone), for the stepwise surface temperature search (C80_other_pixels_false); incoming radiation is an input here |
| C150 | `ClearSkyField.field` for two fields of pixels with a common pixel; `LongwaveField` (longwave radiation over the region, with the share of snow-free pixels) | the averages enter only with the factor 1 - sky view factor, except for the mean albedo: partial, diffuse irradiance under an open sky is the same for regions with the same mean albedo, and strictly increases with it (false in general) |
| C151 | `Surface.Pixel.energyBalance` (model of C79); C126 is the version with a fixed interval, this one speaks of the drivers of the step | multiply the distance of the new temperature from a bound by the slope: each term has the right sign, for emitted radiation because the tangent of the fourth power lies below it. Lower bound: partial, precipitation must not cool the surface (heat advected by heavy rain is not in the denominator: witness). Upper bound false: from a cold start the tangent overshoots the radiative equilibrium (witness); partial, the overshoot is of second order in the distance from the bound. Positivity without any condition on evaporation, from the Clausius-Clapeyron slope |
| C152 | models of C24, C26 (`Snow.albedo`, `Snow.empiricalLayer`, `Snow.anderson`) and C28 (`Cryo.tiMelt`, `melt`, `sublimation`, `accumulation`, `runoff`) | each process is a flow: the step of length s + t is the step of length t after that of length s, amounts add; induction over the number of sub-steps. The processes are taken one at a time. False for the continuous refresh of the albedo at moderate snowfall (more steps give brighter snow) and for Anderson compaction (explicit; witness): partial |
| C153 | model of C28, C32, C33 (`Cryo.step`, `Cryo.run` with `MeltIn.index`) | the ice content after a step is a function of the ice before it, snowfall, potential melt and potential sublimation only (closed formula), monotone in each; induction over two runs side by side, with different configurations. The albedo of the enhanced method is an input; compared with the albedo the model itself computes, the order can be reversed (witness). The water equivalent with its liquid part is not ordered (witness) |
| C154 | model of C28, C29, C33 (`Cryo.step`, `Cryo.run`) and of the multilayer model (`MultiLayer.step`) | a layer that leaves `updateLayers` with thickness 0 is the reset layer in every field; with the albedo of C33 a pixel without ice after a step is the initial pixel; equal states have equal continuations. For temperature-index melt combined with C153. For the multilayer model the heat capacities of emptied slots are left over, and are proved never to be used. The surface and soil are not part of this state |
| C155 | model of C28, C32, C33 (`Cryo.step`, `Cryo.run` with `MeltIn.index`) | by the formula of C153 the ice after a step is the positive part of a sum, which is not farther apart for two runs than their arguments; induction over both runs. Needs moisture fluxes that are not directed to the surface: deposition happens on remaining ice only, so that a vanishing remnant can make a finite difference (witness): partial |
| C156 | model of C37–C40 (`Evapo.sealedStep`, `singleStep`, `dualStep` and their runs) | the steps for sealed surfaces and for single crop coefficients are monotone in state, rain and demand and do not increase differences; induction over both runs. The root zone needs time steps without rain or with a potential evapotranspiration of at most TAW − RAW (witness for the reversed order otherwise). With dual crop coefficients the claim is false: rain in two consecutive time steps refills the evaporation layer, rain in one does not, so the wetter run evaporates more (witness started at field capacity): partial |
| C157 | `Model/Layouts` (types, fill values, storing, decoding by xarray, conversion) on top of `Model/RoiPixel` | reduction to C47 for arbitrary values; cells of the region agree for all kinds of variables, whole fields for float variables without data outside of the region. False for integer variables: their initial value 0 stays outside of the region in the grid layout while the conversion inserts -2147483648, and after reading a file the inserted value is an ordinary number (witness for every region with a cell outside). Trusted: `xarray.open_dataset` masks values equal to `_FillValue` and moves it to `encoding`: partial |
| C158 | model of C21–C23 and C82 (`Heat.tempChange`, `Soil.soilTemperature`), time steps chained with changing properties | the difference of two columns obeys the layer balances of C21; where it is smallest no heat leaves, so it is not below its old minimum (discrete comparison principle); induction over the time steps. The properties of both columns are the same in a time step; with the properties of the soil model freezing can reverse the order, shown for every soil of which half the water freezes above −10 °C (`C158_freezing_false`) |
| C159 | model of C12, C56–C58 (`MeteoInterp.interpolate`) for two sets of measurements at the same stations | inverse distance weighting is monotone and commutes with adding a constant; so are detrending with a fixed lapse rate and clipping (both limits of the data move with the measurements), hence the bound. False with a fitted trend: a higher measurement at the lower of two stations steepens the gradient and lowers the values above the upper one, by more than the change (witness). Relative humidity (through monotone dew points above the pole of the Magnus formula) and adjustment factors (for precipitation at all elevations, otherwise within `1 / lapse` of the gauges) keep the order, but the bound by the same amount is not claimed for them; fractional lapse rates reverse it below a gauge (witness): partial |
| C160 | `Model/OpennessMap.lean`: `openness` and `_openness_dir` with atomic iterations (any order, C70) on top of `_shift_arr_retain` (C106); elevations are numbers, `arctan2` is the argument of a complex number (C70) | every angle is `π/2 - arctan(dz/dist)`; shifting commutes with maps of the elevations; the minimum over more distances is smaller; on a plane opposite directions cancel. False within the radius of the border, where the retained elevations limit the angle to 90 degrees (witness): the plane is partial |
| C161 | models of C72 (`Shadows`) and C73 (`SkyView`) for two rasters that differ in elevation | a hiding cell stays on the same scanning line and only gets higher (`C72_shaded_iff`); the lowest lit elevation of the horizon search does not fall, the squared cosine does not grow. The search ends at the steepest slope of the raster; if raising terrain makes this slope smaller (a pit is filled), cells that are never lit get a smaller angle: partial, with a witness for the search |
| C162 | model of C12 (`Idw`), smoothing 0; the distance is restated in the specification | the weight of the near station bounds the sum of weights from below, every other weight is at most `1 / D^power`; the limit follows with the triangle inequality; for the mean, the weights are compared with their smallest value |

## Testing the theorems against wrong programs

`scripts/mutate.py` edits one definition in a scratch copy, rebuilds, removes the declarations that fail and
rebuilds until the copy compiles. `theorems_failed` in `seeded/LOG.jsonl` is then exactly the set of theorems that
fail or use one that fails. Every attempt is logged. `missed` lists properties that were expected to notice and did
not; a later line with the same id is the repetition after a theorem was tightened (`theorems_tightened`) or after a
wrong expectation was corrected, and the earlier line is marked `superseded`.

Lines without `"method": "exact"` come from an earlier version of the script, which built only once. It could not see
past the first failing module and completed the list by name; those lists are approximate. That version also wrote
only noticed attempts to the log; the missed ones were restored from its scratch output.

`scripts/automut.py` makes random single-token edits (operators, comparisons, constants, conditions, projections) and
builds until the first declaration fails; `--untested` picks definitions that no edit has touched so far. Results are in
`seeded/AUTO.jsonl`. An edit that survives was looked at by hand: either it is equivalent, or a theorem was added or
tightened and the edit repeated.
